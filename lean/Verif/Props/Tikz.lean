/-
C98: keeping only the latest TikZ plot.
-/
import Verif.Lemmas.Tikz
namespace Verif

section
variable {C : Type}

/-- The name of the plot of a diagnostic at a time index. -/
def plotName (base : Name) (t : Nat) : Name := base ++ ['_'] ++ pyStr t

/-- The name of its PDF file. -/
def pdfName (base : Name) (t : Nat) : Name := plotName base t ++ ['.', 'p', 'd', 'f']

theorem plotName_ne_nil (base : Name) (t : Nat) : plotName base t ≠ [] := by
  unfold plotName
  simp

theorem pdfName_stem (base : Name) (t : Nat) : pathStem (pdfName base t) = plotName base t := by
  have := pathStem_append (plotName base t) ['p', 'd', 'f'] (plotName_ne_nil base t) (by simp) (by decide)
  rw [← this]
  unfold pdfName
  simp

theorem pdfName_suffix (base : Name) (t : Nat) : IsPdf (pdfName base t) := by
  have := pathSuffix_append (plotName base t) ['p', 'd', 'f'] (plotName_ne_nil base t) (by simp) (by decide)
  unfold IsPdf pdfName
  rw [show plotName base t ++ ['.', 'p', 'd', 'f'] = plotName base t ++ ['.'] ++ ['p', 'd', 'f'] by simp, this]

theorem plotName_inj {base : Name} {s t : Nat} (h : plotName base s = plotName base t) : s = t := by
  unfold plotName at h
  exact pyStr_injective (List.append_cancel_left h)

theorem pdfName_inj {base : Name} {s t : Nat} (h : pdfName base s = pdfName base t) : s = t :=
  plotName_inj (List.append_cancel_right h)

theorem rfindDot_none {f : Name} (h : '.' ∉ f) : rfindDot f = none := by
  unfold rfindDot
  have : f.reverse.takeWhile (· ≠ '.') = f.reverse := by
    rw [List.takeWhile_eq_self_iff]
    intro c hc
    rw [List.mem_reverse] at hc
    simp only [ne_eq, decide_not, Bool.not_eq_eq_eq_not, Bool.not_true, decide_eq_false_iff_not]
    rintro rfl
    exact h hc
  simp only [this]
  simp

theorem pathStem_self {f : Name} (h : '.' ∉ f) : pathStem f = f := by
  unfold pathStem
  rw [rfindDot_none h]

theorem dot_not_mem_plotName {base : Name} (h : '.' ∉ base) (t : Nat) : '.' ∉ plotName base t := by
  unfold plotName
  rw [List.mem_append, List.mem_append, not_or, not_or]
  refine ⟨⟨h, by decide⟩, fun hc => ?_⟩
  have := pyStr_isDigit hc
  exact absurd this (by decide)

theorem plotName_inSeries {base : Name} (h : '.' ∉ base) (t : Nat) : InSeries (base ++ ['_']) (plotName base t) t :=
  ⟨pyStr t, pathStem_self (dot_not_mem_plotName h t), pyStr_isNumeral t⟩

theorem pdfName_inSeries (base : Name) (t : Nat) : InSeries (base ++ ['_']) (pdfName base t) t :=
  ⟨pyStr t, pdfName_stem base t, pyStr_isNumeral t⟩

theorem plotName_ne_pdfName {base : Name} (h : '.' ∉ base) (s t : Nat) : plotName base s ≠ pdfName base t := by
  intro he
  apply dot_not_mem_plotName h s
  rw [he]
  unfold pdfName
  simp

/-- One plot: its time index, the files of `tikzplotlib` and the contents of the PDF file. -/
structure TikzPlot (C : Type) where
  t : Nat
  tex : List (Name × C)
  pdf : C

/-- Plotting one after the other until an exception occurs. -/
def tikzSeries (base : Name) : List (TikzPlot C) → Fs C → Fs C × Option PyErr
  | [], fs => (fs, none)
  | e :: es, fs =>
    match outputTikz fs (plotName base e.t) e.tex e.pdf true with
    | (fs', none) => tikzSeries base es fs'
    | (fs', some x) => (fs', some x)

theorem tikzSeries_snoc (base : Name) (e : TikzPlot C) : ∀ (es : List (TikzPlot C)) {fs fs1 fs2 : Fs C},
    tikzSeries base es fs = (fs1, none) → outputTikz fs1 (plotName base e.t) e.tex e.pdf true = (fs2, none) →
    tikzSeries base (es ++ [e]) fs = (fs2, none)
  | [], fs, fs1, fs2, h1, h2 => by
    cases h1
    unfold tikzSeries
    rw [List.nil_append]
    simp only
    rw [h2]
    rfl
  | a :: es, fs, fs1, fs2, h1, h2 => by
    rw [List.cons_append]
    unfold tikzSeries at h1 ⊢
    split at h1
    · next he =>
      exact tikzSeries_snoc base e es h1 h2
    · cases h1

/-- C98. Plots of a diagnostic at increasing time indices, in a folder without earlier plots
of this diagnostic: no exception occurs, the latest plot is there with all its files, every
earlier one only as its PDF file, which has moved up unchanged, and all other entries of the
folder are as they were.  The name of the diagnostic contains no dot; the files that
`tikzplotlib` writes end in `.tex` or `.tsv`. -/
theorem C98_series_partial {base : Name} (hdot : '.' ∉ base) {fs : Fs C} (hfs : fs.Distinct)
    (hnew : ∀ n k, fs.get n ≠ none → ¬ InSeries (base ++ ['_']) n k) :
    ∀ (n : Nat) (es : List (TikzPlot C)), es.length = n → es.Pairwise (fun a b => a.t < b.t) →
      (∀ e ∈ es, (e.tex.map (·.1)).Nodup ∧ ∀ p ∈ e.tex, IsTex p.1) →
    ∃ fs', tikzSeries base es fs = (fs', none) ∧ fs'.Distinct ∧
      (∀ e, es.getLast? = some e →
        fs'.get (plotName base e.t) = some (.dir (e.tex ++ [(pdfName base e.t, e.pdf)]))) ∧
      (∀ e ∈ es.dropLast, fs'.get (pdfName base e.t) = some (.file e.pdf)) ∧
      ∀ n, (∀ e, es.getLast? = some e → n ≠ plotName base e.t) → (∀ e ∈ es.dropLast, n ≠ pdfName base e.t) →
        fs'.get n = fs.get n := by
  intro n
  induction n with
  | zero =>
    intro es hn _ _
    rw [List.eq_nil_of_length_eq_zero hn]
    exact ⟨fs, rfl, hfs, by simp, by simp, fun _ _ _ => rfl⟩
  | succ n ih =>
    intro es hn hpw htex
    rcases List.eq_nil_or_concat es with rfl | ⟨es, e, rfl⟩
    · simp at hn
    rw [List.concat_eq_append] at *
    rw [List.length_append, List.length_singleton] at hn
    rw [List.pairwise_append] at hpw
    obtain ⟨hpw1, _, hpw2⟩ := hpw
    have hlt : ∀ a ∈ es, a.t < e.t := fun a ha => hpw2 a ha e (by simp)
    obtain ⟨f1, e1, ed, e2, e3, e4⟩ := ih es (by omega) hpw1 fun a ha => htex a (by simp [ha])
    have hnone : ∀ m k, InSeries (base ++ ['_']) m k → fs.get m = none := by
      intro m k hm
      by_contra h
      exact hnew m k h hm
    -- what is in the folder before
    have hmem : ∀ m, f1.get m ≠ none → (∃ a, es.getLast? = some a ∧ m = plotName base a.t) ∨
        (∃ a ∈ es.dropLast, m = pdfName base a.t) ∨ fs.get m ≠ none := by
      intro m hm
      by_contra hcon
      rw [not_or, not_or] at hcon
      obtain ⟨c1, c2, c3⟩ := hcon
      rw [e4 m (fun a ha he => c1 ⟨a, ha, he⟩) (fun a ha he => c2 ⟨a, ha, he⟩)] at hm
      exact c3 hm
    have hlast : ∀ a, es.getLast? = some a → a ∈ es := fun a ha => List.mem_of_getLast? ha
    have hfree : f1.get (plotName base e.t) = none := by
      rw [e4, hnone _ _ (plotName_inSeries hdot e.t)]
      · intro a ha he
        have := plotName_inj he
        have := hlt a (hlast a ha)
        omega
      · exact fun a _ => plotName_ne_pdfName hdot _ _
    obtain ⟨new, hnewl⟩ : ∃ new, new = e.tex ++ [(pdfName base e.t, e.pdf)] := ⟨_, rfl⟩
    obtain ⟨f2, hf2⟩ : ∃ f2, f2 = f1.put (plotName base e.t) (.dir new) := ⟨_, rfl⟩
    have hget2 : ∀ m, f2.get m = if m = plotName base e.t then some (.dir new) else f1.get m := by
      intro m
      rw [hf2, Fs.get_put]
    have hout : outputTikz f1 (plotName base e.t) e.tex e.pdf true = deleteEarlierTikz f2 (plotName base e.t) := by
      unfold outputTikz
      rw [hfree]
      simp only [if_pos]
      rw [hf2, hnewl]
      rfl
    -- the members of the series
    have hser : ∀ m k, f2.get m ≠ none → InSeries (base ++ ['_']) m k →
        (m = plotName base e.t ∧ k = e.t) ∨ (∃ a, es.getLast? = some a ∧ m = plotName base a.t ∧ k = a.t) ∨
          ∃ a ∈ es.dropLast, m = pdfName base a.t ∧ k = a.t := by
      intro m k hm hs
      rw [hget2] at hm
      split_ifs at hm with h0
      · left
        refine ⟨h0, ?_⟩
        rw [h0] at hs
        exact hs.unique (plotName_inSeries hdot e.t)
      · rcases hmem m hm with ⟨a, ha, rfl⟩ | ⟨a, ha, rfl⟩ | h1
        · exact .inr (.inl ⟨a, ha, rfl, hs.unique (plotName_inSeries hdot a.t)⟩)
        · exact .inr (.inr ⟨a, ha, rfl, hs.unique (pdfName_inSeries base a.t)⟩)
        · exact absurd (hnone m k hs) h1
    have hd2 : f2.Distinct := by rw [hf2]; exact ed.put _ _
    obtain ⟨l, l1, l2, l3, l4⟩ := C73_earlier_files (f2.map (·.1)) base e.t true (by
      intro _ m hm k hs
      rcases hser m k (Fs.mem_names.1 hm) hs with ⟨_, rfl⟩ | ⟨a, ha, _, rfl⟩ | ⟨a, ha, _, rfl⟩
      · omega
      · exact (hlt a (hlast a ha)).le
      · exact (hlt a (List.dropLast_subset _ ha)).le)
    -- the folders among them
    have hdir : ∀ d ∈ l, ∀ k, f2.get d = some (.dir k) → ∃ a, es.getLast? = some a ∧ d = plotName base a.t ∧
        k = a.tex ++ [(pdfName base a.t, a.pdf)] := by
      intro d hd k hk
      obtain ⟨h1, i, hi, hs⟩ := (l4 d).1 hd
      rcases hser d i (Fs.mem_names.1 h1) hs with ⟨_, rfl⟩ | ⟨a, ha, rfl, rfl⟩ | ⟨a, ha, rfl, rfl⟩
      · omega
      · refine ⟨a, ha, rfl, ?_⟩
        rw [hget2, if_neg (fun he => by have := plotName_inj he; omega), e2 a ha] at hk
        cases hk
        rfl
      · rw [hget2, if_neg (fun he => plotName_ne_pdfName hdot _ _ he.symm), e3 a ha] at hk
        cases hk
    have hpdf2 : ∀ a, es.getLast? = some a → f2.get (pdfName base a.t) = none := by
      intro a ha
      rw [hget2, if_neg (fun he => plotName_ne_pdfName hdot _ _ he.symm), e4,
        hnone _ _ (pdfName_inSeries base a.t)]
      · exact fun b _ he => plotName_ne_pdfName hdot _ _ he.symm
      · intro b hb he
        have h1 := pdfName_inj he
        have hes : es = es.dropLast ++ [a] := by
          have hne : es ≠ [] := by
            rintro rfl
            cases ha
          have := List.dropLast_append_getLast hne
          rw [List.getLast?_eq_some_getLast hne] at ha
          rw [← Option.some.inj ha]
          exact this.symm
        rw [hes, List.pairwise_append] at hpw1
        have := hpw1.2.2 b hb a (by simp)
        omega
    have hrem : Removable f2 l := by
      refine ⟨fun d hd => Fs.mem_names.1 ((l4 d).1 hd).1, hd2.sublist l3, ?_, ?_, ?_, ?_⟩
      · intro d hd k hk
        obtain ⟨a, ha, rfl, rfl⟩ := hdir d hd k hk
        obtain ⟨t1, t2⟩ := htex a (by simp [hlast a ha])
        rw [List.map_append, List.nodup_append]
        refine ⟨t1, by simp, ?_⟩
        intro x hx y hy he
        obtain ⟨p, hp, rfl⟩ := List.mem_map.1 hx
        simp only [List.map_cons, List.map_nil, List.mem_singleton] at hy
        have := (t2 p hp).not_pdf
        rw [he, hy] at this
        exact this (pdfName_suffix base a.t)
      · intro d hd k hk p hp
        obtain ⟨a, ha, rfl, rfl⟩ := hdir d hd k hk
        rcases List.mem_append.1 hp with hp | hp
        · exact .inr ((htex a (by simp [hlast a ha])).2 p hp)
        · rw [List.mem_singleton] at hp
          rw [hp]
          exact .inl (pdfName_suffix base a.t)
      · intro d hd k hk p hp hpp
        obtain ⟨a, ha, rfl, rfl⟩ := hdir d hd k hk
        rcases List.mem_append.1 hp with hp | hp
        · exact absurd hpp ((htex a (by simp [hlast a ha])).2 p hp).not_pdf
        · rw [List.mem_singleton] at hp
          rw [hp]
          exact hpdf2 a ha
      · intro d hd k hk d' hd' k' hk' hne
        obtain ⟨a, ha, rfl, rfl⟩ := hdir d hd k hk
        obtain ⟨b, hb, rfl, rfl⟩ := hdir d' hd' k' hk'
        rw [ha] at hb
        cases hb
        exact absurd rfl hne
    obtain ⟨f3, g1, g2, g3, g4⟩ := tikzDirs_spec l hrem
    have hdel : deleteEarlierTikz f2 (plotName base e.t) = (f3, none) := by
      unfold deleteEarlierTikz
      have : findIndexInName (plotName base e.t) = .ok (some e.t) :=
        C72_index_of_numbered (base ++ ['_']) e.t (by
          intro c hc
          rw [List.getLast?_append] at hc
          cases hc
          decide)
      rw [this]
      simp only
      unfold plotName
      rw [l2]
      exact g1
    have hlmem : ∀ a, es.getLast? = some a → plotName base a.t ∈ l ∧
        f2.get (plotName base a.t) = some (.dir (a.tex ++ [(pdfName base a.t, a.pdf)])) := by
      intro a ha
      have hg : f2.get (plotName base a.t) = some (.dir (a.tex ++ [(pdfName base a.t, a.pdf)])) := by
        rw [hget2, if_neg, e2 a ha]
        intro he
        have := plotName_inj he
        have := hlt a (hlast a ha)
        omega
      refine ⟨(l4 _).2 ⟨Fs.mem_names.2 (by rw [hg]; simp), a.t, hlt a (hlast a ha), plotName_inSeries hdot a.t⟩, hg⟩
    have hkeep : ∀ m, (∀ a, es.getLast? = some a → m ≠ plotName base a.t ∧ m ≠ pdfName base a.t) →
        f3.get m = f2.get m := by
      intro m hm
      refine g4 m ?_ ?_
      · intro hml k hk
        obtain ⟨a, ha, rfl, _⟩ := hdir m hml k hk
        exact (hm a ha).1 rfl
      · intro d hd k hk p hp hpp he
        obtain ⟨a, ha, rfl, rfl⟩ := hdir d hd k hk
        rcases List.mem_append.1 hp with hp | hp
        · exact absurd hpp ((htex a (by simp [hlast a ha])).2 p hp).not_pdf
        · rw [List.mem_singleton] at hp
          rw [hp] at he
          exact (hm a ha).2 he.symm
    refine ⟨f3, tikzSeries_snoc base e es e1 (hout.trans hdel), ?_, ?_, ?_, ?_⟩
    · have := tikzDirs_distinct l hd2
      rw [g1] at this
      exact this
    · intro a ha
      rw [List.getLast?_append] at ha
      simp only [List.getLast?_singleton, Option.some_or, Option.some.injEq] at ha
      subst ha
      rw [hkeep, hget2, if_pos rfl, hnewl]
      intro a ha
      refine ⟨fun he => ?_, plotName_ne_pdfName hdot _ _⟩
      have := plotName_inj he
      have := hlt a (hlast a ha)
      omega
    · intro a ha
      rw [List.dropLast_concat] at ha
      by_cases hal : es.getLast? = some a
      · obtain ⟨h1, h2⟩ := hlmem a hal
        exact g3 _ h1 _ h2 (pdfName base a.t, a.pdf) (by simp) (pdfName_suffix base a.t)
      · have had : a ∈ es.dropLast := by
          have hne := List.ne_nil_of_mem ha
          rw [← List.dropLast_append_getLast hne, List.mem_append, List.mem_singleton] at ha
          rcases ha with ha | ha
          · exact ha
          · exact absurd (by rw [List.getLast?_eq_some_getLast hne, ha]) hal
        rw [hkeep, hget2, if_neg (fun he => plotName_ne_pdfName hdot _ _ he.symm), e3 a had]
        intro b hb
        refine ⟨fun he => plotName_ne_pdfName hdot _ _ he.symm, fun he => ?_⟩
        have h3 := hpdf2 b hb
        rw [← he, hget2, if_neg (fun he => plotName_ne_pdfName hdot _ _ he.symm), e3 a had] at h3
        cases h3
    · intro m h1 h2
      rw [List.dropLast_concat] at h2
      have h1' : m ≠ plotName base e.t := h1 e (by simp)
      by_cases hml : ∃ a, es.getLast? = some a ∧ m = plotName base a.t
      · obtain ⟨a, ha, rfl⟩ := hml
        obtain ⟨q1, q2⟩ := hlmem a ha
        rw [g2 _ q1 _ q2, hnone _ _ (plotName_inSeries hdot a.t)]
      · rw [hkeep, hget2, if_neg h1', e4]
        · exact fun a ha he => hml ⟨a, ha, he⟩
        · exact fun a ha => h2 a (List.dropLast_subset _ ha)
        · exact fun a ha => ⟨fun he => hml ⟨a, ha, he⟩, h2 a (hlast a ha)⟩

/-- C98. Plotting into a folder that is already there, as `keep_only_latest_tikz` false
permits: every new file is there exactly once with its new contents, the other files of
this folder are unchanged, and so are all other entries. -/
theorem C98_again {fs : Fs C} (name : Name) (l tex : List (Name × C)) (pdf : C)
    (hget : fs.get name = some (.dir l)) (hl : (l.map (·.1)).Nodup) (htex : (tex.map (·.1)).Nodup)
    (hpdf : ∀ p ∈ tex, p.1 ≠ name ++ ['.', 'p', 'd', 'f']) :
    ∃ fs' l', outputTikz fs name tex pdf false = (fs', none) ∧ fs'.get name = some (.dir l') ∧
      (l'.map (·.1)).Nodup ∧
      (∀ p, p ∈ l' ↔ p ∈ tex ∨ p = (name ++ ['.', 'p', 'd', 'f'], pdf) ∨
        (p ∈ l ∧ p.1 ∉ tex.map (·.1) ∧ p.1 ≠ name ++ ['.', 'p', 'd', 'f'])) ∧
      ∀ n, n ≠ name → fs'.get n = fs.get n := by
  have hmem : ∀ p : Name × C, (tex ++ [(name ++ ['.', 'p', 'd', 'f'], pdf)]).all (fun q => q.1 != p.1) = true ↔
      p.1 ∉ tex.map (·.1) ∧ p.1 ≠ name ++ ['.', 'p', 'd', 'f'] := by
    intro p
    rw [List.all_eq_true]
    constructor
    · intro h
      constructor
      · intro hc
        obtain ⟨q, hq, he⟩ := List.mem_map.1 hc
        have := h q (List.mem_append_left _ hq)
        simp [he] at this
      · intro hc
        have := h (name ++ ['.', 'p', 'd', 'f'], pdf) (List.mem_append_right _ (by simp))
        simp [hc] at this
    · rintro ⟨h1, h2⟩ q hq
      rcases List.mem_append.1 hq with hq | hq
      · rw [bne_iff_ne]
        exact fun he => h1 (List.mem_map.2 ⟨q, hq, he⟩)
      · rw [List.mem_singleton] at hq
        rw [hq, bne_iff_ne]
        exact fun he => h2 he.symm
  refine ⟨fs.put name (.dir ((l.filter fun p => (tex ++ [(name ++ ['.', 'p', 'd', 'f'], pdf)]).all
    fun q => q.1 != p.1) ++ (tex ++ [(name ++ ['.', 'p', 'd', 'f'], pdf)]))), _, ?_, by rw [Fs.get_put, if_pos rfl],
    ?_, ?_, ?_⟩
  · unfold outputTikz
    rw [hget]
    dsimp only
    rw [if_neg (by simp)]
  · rw [List.map_append, List.nodup_append]
    refine ⟨hl.sublist (List.filter_sublist.map _), ?_, ?_⟩
    · rw [List.map_append, List.nodup_append]
      refine ⟨htex, by simp, ?_⟩
      intro x hx y hy he
      obtain ⟨p, hp, rfl⟩ := List.mem_map.1 hx
      simp only [List.map_cons, List.map_nil, List.mem_singleton] at hy
      exact hpdf p hp (he.trans hy)
    · intro x hx y hy he
      obtain ⟨p, hp, rfl⟩ := List.mem_map.1 hx
      obtain ⟨q, hq, rfl⟩ := List.mem_map.1 hy
      have := List.all_eq_true.1 (List.mem_filter.1 hp).2 q hq
      rw [bne_iff_ne] at this
      exact this he.symm
  · intro p
    rw [List.mem_append, List.mem_filter, hmem, List.mem_append, List.mem_singleton]
    tauto
  · intro n hn
    rw [Fs.get_put, if_neg hn]

/-- C98. With `keep_only_latest_tikz` false, a plot at a new time index adds its folder with
its files, and everything else, the earlier plots among it, is as it was. -/
theorem C98_keep_all {fs : Fs C} (name : Name) (tex : List (Name × C)) (pdf : C) (hget : fs.get name = none) :
    ∃ fs', outputTikz fs name tex pdf false = (fs', none) ∧
      fs'.get name = some (.dir (tex ++ [(name ++ ['.', 'p', 'd', 'f'], pdf)])) ∧ ∀ n, n ≠ name → fs'.get n = fs.get n := by
  refine ⟨fs.put name (.dir (tex ++ [(name ++ ['.', 'p', 'd', 'f'], pdf)])), ?_, by rw [Fs.get_put, if_pos rfl], ?_⟩
  · unfold outputTikz
    rw [hget]
    dsimp only
    rw [if_neg (by simp)]
  · intro n hn
    rw [Fs.get_put, if_neg hn]

/-! ### Violations -/

/-- C98 is violated for plots with images, which `tikzplotlib` writes to `.png` files: the
next plot raises, and all earlier files are still there. -/
theorem C98_violated_image : ∃ (fs fs' : Fs Nat), outputTikz [] "p_1".toList [("p_1.png".toList, 7)] 8 true = (fs, none) ∧
    outputTikz fs "p_2".toList [] 9 true = (fs', some .assertion) ∧
    fs'.get "p_1".toList = some (.dir [("p_1.png".toList, 7), ("p_1.pdf".toList, 8)]) :=
  ⟨_, _, by rfl, by rfl, by rfl⟩

/-- C98 is violated if the folder has a PDF file of the same name, for instance of the
same plot written earlier with the setting "pdf": it is replaced. -/
theorem C98_violated_overwrite : ∃ (fs fs' : Fs Nat), fs.get "p_1.pdf".toList = some (.file 5) ∧
    outputTikz fs "p_2".toList [] 9 true = (fs', none) ∧ fs'.get "p_1.pdf".toList = some (.file 8) :=
  ⟨[("p_1.pdf".toList, .file 5), ("p_1".toList, .dir [("p_1.pdf".toList, 8)])], _, by rfl, by rfl, by rfl⟩

/-- C98 is violated for names with a dot: the earlier plots are not found and stay. -/
theorem C98_violated_dot : ∃ (fs fs' : Fs Nat),
    outputTikz [] "p.q_1".toList [("p.q_1.tex".toList, 7)] 8 true = (fs, none) ∧
    outputTikz fs "p.q_2".toList [] 9 true = (fs', none) ∧
    fs'.get "p.q_1".toList = some (.dir [("p.q_1.tex".toList, 7), ("p.q_1.pdf".toList, 8)]) :=
  ⟨_, _, by rfl, by rfl, by rfl⟩

end

/-! ### Example -/

/-- A plot written twice: one of the old files remains, the others are replaced. -/
example : ∃ fs' : Fs Nat, outputTikz [("p_1".toList, .dir [("p_1.tex".toList, 1), ("p_1-000.tsv".toList, 2), ("p_1.pdf".toList, 3)])]
      "p_1".toList [("p_1.tex".toList, 4)] 5 false = (fs', none) ∧
    fs'.get "p_1".toList = some (.dir [("p_1-000.tsv".toList, 2), ("p_1.tex".toList, 4), ("p_1.pdf".toList, 5)]) :=
  ⟨_, by rfl, by rfl⟩

/-- Two plots, both kept. -/
example : ∃ fs' : Fs Nat, outputTikz [("p_1".toList, .dir [("p_1.tex".toList, 1), ("p_1.pdf".toList, 3)])]
      "p_2".toList [("p_2.tex".toList, 4)] 5 false = (fs', none) ∧
    fs'.get "p_1".toList = some (.dir [("p_1.tex".toList, 1), ("p_1.pdf".toList, 3)]) ∧
    fs'.get "p_2".toList = some (.dir [("p_2.tex".toList, 4), ("p_2.pdf".toList, 5)]) := by
  obtain ⟨fs', h1, h2, h3⟩ := C98_keep_all (fs := [("p_1".toList, .dir [("p_1.tex".toList, 1), ("p_1.pdf".toList, 3)])])
    "p_2".toList [("p_2.tex".toList, 4)] 5 (by rfl)
  exact ⟨fs', h1, by rw [h3 _ (by decide)]; rfl, h2⟩

/-- A folder with a text file and the plot of another diagnostic, and three plots. -/
def tikzDemo : Fs Nat := [("notes_1.txt".toList, .file 100), ("other_1".toList, .dir [("other_1.tex".toList, 101)])]

def tikzPlots : List (TikzPlot Nat) :=
  [⟨2, [("p_2.tex".toList, 1), ("p_2-000.tsv".toList, 2)], 3⟩, ⟨10, [("p_10.tex".toList, 4)], 5⟩,
    ⟨11, [("p_11.tex".toList, 6)], 7⟩]

example : (tikzSeries "p".toList tikzPlots tikzDemo).2 = none ∧
    ((tikzSeries "p".toList tikzPlots tikzDemo).1.map fun e => String.ofList e.1) =
      ["notes_1.txt", "other_1", "p_2.pdf", "p_11", "p_10.pdf"] := by
  decide +kernel

example : tikzDemo.Distinct ∧ ∀ n k, tikzDemo.get n ≠ none → ¬ InSeries ("p".toList ++ ['_']) n k := by
  constructor
  · unfold Fs.Distinct
    decide +kernel
  · rintro n k hn ⟨d, hd, _⟩
    rw [← Fs.mem_names] at hn
    simp only [tikzDemo, List.map_cons, List.map_nil, List.mem_cons, List.not_mem_nil, or_false] at hn
    rcases hn with rfl | rfl
    · have h : pathStem "notes_1.txt".toList = "notes_1".toList := by decide +kernel
      rw [h] at hd
      simp at hd
    · have h : pathStem "other_1".toList = "other_1".toList := by decide +kernel
      rw [h] at hd
      simp at hd

example : ∀ e ∈ tikzPlots, (e.tex.map (·.1)).Nodup ∧ ∀ p ∈ e.tex, IsTex p.1 := by
  unfold IsTex
  decide +kernel

end Verif

/-
Lemmas on folders of TikZ plots.
-/
import Verif.Model.Tikz
import Verif.Props.Files
namespace Verif

section
variable {C : Type}

theorem Fs.get_filter (fs : Fs C) (n m : Name) :
    Fs.get (fs.filter fun e => e.1 != n) m = if m = n then none else Fs.get fs m := by
  unfold Fs.get
  induction fs with
  | nil => simp
  | cons e fs ih =>
    rw [List.filter_cons]
    by_cases h : e.1 = n
    · rw [if_neg (by simp [h]), ih]
      by_cases hm : m = n
      · simp [hm]
      · rw [if_neg hm, if_neg hm, List.find?_cons_of_neg (by simp [h, Ne.symm hm])]
    · rw [if_pos (by simp [h])]
      by_cases he : e.1 = m
      · rw [List.find?_cons_of_pos (by simp [he]), List.find?_cons_of_pos (by simp [he]), if_neg (by rw [← he]; exact h)]
      · rw [List.find?_cons_of_neg (by simp [he]), List.find?_cons_of_neg (by simp [he]), ih]

theorem Fs.get_erase (fs : Fs C) (n m : Name) : (Fs.erase fs n).get m = if m = n then none else fs.get m :=
  fs.get_filter n m

theorem Fs.get_put (fs : Fs C) (n m : Name) (x : Node C) :
    (fs.put n x).get m = if m = n then some x else fs.get m := by
  have h := fs.get_filter n m
  unfold Fs.put
  unfold Fs.get at h ⊢
  rw [List.find?_append, Option.map_or, h]
  by_cases hm : m = n
  · rw [if_pos hm, if_pos hm, List.find?_cons_of_pos (by simp [hm])]
    rfl
  · rw [if_neg hm, if_neg hm, List.find?_cons_of_neg (by simp [Ne.symm hm])]
    simp

theorem Fs.get_eraseIn (fs : Fs C) (d n m : Name) : (fs.eraseIn d n).get m =
    if m = d then (fs.get m).map fun
      | .file c => .file c
      | .dir l => .dir (l.filter fun p => p.1 != n)
    else fs.get m := by
  unfold Fs.eraseIn Fs.get
  induction fs with
  | nil => simp
  | cons e fs ih =>
    rw [List.map_cons]
    by_cases he : e.1 = m
    · rw [List.find?_cons_of_pos (by simp [he]), List.find?_cons_of_pos (by simp [he])]
      simp only [Option.map_some, he]
      split_ifs <;> rfl
    · rw [List.find?_cons_of_neg (by simp [he]), List.find?_cons_of_neg (by simp [he]), ih]

theorem Fs.mem_names {fs : Fs C} {n : Name} : n ∈ fs.map (·.1) ↔ fs.get n ≠ none := by
  unfold Fs.get
  rw [List.mem_map]
  simp only [ne_eq, Option.map_eq_none_iff, List.find?_eq_none, not_forall, beq_iff_eq, Decidable.not_not]
  exact ⟨fun ⟨e, h1, h2⟩ => ⟨e, h1, h2⟩, fun ⟨e, h1, h2⟩ => ⟨e, h1, h2⟩⟩

/-- Names of the files that TikZ plots consist of. -/
def IsPdf (n : Name) : Prop := pathSuffix n = ['.', 'p', 'd', 'f']

def IsTex (n : Name) : Prop := pathSuffix n = ['.', 't', 's', 'v'] ∨ pathSuffix n = ['.', 't', 'e', 'x']

theorem IsTex.not_pdf {n : Name} (h : IsTex n) : ¬ IsPdf n := by
  unfold IsTex IsPdf at *
  rcases h with h | h <;> rw [h] <;> decide

theorem tikzFiles_spec (d : Name) : ∀ (l : List (Name × C)) {fs : Fs C}, fs.get d = some (.dir l) →
    (l.map (·.1)).Nodup → (∀ p ∈ l, IsPdf p.1 ∨ IsTex p.1) → (∀ p ∈ l, IsPdf p.1 → ∀ k, fs.get p.1 ≠ some (.dir k)) →
    ∃ fs', tikzFiles d l fs = (fs', none) ∧ fs'.get d = some (.dir []) ∧
      (∀ p ∈ l, IsPdf p.1 → fs'.get p.1 = some (.file p.2)) ∧
      ∀ n, n ≠ d → (∀ p ∈ l, IsPdf p.1 → p.1 ≠ n) → fs'.get n = fs.get n
  | [], fs, hd, _, _, _ => ⟨fs, rfl, hd, by simp, fun _ _ _ => rfl⟩
  | (n, c) :: l, fs, hd, hn, hs, hp => by
    rw [List.map_cons, List.nodup_cons] at hn
    have hfil : ((n, c) :: l).filter (fun p => p.1 != n) = l := by
      rw [List.filter_cons, if_neg (by simp), List.filter_eq_self]
      intro p hp'
      have : p.1 ≠ n := fun he => hn.1 (List.mem_map.2 ⟨p, hp', he⟩)
      simp [this]
    have herase : ∀ m, (fs.eraseIn d n).get m = if m = d then some (.dir l) else fs.get m := by
      intro m
      rw [fs.get_eraseIn]
      by_cases hm : m = d
      · rw [if_pos hm, if_pos hm, hm, hd]
        simp only [Option.map_some, hfil]
      · rw [if_neg hm, if_neg hm]
    unfold tikzFiles
    by_cases hpdf : IsPdf n
    · have hnd : n ≠ d := fun he => hp (n, c) (by simp) hpdf _ (by simp only; rw [he]; exact hd)
      have hget : ∀ m, ((fs.eraseIn d n).put n (.file c)).get m =
          if m = n then some (.file c) else if m = d then some (.dir l) else fs.get m := by
        intro m
        rw [Fs.get_put, herase]
      rw [if_pos (show pathSuffix n = _ from hpdf), stem_append_suffix]
      obtain ⟨fs', e1, e2, e3, e4⟩ := tikzFiles_spec d l (fs := (fs.eraseIn d n).put n (.file c))
        (by rw [hget, if_neg (Ne.symm hnd), if_pos rfl]) hn.2 (fun p hp' => hs p (by simp [hp']))
        (by
          intro p hp' hpp k
          rw [hget]
          split_ifs with h1 h2
          · simp
          · exact fun _ => hp p (by simp [hp']) hpp _ (by rw [h2]; exact hd)
          · exact hp p (by simp [hp']) hpp k)
      refine ⟨fs', ?_, e2, ?_, ?_⟩
      · rcases hx : fs.get n with _ | (_ | k)
        · exact e1
        · exact e1
        · exact absurd hx (hp (n, c) (by simp) hpdf k)
      · intro p hp' hpp
        rcases List.mem_cons.1 hp' with rfl | hp'
        · rw [e4 _ hnd (fun q hq _ he => hn.1 (List.mem_map.2 ⟨q, hq, he⟩)), hget, if_pos rfl]
        · exact e3 p hp' hpp
      · intro m hm hall
        rw [e4 m hm (fun p hp' => hall p (by simp [hp'])), hget, if_neg (Ne.symm (hall (n, c) (by simp) hpdf)), if_neg hm]
    · have htex : IsTex n := (hs (n, c) (by simp)).resolve_left hpdf
      rw [if_neg (show ¬ pathSuffix n = _ from hpdf), if_pos (show pathSuffix n = _ ∨ pathSuffix n = _ from htex)]
      obtain ⟨fs', e1, e2, e3, e4⟩ := tikzFiles_spec d l (fs := fs.eraseIn d n)
        (by rw [herase, if_pos rfl]) hn.2 (fun p hp' => hs p (by simp [hp']))
        (by
          intro p hp' hpp k
          rw [herase]
          split_ifs with h2
          · exact fun _ => hp p (by simp [hp']) hpp _ (by rw [h2]; exact hd)
          · exact hp p (by simp [hp']) hpp k)
      refine ⟨fs', e1, e2, ?_, ?_⟩
      · intro p hp' hpp
        rcases List.mem_cons.1 hp' with rfl | hp'
        · exact absurd hpp hpdf
        · exact e3 p hp' hpp
      · intro m hm hall
        rw [e4 m hm (fun p hp' => hall p (by simp [hp'])), herase, if_neg hm]

/-- The folders `ds` can be removed: they hold only files of TikZ plots, and their PDF
files have names that are used nowhere else. -/
structure Removable (fs : Fs C) (ds : List Name) : Prop where
  exists_ : ∀ d ∈ ds, fs.get d ≠ none
  nodup : ds.Nodup
  names : ∀ d ∈ ds, ∀ l, fs.get d = some (.dir l) → (l.map (·.1)).Nodup
  kinds : ∀ d ∈ ds, ∀ l, fs.get d = some (.dir l) → ∀ p ∈ l, IsPdf p.1 ∨ IsTex p.1
  free : ∀ d ∈ ds, ∀ l, fs.get d = some (.dir l) → ∀ p ∈ l, IsPdf p.1 → fs.get p.1 = none
  apart : ∀ d ∈ ds, ∀ l, fs.get d = some (.dir l) → ∀ d' ∈ ds, ∀ l', fs.get d' = some (.dir l') → d ≠ d' →
    ∀ p ∈ l, ∀ q ∈ l', IsPdf p.1 → IsPdf q.1 → p.1 ≠ q.1

theorem tikzDirs_spec : ∀ (ds : List Name) {fs : Fs C}, Removable fs ds →
    ∃ fs', tikzDirs ds fs = (fs', none) ∧
      (∀ d ∈ ds, ∀ l, fs.get d = some (.dir l) → fs'.get d = none) ∧
      (∀ d ∈ ds, ∀ l, fs.get d = some (.dir l) → ∀ p ∈ l, IsPdf p.1 → fs'.get p.1 = some (.file p.2)) ∧
      ∀ n, (n ∈ ds → ∀ l, fs.get n ≠ some (.dir l)) →
        (∀ d ∈ ds, ∀ l, fs.get d = some (.dir l) → ∀ p ∈ l, IsPdf p.1 → p.1 ≠ n) → fs'.get n = fs.get n
  | [], fs, _ => ⟨fs, rfl, by simp, by simp, fun _ _ _ => rfl⟩
  | d :: ds, fs, h => by
    have hnd := List.nodup_cons.1 h.nodup
    unfold tikzDirs
    rcases hd : fs.get d with _ | (c | l)
    · exact absurd hd (h.exists_ d (by simp))
    · obtain ⟨fs', e1, e2, e3, e4⟩ := tikzDirs_spec ds (fs := fs)
        ⟨fun x hx => h.exists_ x (by simp [hx]), hnd.2, fun x hx => h.names x (by simp [hx]),
          fun x hx => h.kinds x (by simp [hx]), fun x hx => h.free x (by simp [hx]),
          fun x hx l hl x' hx' => h.apart x (by simp [hx]) l hl x' (by simp [hx'])⟩
      refine ⟨fs', e1, ?_, ?_, ?_⟩
      · intro x hx l hl
        rcases List.mem_cons.1 hx with rfl | hx
        · rw [hd] at hl; cases hl
        · exact e2 x hx l hl
      · intro x hx l hl
        rcases List.mem_cons.1 hx with rfl | hx
        · rw [hd] at hl; cases hl
        · exact e3 x hx l hl
      · intro n h1 h2
        exact e4 n (fun hn => h1 (by simp [hn])) fun x hx => h2 x (by simp [hx])
    · obtain ⟨f1, a1, a2, a3, a4⟩ := tikzFiles_spec d l hd (h.names d (by simp) l hd) (h.kinds d (by simp) l hd)
        (fun p hp hpp k hk => by
          have := h.free d (by simp) l hd p hp hpp
          rw [hk] at this
          cases this)
      simp only [a1, a2]
      have hg : ∀ x ∈ ds, (f1.erase d).get x = fs.get x := by
        intro x hx
        have hxd : x ≠ d := fun he => hnd.1 (he ▸ hx)
        rw [Fs.get_erase, if_neg hxd]
        refine a4 x hxd fun p hp hpp he => ?_
        exact h.exists_ x (by simp [hx]) (he ▸ h.free d (by simp) l hd p hp hpp)
      obtain ⟨fs', e1, e2, e3, e4⟩ := tikzDirs_spec ds (fs := f1.erase d)
        ⟨fun x hx => by rw [hg x hx]; exact h.exists_ x (by simp [hx]), hnd.2,
          fun x hx k hk => h.names x (by simp [hx]) k (by rw [← hg x hx]; exact hk),
          fun x hx k hk => h.kinds x (by simp [hx]) k (by rw [← hg x hx]; exact hk),
          fun x hx k hk p hp hpp => by
            rw [hg x hx] at hk
            have hfree := h.free x (by simp [hx]) k hk p hp hpp
            rw [Fs.get_erase]
            split_ifs with h1
            · rfl
            · rw [a4 p.1 h1, hfree]
              intro q hq hqq
              exact h.apart d (by simp) l hd x (by simp [hx]) k hk (fun he => hnd.1 (he ▸ hx)) q hq p hp hqq hpp,
          fun x hx k hk x' hx' k' hk' hne => h.apart x (by simp [hx]) k (by rw [← hg x hx]; exact hk)
            x' (by simp [hx']) k' (by rw [← hg x' hx']; exact hk') hne⟩
      refine ⟨fs', e1, ?_, ?_, ?_⟩
      · intro x hx k hk
        rcases List.mem_cons.1 hx with rfl | hx
        · rw [e4 x (fun hx => absurd hx hnd.1), Fs.get_erase, if_pos rfl]
          intro y hy k' hk' p hp hpp he
          rw [hg y hy] at hk'
          have := h.free y (by simp [hy]) k' hk' p hp hpp
          rw [he, hd] at this
          cases this
        · exact e2 x hx k (by rw [hg x hx]; exact hk)
      · intro x hx k hk p hp hpp
        rcases List.mem_cons.1 hx with rfl | hx
        · rw [hd] at hk
          cases hk
          have hfree := h.free x (by simp) l hd p hp hpp
          rw [e4 p.1, Fs.get_erase, if_neg, a3 p hp hpp]
          · intro he
            rw [he, hd] at hfree
            cases hfree
          · intro hin
            exact absurd hfree (h.exists_ p.1 (by simp [hin]))
          · intro y hy k' hk' q hq hqq
            rw [hg y hy] at hk'
            exact h.apart y (by simp [hy]) k' hk' x (by simp) l hd (fun he => hnd.1 (he ▸ hy)) q hq p hp hqq hpp
        · exact e3 x hx k (by rw [hg x hx]; exact hk) p hp hpp
      · intro n h1 h2
        have hnd' : n ≠ d := fun he => h1 (by simp [he]) l (he ▸ hd)
        rw [e4 n, Fs.get_erase, if_neg hnd', a4 n hnd']
        · exact fun p hp hpp => h2 d (by simp) l hd p hp hpp
        · intro hin k hk
          exact h1 (by simp [hin]) k (by rw [← hg n hin]; exact hk)
        · intro y hy k hk
          exact h2 y (by simp [hy]) k (by rw [← hg y hy]; exact hk)

/-! ### No name occurs twice -/

def Fs.Distinct (fs : Fs C) : Prop := (fs.map (·.1)).Nodup

theorem Fs.Distinct.filter {fs : Fs C} (h : fs.Distinct) (p : Name × Node C → Bool) : Fs.Distinct (fs.filter p) :=
  h.sublist (List.filter_sublist.map _)

theorem Fs.Distinct.erase {fs : Fs C} (h : fs.Distinct) (n : Name) : (Fs.erase fs n).Distinct := h.filter _

theorem Fs.Distinct.put {fs : Fs C} (h : fs.Distinct) (n : Name) (x : Node C) : (fs.put n x).Distinct := by
  unfold Fs.put Fs.Distinct
  rw [List.map_append, List.nodup_append]
  refine ⟨h.filter _, by simp, ?_⟩
  intro a ha b hb he
  obtain ⟨e, he1, he2⟩ := List.mem_map.1 ha
  rw [List.mem_filter] at he1
  simp only [List.map_cons, List.map_nil, List.mem_singleton] at hb
  exact absurd (he2.trans (he.trans hb)) (by simpa using he1.2)

theorem Fs.Distinct.eraseIn {fs : Fs C} (h : fs.Distinct) (d n : Name) : (fs.eraseIn d n).Distinct := by
  unfold Fs.eraseIn Fs.Distinct
  rw [List.map_map]
  exact h

theorem tikzFiles_distinct (d : Name) : ∀ (l : List (Name × C)) {fs : Fs C}, fs.Distinct → (tikzFiles d l fs).1.Distinct
  | [], _, h => h
  | (n, c) :: l, fs, h => by
    unfold tikzFiles
    split_ifs
    · split
      · exact h
      · exact tikzFiles_distinct d l ((h.eraseIn d n).put _ _)
    · exact tikzFiles_distinct d l (h.eraseIn d n)
    · exact h

theorem tikzDirs_distinct : ∀ (ds : List Name) {fs : Fs C}, fs.Distinct → (tikzDirs ds fs).1.Distinct
  | [], _, h => h
  | d :: ds, fs, h => by
    unfold tikzDirs
    split
    · next l hl =>
      have := tikzFiles_distinct d l h
      split
      · next he => rw [he] at this; exact this
      · next he =>
        rw [he] at this
        split
        · exact tikzDirs_distinct ds (this.erase d)
        · exact this
    · exact tikzDirs_distinct ds h

end
end Verif

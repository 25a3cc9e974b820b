/-
Properties C83 (legends), C84 (audio files), C85 (export settings) and C94
(preprocessing functions).
-/
import Verif.Model.Plot
import Verif.Lemmas.Fill
import Mathlib.Algebra.BigOperators.Group.List.Basic
namespace Verif

/-! ### C83 -/

theorem escapeUnderscore_self {l : List Char} (h : '_' ∉ l) : escapeUnderscore l = l := by
  induction l with
  | nil => rfl
  | cons c l ih =>
    rw [List.mem_cons, not_or] at h
    unfold escapeUnderscore at ih ⊢
    rw [List.flatMap_cons, ih h.2, if_neg (Ne.symm h.1)]
    rfl

theorem mem_escape_backslash {l : List Char} (h : '_' ∈ l) : '\\' ∈ escapeUnderscore l := by
  unfold escapeUnderscore
  rw [List.mem_flatMap]
  exact ⟨'_', h, by simp⟩

theorem legendLoop_mem {H : Type} : ∀ (entries shown : List (H × List Char)), ∀ e ∈ shown,
    e ∈ legendLoop entries shown
  | [], _, _, he => he
  | (h, label) :: rest, shown, e, he => by
    unfold legendLoop
    by_cases hl : label ∈ shown.map Prod.snd
    · rw [if_pos hl]; exact legendLoop_mem rest shown e he
    · rw [if_neg hl]; exact legendLoop_mem rest _ e (by simp [he])

theorem legendLoop_plain {H : Type} : ∀ (entries shown : List (H × List Char)),
    (∀ e ∈ entries, '_' ∉ e.2) → (shown.map Prod.snd).Nodup →
    ((legendLoop entries shown).map Prod.snd).Nodup ∧
    (legendLoop entries shown).Sublist (shown ++ entries) ∧
    ∀ pre e post, entries = pre ++ e :: post → e.2 ∉ pre.map Prod.snd → e.2 ∉ shown.map Prod.snd →
      e ∈ legendLoop entries shown
  | [], shown, _, hn => ⟨hn, by simp [legendLoop], by intro pre e post h; simp at h⟩
  | (h, label) :: rest, shown, hu, hn => by
    have hu' : ∀ e ∈ rest, '_' ∉ e.2 := fun e he => hu e (by simp [he])
    unfold legendLoop
    by_cases hl : label ∈ shown.map Prod.snd
    · rw [if_pos hl]
      obtain ⟨h1, h2, h3⟩ := legendLoop_plain rest shown hu' hn
      refine ⟨h1, h2.trans (List.Sublist.append (List.Sublist.refl _) (List.sublist_cons_self _ _)), ?_⟩
      intro pre e post he hp hs
      cases pre with
      | nil =>
        rw [List.nil_append] at he
        injection he with he1 _
        rw [← he1] at hs
        exact absurd hl hs
      | cons a pre =>
        rw [List.cons_append] at he
        injection he with _ he2
        exact h3 pre e post he2 (fun hm => hp (by simp only [List.map_cons, List.mem_cons]; exact Or.inr hm)) hs
    · rw [if_neg hl, escapeUnderscore_self (hu (h, label) (by simp))]
      have hn' : ((shown ++ [(h, label)]).map Prod.snd).Nodup := by
        rw [List.map_append, List.nodup_append]
        refine ⟨hn, by simp, ?_⟩
        intro a ha b hb
        simp only [List.map_cons, List.map_nil, List.mem_singleton] at hb
        rw [hb]; rintro rfl; exact hl ha
      obtain ⟨h1, h2, h3⟩ := legendLoop_plain rest _ hu' hn'
      refine ⟨h1, by simpa using h2, ?_⟩
      intro pre e post he hp hs
      cases pre with
      | nil =>
        rw [List.nil_append] at he
        injection he with he1 _
        rw [← he1]
        exact legendLoop_mem _ _ _ (by simp)
      | cons a pre =>
        rw [List.cons_append] at he
        injection he with he1 he2
        refine h3 pre e post he2 (fun hm => hp (by simp only [List.map_cons, List.mem_cons]; exact Or.inr hm)) ?_
        rw [List.map_append, List.mem_append, not_or]
        refine ⟨hs, ?_⟩
        simp only [List.map_cons, List.map_nil, List.mem_singleton]
        intro h4
        apply hp
        rw [← he1, h4]
        simp

/-- **C83** If no label contains an underscore, the legend shows every plotted label
exactly once, with the line that was drawn first, in the order of drawing. -/
theorem C83_legend_partial {H : Type} (entries : List (H × List Char)) (h : ∀ e ∈ entries, '_' ∉ e.2) :
    ((legendEntries entries).map Prod.snd).Nodup ∧ (legendEntries entries).Sublist entries ∧
    ∀ pre e post, entries = pre ++ e :: post → e.2 ∉ pre.map Prod.snd → e ∈ legendEntries entries := by
  obtain ⟨h1, h2, h3⟩ := legendLoop_plain entries [] h (by simp)
  exact ⟨h1, by simpa [legendEntries] using h2, fun pre e post he hp => h3 pre e post he hp (by simp)⟩

theorem legendLoop_complete {H : Type} : ∀ (entries shown : List (H × List Char)),
    (∀ s ∈ shown, '_' ∈ s.2 → '\\' ∈ s.2) →
    ∀ e ∈ entries, '\\' ∉ e.2 → escapeUnderscore e.2 ∈ (legendLoop entries shown).map Prod.snd
  | [], _, _, _, he, _ => by simp at he
  | (h, label) :: rest, shown, hs, e, he, hb => by
    unfold legendLoop
    by_cases hl : label ∈ shown.map Prod.snd
    · rw [if_pos hl]
      rcases List.mem_cons.1 he with rfl | he'
      · obtain ⟨s, hs1, hs2⟩ := List.mem_map.1 hl
        have hu : '_' ∉ label := fun hu => hb (hs2 ▸ hs s hs1 (by rw [hs2]; exact hu))
        rw [escapeUnderscore_self hu]
        exact List.mem_map.2 ⟨s, legendLoop_mem _ _ _ hs1, hs2⟩
      · exact legendLoop_complete rest shown hs e he' hb
    · rw [if_neg hl]
      rcases List.mem_cons.1 he with rfl | he'
      · exact List.mem_map.2 ⟨(h, escapeUnderscore label), legendLoop_mem _ _ _ (by simp), rfl⟩
      · refine legendLoop_complete rest _ ?_ e he' hb
        intro s hs1 hu
        rcases List.mem_append.1 hs1 with h1 | h1
        · exact hs s h1 hu
        · rw [List.mem_singleton] at h1
          rw [h1] at hu ⊢
          by_cases h2 : '_' ∈ label
          · exact mem_escape_backslash h2
          · dsimp only at hu
            rw [escapeUnderscore_self h2] at hu; exact absurd hu h2

/-- **C83** No plotted label (without a backslash) is missing; underscores are shown
escaped. -/
theorem C83_complete {H : Type} (entries : List (H × List Char)) (e : H × List Char) (he : e ∈ entries)
    (hb : '\\' ∉ e.2) : escapeUnderscore e.2 ∈ (legendEntries entries).map Prod.snd :=
  legendLoop_complete entries [] (by simp) e he hb

theorem legendLoop_dup {H : Type} {label : List Char} (hu : '_' ∈ label) (hb : '\\' ∉ label) (h : H) :
    ∀ (n : Nat) (shown : List (H × List Char)), (∀ s ∈ shown, s.2 = escapeUnderscore label) →
      (legendLoop (List.replicate n (h, label)) shown).length = shown.length + n
  | 0, shown, _ => by simp [legendLoop]
  | n + 1, shown, hs => by
    rw [List.replicate_succ]
    unfold legendLoop
    have hl : label ∉ shown.map Prod.snd := by
      intro hm
      obtain ⟨s, h1, h2⟩ := List.mem_map.1 hm
      rw [hs s h1] at h2
      exact hb (h2 ▸ mem_escape_backslash hu)
    rw [if_neg hl, legendLoop_dup hu hb h n _ (by
      intro s h1
      rcases List.mem_append.1 h1 with h2 | h2
      · exact hs s h2
      · rw [List.mem_singleton] at h2; rw [h2])]
    simp; omega

/-- **C83** A label with an underscore (and without a backslash) is shown once for
every line that carries it: the channels of a diagnostic named `mic_rec` fill the
legend with copies of the same label. -/
theorem C83_violated {H : Type} (h : H) (label : List Char) (hu : '_' ∈ label) (hb : '\\' ∉ label) (n : Nat) :
    (legendEntries (List.replicate n (h, label))).length = n := by
  have := legendLoop_dup hu hb h n [] (by simp)
  simpa [legendEntries] using this

/-- Concrete cases of the three theorems. -/
example : legendEntries [(0, ['a']), (1, ['b']), (2, ['a'])] = [(0, ['a']), (1, ['b'])] := by decide
example : legendEntries [(0, ['a', '_']), (1, ['a', '_'])] = [(0, ['a', '\\', '_']), (1, ['a', '\\', '_'])] := by decide

/-! ### C84 -/

section
variable {F : Type} [Field F] [LinearOrder F]

/-- The largest magnitude in the signal. -/
def IsPeak (signal : List (List F)) (m : F) : Prop :=
  (∀ row ∈ signal, ∀ v ∈ row, |v| ≤ m) ∧ ∃ row ∈ signal, ∃ v ∈ row, |v| = m

theorem foldl_max_abs : ∀ (l : List F) (a : F),
    (a ≤ l.foldl (fun m b => max m |b|) a ∧ ∀ v ∈ l, |v| ≤ l.foldl (fun m b => max m |b|) a) ∧
    (l.foldl (fun m b => max m |b|) a = a ∨ ∃ v ∈ l, |v| = l.foldl (fun m b => max m |b|) a)
  | [], a => by simp
  | b :: l, a => by
    obtain ⟨⟨h1, h2⟩, h3⟩ := foldl_max_abs l (max a |b|)
    rw [List.foldl_cons]
    refine ⟨⟨(le_max_left _ _).trans h1, ?_⟩, ?_⟩
    · intro v hv
      rcases List.mem_cons.1 hv with rfl | hv
      · exact (le_max_right _ _).trans h1
      · exact h2 v hv
    · rcases h3 with h3 | ⟨v, hv, h3⟩
      · rcases le_total a |b| with h | h
        · right; exact ⟨b, by simp, by rw [h3, max_eq_right h]⟩
        · left; rw [h3, max_eq_left h]
      · right; exact ⟨v, by simp [hv], h3⟩

theorem peak_spec {signal : List (List F)} {m : F} (h : peak signal = .ok m) : IsPeak signal m := by
  unfold peak at h
  match hf : signal.flatten, h with
  | a :: l, h =>
    have hm := Except.ok.inj h
    obtain ⟨⟨h1, h2⟩, h3⟩ := foldl_max_abs l |a|
    rw [hm] at h1 h2 h3
    have hmem : ∀ v, v ∈ a :: l ↔ ∃ row ∈ signal, v ∈ row := by
      intro v; rw [← hf, List.mem_flatten]
    refine ⟨?_, ?_⟩
    · intro row hr v hv
      rcases List.mem_cons.1 ((hmem v).2 ⟨row, hr, hv⟩) with rfl | h4
      · exact h1
      · exact h2 v h4
    · rcases h3 with h3 | ⟨v, hv, h3⟩
      · obtain ⟨row, hr, hv⟩ := (hmem a).1 (by simp)
        exact ⟨row, hr, a, hv, h3.symm⟩
      · obtain ⟨row, hr, hv⟩ := (hmem v).1 (by simp [hv])
        exact ⟨row, hr, v, hv, h3⟩

theorem peak_unique {signal : List (List F)} {m m' : F} (h : IsPeak signal m) (h' : IsPeak signal m') : m = m' := by
  obtain ⟨h1, row, hr, v, hv, hm⟩ := h
  obtain ⟨h1', row', hr', v', hv', hm'⟩ := h'
  exact le_antisymm (hm ▸ h1' row hr v hv) (hm' ▸ h1 row' hr' v' hv')

theorem peak_exists {signal : List (List F)} {m : F} (h : IsPeak signal m) : peak signal = .ok m := by
  have : ∃ m', peak signal = .ok m' := by
    unfold peak
    obtain ⟨-, row, hr, v, hv, -⟩ := h
    match hf : signal.flatten with
    | [] =>
      have : v ∈ signal.flatten := List.mem_flatten.2 ⟨row, hr, hv⟩
      rw [hf] at this; simp at this
    | a :: l => exact ⟨_, rfl⟩
  obtain ⟨m', hm'⟩ := this
  rw [hm', peak_unique h (peak_spec hm')]

/-- The gain of the linear fade over `ramp` samples at both ends of `len` samples. -/
def fadeGain (ramp len n : Nat) : F :=
  if n < ramp then (n : F) / ((ramp : F) - 1)
  else if len - ramp ≤ n then ((len - 1 - n : Nat) : F) / ((ramp : F) - 1)
  else 1

theorem fadeIn_getElem? {ramp x : List F} (h : ramp.length ≤ x.length) (n : Nat) (hn : n < x.length) :
    (fadeIn ramp x)[n]? = some (if n < ramp.length then x.getD n 0 * ramp.getD n 0 else x.getD n 0) := by
  unfold fadeIn
  have hl : (((x.take ramp.length).zip ramp).map fun p => p.1 * p.2).length = ramp.length := by
    simp [h]
  by_cases hr : n < ramp.length
  · rw [List.getElem?_append_left (by rw [hl]; exact hr), if_pos hr, List.getElem?_map, (List.getElem?_zip_eq_some
      (z := (x.getD n 0, ramp.getD n 0))).2 ⟨by rw [List.getElem?_take_of_lt hr, List.getElem?_eq_getElem hn]; simp [hn],
        by rw [List.getElem?_eq_getElem hr]; simp [hr]⟩]
    rfl
  · rw [List.getElem?_append_right (by rw [hl]; omega), if_neg hr, hl, List.getElem?_drop,
      show ramp.length + (n - ramp.length) = n by omega, List.getElem?_eq_getElem hn]
    simp [hn]

theorem fadeIn_length {ramp x : List F} (h : ramp.length ≤ x.length) : (fadeIn ramp x).length = x.length := by
  unfold fadeIn
  simp; omega

theorem fadeOut_getElem? {ramp x : List F} (h : ramp.length ≤ x.length) (n : Nat) (hn : n < x.length) :
    (fadeOut ramp x)[n]? = some (if x.length - ramp.length ≤ n
      then x.getD n 0 * (1 - ramp.getD (n - (x.length - ramp.length)) 0) else x.getD n 0) := by
  unfold fadeOut
  have hl : (x.take (x.length - ramp.length)).length = x.length - ramp.length := by simp
  by_cases hr : x.length - ramp.length ≤ n
  · rw [List.getElem?_append_right (by rw [hl]; exact hr), if_pos hr, List.getElem?_map, hl, (List.getElem?_zip_eq_some
      (z := (x.getD n 0, ramp.getD (n - (x.length - ramp.length)) 0))).2 ⟨by
        rw [List.getElem?_drop, show x.length - ramp.length + (n - (x.length - ramp.length)) = n by omega,
          List.getElem?_eq_getElem hn]; simp [hn], by
        have h2 : n - (x.length - ramp.length) < ramp.length := by omega
        rw [List.getElem?_eq_getElem h2]; simp [h2]⟩]
    rfl
  · rw [List.getElem?_append_left (by rw [hl]; omega), if_neg hr, List.getElem?_take_of_lt (by omega),
      List.getElem?_eq_getElem hn]
    simp [hn]

theorem fadeOut_length {ramp x : List F} (h : ramp.length ≤ x.length) : (fadeOut ramp x).length = x.length := by
  unfold fadeOut
  simp; omega

theorem rampLength_le (sr len : Nat) : 10 * rampLength sr len ≤ len := by
  unfold rampLength; omega

variable [IsStrictOrderedRing F]

theorem fadeGain_bounds {ramp len n : Nat} (h2 : 2 ≤ ramp) (h10 : 10 * ramp ≤ len) (hn : n < len) :
    (0 : F) ≤ fadeGain ramp len n ∧ fadeGain (F := F) ramp len n ≤ 1 := by
  have hr : (0 : F) < (ramp : F) - 1 := by
    have : (2 : F) ≤ ramp := by exact_mod_cast h2
    linarith
  unfold fadeGain
  split
  · rename_i h
    have h' : (n : F) + 1 ≤ ramp := by exact_mod_cast h
    refine ⟨div_nonneg (Nat.cast_nonneg _) hr.le, (div_le_one hr).2 (by linarith)⟩
  · split
    · have h' : ((len - 1 - n : Nat) : F) + 1 ≤ ramp := by exact_mod_cast (by omega : len - 1 - n + 1 ≤ ramp)
      refine ⟨div_nonneg (Nat.cast_nonneg _) hr.le, (div_le_one hr).2 (by linarith)⟩
    · exact ⟨zero_le_one, le_refl _⟩

/-- **C84** A recording of at least 20 samples that is not silent is written with the same
number of channels and samples: every sample is the recorded one divided by the largest
magnitude of the recording, times the gain of a linear fade at both ends over a fifth of
a second or a tenth of the recording.  No sample exceeds 1, and first and last sample are
silent. -/
theorem C84_audio_partial (sr len : Nat) (signal : List (List F)) (m : F) (hrect : ∀ row ∈ signal, row.length = len)
    (hpk : IsPeak signal m) (hm : m ≠ 0) (hramp : 2 ≤ rampLength sr len) :
    ∃ out, audioSamples sr signal = .ok out ∧ out.length = signal.length ∧
    ∀ (c : Nat) (row : List F), signal[c]? = some row → ∃ o, out[c]? = some o ∧ o.length = len ∧
      o[0]? = some (some 0) ∧ o[len - 1]? = some (some 0) ∧
      ∀ (n : Nat) (v : F), row[n]? = some v →
        o[n]? = some (some (v / m * fadeGain (rampLength sr len) len n)) ∧
        |v / m * fadeGain (rampLength sr len) len n| ≤ 1 := by
  obtain ⟨L, hL⟩ : ∃ L, L = rampLength sr len := ⟨_, rfl⟩
  have h10 : 10 * L ≤ len := hL ▸ rampLength_le sr len
  rw [← hL] at hramp ⊢
  have hr : (0 : F) < (L : F) - 1 := by
    have : (2 : F) ≤ L := by exact_mod_cast hramp
    linarith
  have hm0 : 0 < m := by
    obtain ⟨row, hr, v, hv, he⟩ := hpk.2
    exact lt_of_le_of_ne (he ▸ abs_nonneg v) (Ne.symm hm)
  have hhead : (signal.headD []).length = len := by
    obtain ⟨row, hr, -⟩ := hpk.2
    match signal, hr with
    | a :: l, _ => exact hrect a (by simp)
  refine ⟨signal.map fun row => (fadeOut (linspace (0 : F) 1 L) (fadeIn (linspace (0 : F) 1 L) (row.map fun v => v / m))).map some,
    ?_, by simp, ?_⟩
  · unfold audioSamples
    rw [peak_exists hpk]
    dsimp only
    rw [hhead, if_neg hm, ← hL]
    simp only [if_pos (by omega : 0 < L)]
  · intro c row hrow
    have hlen : row.length = len := hrect row (List.mem_of_getElem? hrow)
    refine ⟨(fadeOut (linspace (0 : F) 1 L) (fadeIn (linspace (0 : F) 1 L) (row.map fun v => v / m))).map some,
      by rw [List.getElem?_map, hrow]; rfl, ?_, ?_⟩
    · rw [List.length_map, fadeOut_length (by rw [fadeIn_length] <;> simp <;> omega), fadeIn_length (by simp; omega)]
      simp [hlen]
    · have hall : ∀ n, n < len →
          ((fadeOut (linspace (0 : F) 1 L) (fadeIn (linspace (0 : F) 1 L) (row.map fun v => v / m))).map some)[n]? =
            some (some (row.getD n 0 / m * fadeGain L len n)) := by
        intro n hn
        have hl1 : (linspace (0 : F) 1 L).length ≤ (row.map fun v => v / m).length := by simp; omega
        have hl2 : (fadeIn (linspace (0 : F) 1 L) (row.map fun v => v / m)).length = len := by
          rw [fadeIn_length hl1]; simp [hlen]
        rw [List.getElem?_map, fadeOut_getElem? (by rw [hl2]; simp; omega) n (by rw [hl2]; exact hn), hl2]
        have hin : (fadeIn (linspace (0 : F) 1 L) (row.map fun v => v / m)).getD n 0 =
            if n < L then row.getD n 0 / m * (linspace (0 : F) 1 L).getD n 0 else row.getD n 0 / m := by
          rw [List.getD_eq_getElem?_getD, fadeIn_getElem? hl1 n (by simp [hlen]; exact hn), linspace_length]
          have hx : (row.map fun v => v / m).getD n 0 = row.getD n 0 / m := by
            rw [List.getD_eq_getElem?_getD, List.getD_eq_getElem?_getD, List.getElem?_map,
              List.getElem?_eq_getElem (by rw [hlen]; exact hn)]
            rfl
          rw [hx]; rfl
        have hls : ∀ k, k < L → (linspace (0 : F) 1 L).getD k 0 = (k : F) / ((L : F) - 1) := by
          intro k hk
          rw [List.getD_eq_getElem?_getD, linspace_getElem? _ _ hk hramp]
          simp; ring
        rw [hin, linspace_length, Option.map_some]
        congr 2
        unfold fadeGain
        by_cases h1 : n < L
        · rw [if_pos h1, if_pos h1, if_neg (by omega), hls n h1]
        · rw [if_neg h1, if_neg h1]
          by_cases h2 : len - L ≤ n
          · rw [if_pos h2, if_pos h2, hls _ (by omega)]
            congr 1
            have e1 : ((n - (len - L) : Nat) : F) = (n : F) - ((len : F) - (L : F)) := by
              rw [Nat.cast_sub h2, Nat.cast_sub (by omega)]
            have e2 : ((len - 1 - n : Nat) : F) = (len : F) - 1 - (n : F) := by
              rw [Nat.cast_sub (by omega), Nat.cast_sub (by omega)]; simp
            rw [e1, e2]
            field_simp
            ring
          · rw [if_neg h2, if_neg h2, mul_one]
      refine ⟨?_, ?_, ?_⟩
      · rw [hall 0 (by omega)]
        unfold fadeGain
        rw [if_pos (by omega)]
        simp
      · rw [hall (len - 1) (by omega)]
        unfold fadeGain
        rw [if_neg (by omega), if_pos (by omega)]
        simp
      · intro n v hv
        have hn : n < len := hlen ▸ (List.getElem?_eq_some_iff.1 hv).1
        have hg : row.getD n 0 = v := by rw [List.getD_eq_getElem?_getD, hv]; rfl
        refine ⟨by rw [hall n hn, hg], ?_⟩
        obtain ⟨hg0, hg1⟩ := fadeGain_bounds (F := F) hramp h10 hn
        rw [abs_mul, abs_of_nonneg hg0, abs_div, abs_of_pos hm0]
        have hv1 : |v| / m ≤ 1 := (div_le_one hm0).2
          (hpk.1 row (List.mem_of_getElem? hrow) v (List.mem_of_getElem? hv))
        have hv0 : 0 ≤ |v| / m := div_nonneg (abs_nonneg _) hm0.le
        nlinarith

/-- **C84** Recordings of fewer than ten samples (or sample rates below 5) are written
without a fade. -/
theorem C84_short_partial (sr len : Nat) (signal : List (List F)) (m : F) (hrect : ∀ row ∈ signal, row.length = len)
    (hpk : IsPeak signal m) (hm : m ≠ 0) (hramp : rampLength sr len = 0) :
    audioSamples sr signal = .ok (signal.map fun row => row.map fun v => some (v / m)) := by
  have hhead : (signal.headD []).length = len := by
    obtain ⟨row, hr, -⟩ := hpk.2
    match signal, hr with
    | a :: l, _ => exact hrect a (by simp)
  unfold audioSamples
  rw [peak_exists hpk]
  dsimp only
  rw [hhead, if_neg hm, hramp]
  simp

/-- **C84** A silent recording is not written as silence: all samples are `nan`. -/
theorem C84_silent_violated (sr : Nat) (signal : List (List F)) (hpk : IsPeak signal 0) :
    audioSamples sr signal = .ok (signal.map fun row => row.map fun _ => none) := by
  unfold audioSamples
  rw [peak_exists hpk]
  simp

/-- **C84** A fade of a single sample does not fade out: a recording of ten ones starts
with silence but ends at full level. -/
theorem C84_end_violated : (audioSamples (F := Rat) 100 [[1, 1, 1, 1, 1, 1, 1, 1, 1, 1]]).toOption =
    some [[some 0, some 1, some 1, some 1, some 1, some 1, some 1, some 1, some 1, some 1]] := by decide +kernel

/-- A concrete case: twenty samples with largest magnitude 2. -/
example : IsPeak (F := Rat) [List.replicate 20 (-2)] 2 ∧ 2 ≤ rampLength 100 20 := by
  refine ⟨⟨?_, ?_⟩, by decide⟩
  · intro row hr v hv
    rw [List.mem_singleton] at hr
    rw [hr] at hv
    rw [List.eq_of_mem_replicate hv]; norm_num
  · exact ⟨_, List.mem_singleton.2 rfl, -2, by simp, by norm_num⟩

example : IsPeak (F := Rat) [[0, 0]] 0 := ⟨by simp, [0, 0], by simp, 0, by simp, by simp⟩

end

/-! ### C85 -/

section
variable {N Fn K T : Type}

theorem lookupFuncs_ok (table : N → Option Fn) : ∀ (names : List N) (fs : List Fn),
    lookupFuncs table names = .ok fs ↔ names.map table = fs.map some
  | [], fs => by cases fs <;> simp [lookupFuncs]
  | n :: ns, fs => by
    unfold lookupFuncs
    cases hn : table n with
    | none =>
      cases fs with
      | nil => simp
      | cons f fs => simp [hn]
    | some f =>
      dsimp only
      cases fs with
      | nil =>
        simp only [List.map_cons, List.map_nil]
        constructor
        · intro h
          split at h <;> simp at h
        · intro h; simp at h
      | cons g gs =>
        rw [List.map_cons, List.map_cons, List.cons.injEq, hn, ← lookupFuncs_ok table ns gs]
        constructor
        · intro h
          split at h
          · simp at h
          · rename_i fs' hfs
            rw [Except.ok.injEq, List.cons.injEq] at h
            exact ⟨by rw [h.1], by rw [hfs, h.2]⟩
        · rintro ⟨h1, h2⟩
          rw [h2, Option.some.inj h1]

/-- **C85** With a list of export functions, a list of keyword arguments and a list of
preprocessing lists of the same length, every export calls each of the functions once, in
order, with the own keyword arguments and the recording passed through the own
preprocessing functions. -/
theorem C85_each_export_partial {O : Type} (table : N → Option Fn) (emptyKw : K) (names : List N) (fs : List Fn)
    (kws : List K) (pres : List (List (O → O))) (hf : names.map table = fs.map some)
    (hk : kws.length = names.length) (hp : pres.length = names.length) :
    ∃ settings, exportSettings table emptyKw (.many names) (.many kws) (.many (pres.map .list)) = .ok settings ∧
    ∀ (time : Int) (output : O), (exportCalls settings time output).length = names.length ∧
      ∀ (i : Nat) (f : Fn) (k : K) (pre : List (O → O)), fs[i]? = some f → kws[i]? = some k → pres[i]? = some pre →
        ∃ o, (exportCalls settings time output)[i]? = some (f, k, time, o) ∧
          o = pre.foldl (fun v g => g v) output := by
  have hfl : fs.length = names.length := by
    have := congrArg List.length hf; simpa using this.symm
  refine ⟨fs.zip (kws.zip pres), ?_, ?_⟩
  · unfold exportSettings
    dsimp only
    rw [(lookupFuncs_ok table names fs).2 hf]
    dsimp only
    rw [if_neg (by simp [hk, hfl]), if_neg (by simp [hp, hfl])]
    congr 2
    congr 1
    rw [List.map_map]
    conv_rhs => rw [← List.map_id pres]
    rfl
  · intro time output
    refine ⟨by simp [exportCalls, hk, hp, hfl], ?_⟩
    intro i f k pre h1 h2 h3
    refine ⟨_, ?_, rfl⟩
    unfold exportCalls
    rw [List.getElem?_map, (List.getElem?_zip_eq_some (z := (f, k, pre))).2 ⟨h1,
      List.getElem?_zip_eq_some.2 ⟨h2, h3⟩⟩]
    rfl

/-- **C85** Lists of different lengths are rejected: no keyword arguments and no
preprocessing functions are left out silently. -/
theorem C85_lengths (table : N → Option Fn) (emptyKw : K) (names : List N) (kws : List K) (pres : List (PreItem T))
    (h : kws.length ≠ names.length ∨ pres.length ≠ names.length) :
    ∃ x, exportSettings table emptyKw (.many names) (.many kws) (.many pres) = .error x := by
  unfold exportSettings
  dsimp only
  cases hl : lookupFuncs table names with
  | error x => exact ⟨x, rfl⟩
  | ok fs =>
    have hfl : fs.length = names.length := by
      have := congrArg List.length ((lookupFuncs_ok table names fs).1 hl); simpa using this.symm
    dsimp only
    rw [hfl, List.length_map]
    rcases h with h | h
    · exact ⟨_, if_pos h⟩
    · rw [if_pos h, ite_self]
      exact ⟨_, rfl⟩

/-- One set of keyword arguments too many. -/
example : ∃ x, exportSettings (fun n : Nat => some n) 0 (.many [1, 2]) (.many [5, 6, 7]) (.many [.fn 1, .list [2, 3]]) = .error x :=
  C85_lengths _ _ _ _ _ (.inl (by decide))

/-- **C85** A single export function is called once: with empty keyword arguments or the
given ones, and with the unprocessed recording or the one passed through the given
preprocessing function. -/
theorem C85_single {O : Type} (table : N → Option Fn) (emptyKw : K) (name : N) (f : Fn) (hf : table name = some f)
    (time : Int) (output : O) (g : O → O) (k : K) :
    (∃ s, exportSettings table emptyKw (.one name) .none (.none : PreArg (O → O)) = .ok s ∧
      exportCalls s time output = [(f, emptyKw, time, output)]) ∧
    (∃ s, exportSettings table emptyKw (.one name) .none (.one g) = .ok s ∧
      exportCalls s time output = [(f, emptyKw, time, g output)]) ∧
    (∃ s, exportSettings table emptyKw (.one name) (.one k) (.none : PreArg (O → O)) = .ok s ∧
      exportCalls s time output = [(f, k, time, output)]) ∧
    (∃ s, exportSettings table emptyKw (.one name) (.one k) (.one g) = .ok s ∧
      exportCalls s time output = [(f, k, time, g output)]) := by
  refine ⟨⟨[(f, emptyKw, [])], ?_, rfl⟩, ⟨[(f, emptyKw, [g])], ?_, rfl⟩, ⟨[(f, k, [])], ?_, rfl⟩,
    ⟨[(f, k, [g])], ?_, rfl⟩⟩ <;>
  · unfold exportSettings
    simp [lookupFuncs, hf]

/-- **C85** Two or more export functions with the default keyword arguments are rejected,
whatever the preprocessing. -/
theorem C85_default_violated (table : N → Option Fn) (emptyKw : K) (names : List N) (fs : List Fn)
    (hf : names.map table = fs.map some) (h2 : 2 ≤ names.length) (pre : PreArg T) :
    exportSettings table emptyKw (.many names) .none pre = .error .assertion := by
  have hfl : fs.length = names.length := by
    have := congrArg List.length hf; simpa using this.symm
  unfold exportSettings
  dsimp only
  rw [(lookupFuncs_ok table names fs).2 hf]
  dsimp only
  rw [if_pos (by simp; omega)]

/-- **C85** The export function `spectrum` of a signal diagnostic always raises, since
a signal diagnostic returns values together with time indices; the other export
functions of signal diagnostics accept that. -/
theorem C85_spectrum_violated : signalExport .spectrum .pair = .error .attribute ∧
    ∀ fn ∈ [ExportFn.plot, .npz, .text, .wav], signalExport fn .pair = .ok () := by
  refine ⟨rfl, ?_⟩
  intro fn h
  simp only [List.mem_cons, List.not_mem_nil, or_false] at h
  rcases h with rfl | rfl | rfl | rfl <;> rfl

/-- A concrete case with two functions and two preprocessing functions for the first. -/
example : ((exportSettings (fun (n : Nat) => some (n + 10)) () (.many [1, 2]) (.many [(), ()])
    (.many [.list [fun v : Int => v + 1, fun v => v * 2], .list []])).toOption.map
      fun s => exportCalls s 7 3) = some [(11, (), 7, 8), (12, (), 7, 3)] := by decide +kernel

end

/-! ### C94 -/

section
variable {F : Type} [Field F]

/-- **C94** Smoothing gives, for every sample, the sum of that sample and the `q - 1`
samples before it divided by `q`; samples before the start count as zero, and the number
of samples is unchanged. -/
theorem C94_smooth (q : Nat) (x : List F) :
    (smoothRow q x).length = x.length ∧
    ∀ n : Nat, n < x.length → (smoothRow q x)[n]? =
      some (((List.range q).map fun k => if k ≤ n then x.getD (n - k) 0 else 0).sum / (q : F)) := by
  refine ⟨by simp [smoothRow], fun n hn => ?_⟩
  unfold smoothRow
  rw [List.getElem?_map, List.getElem?_range hn, Option.map_some]
  congr 1
  rw [div_eq_inv_mul (List.sum _), ← List.sum_map_mul_left]
  congr 1
  apply List.map_congr_left
  intro k _
  split <;> simp

/-- **C94** From sample `q - 1` on, a constant signal is unchanged by smoothing. -/
theorem C94_constant [CharZero F] (q len : Nat) (hq : 0 < q) (a : F) (n : Nat) (hn : n < len) (hq' : q ≤ n + 1) :
    (smoothRow q (List.replicate len a))[n]? = some a := by
  rw [(C94_smooth q _).2 n (by simp; exact hn)]
  have : ((List.range q).map fun k => if k ≤ n then (List.replicate len a).getD (n - k) 0 else 0) =
      (List.range q).map fun _ => a := by
    apply List.map_congr_left
    intro k hk
    rw [List.mem_range] at hk
    rw [if_pos (by omega), List.getD_eq_getElem?_getD, List.getElem?_replicate, if_pos (by omega)]
    rfl
  rw [this]
  have hq0 : (q : F) ≠ 0 := by exact_mod_cast hq.ne'
  simp [hq0]

/-- **C94** Smoothing the beginning of a recording gives the beginning of the smoothed
recording: an early export agrees with a later one. -/
theorem C94_prefix (q : Nat) (x y : List F) : smoothRow q x = (smoothRow q (x ++ y)).take x.length := by
  apply List.ext_getElem?
  intro n
  by_cases hn : n < x.length
  · rw [List.getElem?_take_of_lt hn, (C94_smooth q x).2 n hn, (C94_smooth q (x ++ y)).2 n (by simp; omega)]
    congr 3
    apply List.map_congr_left
    intro k _
    split
    · rw [List.getD_eq_getElem?_getD, List.getD_eq_getElem?_getD, List.getElem?_append_left (by omega)]
    · rfl
  · rw [List.getElem?_eq_none (by rw [(C94_smooth q x).1]; omega), List.getElem?_eq_none (by simp; omega)]

/-- **C94** Clipping keeps the number of samples, brings every sample into the limits and
leaves samples within the limits as they are. -/
theorem C94_clip [LinearOrder F] (lo hi : F) (h : lo ≤ hi) (x : List F) :
    (clipRow lo hi x).length = x.length ∧
    ∀ (n : Nat) (v : F), x[n]? = some v → ∃ w, (clipRow lo hi x)[n]? = some w ∧ lo ≤ w ∧ w ≤ hi ∧
      (lo ≤ v → v ≤ hi → w = v) ∧ (v < lo → w = lo) ∧ (hi < v → w = hi) := by
  refine ⟨by simp [clipRow], fun n v hv => ⟨min hi (max v lo), by simp [clipRow, hv], ?_, ?_, ?_, ?_, ?_⟩⟩
  · exact le_min h (le_max_right _ _)
  · exact min_le_left _ _
  · intro h1 h2; rw [max_eq_left h1, min_eq_right h2]
  · intro h1; rw [max_eq_right h1.le, min_eq_right h]
  · intro h1; rw [max_eq_left (h.trans h1.le), min_eq_left h1.le]

example : smoothRow (F := Rat) 2 [2, 4, 6] = [1, 3, 5] := by decide +kernel
example : clipRow (F := Rat) (-1) 1 [-3, 0, 3] = [-1, 0, 1] := by decide +kernel

end
end Verif

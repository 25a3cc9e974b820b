/-
C59 and C60: random points of combined regions.
-/
import Verif.Props.RegionRound
namespace Verif

section
variable {F : Type} [Field F] [LinearOrder F] [IsStrictOrderedRing F]

/-- The share of the first `m` regions. -/
def shareUpTo (vols : List F) (m : Nat) : F := (vols.take m).sum / vols.sum

theorem sampleLimits_eq (vols : List F) :
    sampleLimits vols = (List.range vols.length).map fun (k : Nat) => shareUpTo vols (k + 1) := by
  unfold sampleLimits shareUpTo
  refine List.map_congr_left fun k _ => ?_
  rw [← List.map_take]
  generalize vols.sum = t
  induction vols.take (k + 1) with
  | nil => simp
  | cons a l ih => simp only [List.map_cons, List.sum_cons, ih, add_div]

theorem shareUpTo_succ (vols : List F) {m : Nat} (hm : m < vols.length) :
    shareUpTo vols (m + 1) = shareUpTo vols m + vols[m] / vols.sum := by
  unfold shareUpTo
  rw [List.take_add_one, List.getElem?_eq_getElem hm, List.sum_append]
  simp [add_div]

theorem shareUpTo_mono {vols : List F} (h0 : ∀ v ∈ vols, 0 ≤ v) {a b : Nat} (hab : a ≤ b) :
    shareUpTo vols a ≤ shareUpTo vols b := by
  induction b with
  | zero => rw [Nat.le_zero.1 hab]
  | succ b ih =>
    rcases Nat.lt_or_ge a (b + 1) with h | h
    · refine (ih (by omega)).trans ?_
      rcases Nat.lt_or_ge b vols.length with hb | hb
      · rw [shareUpTo_succ vols hb]
        have h1 := h0 _ (List.getElem_mem hb)
        have h2 : 0 ≤ vols.sum := List.sum_nonneg h0
        have := div_nonneg h1 h2
        linarith
      · unfold shareUpTo
        rw [List.take_of_length_le hb, List.take_of_length_le (by omega)]
    · rw [show a = b + 1 by omega]

theorem regIdx_of {vols : List F} (h0 : ∀ v ∈ vols, 0 ≤ v) {m : Nat} (hm : m < vols.length) {u : F}
    (h1 : shareUpTo vols m ≤ u) (h2 : u < shareUpTo vols (m + 1)) :
    regIdx vols u = (vols.length : Int) - 1 - m := by
  unfold regIdx
  rw [sampleLimits_eq, List.filter_map, List.length_map]
  have : (List.range vols.length).filter ((fun s => decide (u < s)) ∘ fun (k : Nat) => shareUpTo vols (k + 1)) =
      (List.range (vols.length - m)).map fun k => m + k := by
    conv_lhs => rw [show vols.length = m + (vols.length - m) by omega, List.range_add, List.filter_append]
    rw [List.filter_eq_nil_iff.2, List.filter_eq_self.2, List.nil_append]
    · intro k hk
      obtain ⟨j, hj, rfl⟩ := List.mem_map.1 hk
      simp only [Function.comp, decide_eq_true_eq]
      exact h2.trans_le (shareUpTo_mono h0 (by omega))
    · intro k hk
      simp only [Function.comp, decide_eq_true_eq, not_lt]
      exact (shareUpTo_mono h0 (by have := List.mem_range.1 hk; omega)).trans h1
  rw [this, List.length_map, List.length_range]
  omega

theorem exists_slot {vols : List F} (hs : 0 < vols.sum) {u : F} (hu0 : 0 ≤ u) (hu1 : u < 1) :
    ∃ m < vols.length, shareUpTo vols m ≤ u ∧ u < shareUpTo vols (m + 1) := by
  have hend : shareUpTo vols vols.length = 1 := by
    unfold shareUpTo; rw [List.take_length]; exact div_self hs.ne'
  have hzero : shareUpTo vols 0 = 0 := by unfold shareUpTo; simp
  by_contra hcon
  push Not at hcon
  have : ∀ m, m ≤ vols.length → shareUpTo vols m ≤ u := by
    intro m
    induction m with
    | zero => intro _; rw [hzero]; exact hu0
    | succ m ih => intro hm; exact hcon m (by omega) (ih (by omega))
  have := this _ le_rfl
  rw [hend] at this
  linarith

/-- Which values select region `i`. -/
theorem regIdx_iff {vols : List F} (h0 : ∀ v ∈ vols, 0 ≤ v) (hs : 0 < vols.sum) {i : Nat} (hi : i < vols.length)
    {u : F} (hu0 : 0 ≤ u) (hu1 : u < 1) :
    regIdx vols u = (i : Int) ↔
      shareUpTo vols (vols.length - 1 - i) ≤ u ∧ u < shareUpTo vols (vols.length - 1 - i + 1) := by
  constructor
  · intro h
    obtain ⟨m, hm, h1, h2⟩ := exists_slot hs hu0 hu1
    rw [regIdx_of h0 hm h1 h2] at h
    have : vols.length - 1 - i = m := by omega
    rw [this]
    exact ⟨h1, h2⟩
  · rintro ⟨h1, h2⟩
    rw [regIdx_of h0 (by omega) h1 h2]
    omega

/-- C60, what the code does: region number `i` from the beginning is drawn with the
share of the volume of region number `i` from the end. -/
theorem C60_reversed {vols : List F} (h0 : ∀ v ∈ vols, 0 ≤ v) (hs : 0 < vols.sum) {i : Nat} (hi : i < vols.length) :
    DrawnWith (regIdx vols) i (vols[vols.length - 1 - i] / vols.sum) := by
  refine ⟨shareUpTo vols (vols.length - 1 - i), shareUpTo vols (vols.length - 1 - i + 1), ?_, ?_, ?_,
    fun u hu0 hu1 => regIdx_iff h0 hs hi hu0 hu1⟩
  · have h := shareUpTo_mono h0 (Nat.zero_le (vols.length - 1 - i))
    have hzero : shareUpTo vols 0 = 0 := by unfold shareUpTo; simp
    rw [hzero] at h
    exact h
  · have h := shareUpTo_mono h0 (show vols.length - 1 - i + 1 ≤ vols.length by omega)
    have hend : shareUpTo vols vols.length = 1 := by
      unfold shareUpTo; rw [List.take_length]; exact div_self hs.ne'
    rw [hend] at h
    exact h
  · rw [shareUpTo_succ vols (by omega)]
    ring

/-- C60, partial: if the volumes read the same in both directions (in particular if
they are all equal), every region is drawn in proportion to its volume.  Missing:
all other lists of volumes, see `C60_violated`. -/
theorem C60_symmetric_partial {vols : List F} (h0 : ∀ v ∈ vols, 0 ≤ v) (hs : 0 < vols.sum)
    (hsym : vols.reverse = vols) {i : Nat} (hi : i < vols.length) :
    DrawnWith (regIdx vols) i (vols[i] / vols.sum) := by
  have h := C60_reversed h0 hs hi
  have : vols[vols.length - 1 - i] = vols[i] := by
    have h1 : vols.reverse[i]'(by simpa using hi) = vols[i] := by
      congr 1
    rw [List.getElem_reverse] at h1
    exact h1
  rwa [this] at h

/-- The length of the interval is determined if some value selects the region. -/
theorem DrawnWith.unique {choose : F → Int} {i : Nat} {s t : F} (h : DrawnWith choose i s) (h' : DrawnWith choose i t)
    (hs : 0 < s) : s = t := by
  obtain ⟨a, b, ha, hb, rfl, hc⟩ := h
  obtain ⟨a', b', ha', hb', rfl, hc'⟩ := h'
  have hab : a < b := by linarith
  have heq : ∀ u, 0 ≤ u → u < 1 → ((a ≤ u ∧ u < b) ↔ (a' ≤ u ∧ u < b')) := fun u h0 h1 =>
    (hc u h0 h1).symm.trans (hc' u h0 h1)
  have h1 := (heq a ha (by linarith)).1 ⟨le_rfl, hab⟩
  have haa : a = a' := by
    by_contra hne
    have hlt : a' < a := lt_of_le_of_ne h1.1 (Ne.symm hne)
    have := (heq a' ha' (by linarith)).2 ⟨le_rfl, by linarith⟩
    linarith [this.1]
  subst haa
  have hbb : b = b' := by
    rcases lt_trichotomy b b' with h | h | h
    · exfalso
      have := (heq b (by linarith) (by linarith)).2 ⟨hab.le, h⟩
      linarith [this.2]
    · exact h
    · exfalso
      have := (heq b' (by linarith [h1.2]) (by linarith)).1 ⟨h1.2.le, h⟩
      linarith [this.2]
  rw [hbb]

/-- C60 does not hold: whenever the volume of a region differs from that of the
region at the mirrored position, it is not drawn in proportion to its volume. -/
theorem C60_violated {vols : List F} (h0 : ∀ v ∈ vols, 0 < v) {i : Nat} (hi : i < vols.length)
    (hne : vols[i] ≠ vols[vols.length - 1 - i]) : ¬ DrawnWith (regIdx vols) i (vols[i] / vols.sum) := by
  intro h
  have hs : 0 < vols.sum := List.sum_pos vols h0 (by rintro rfl; simp at hi)
  have h' := C60_reversed (fun v hv => (h0 v hv).le) hs hi
  have := h.unique h' (div_pos (h0 _ (List.getElem_mem hi)) hs)
  exact hne ((div_left_inj' hs.ne').1 this)

/-- Volumes 1 and 3: the first region is drawn three times out of four. -/
example : ¬ DrawnWith (regIdx [(1 : ℚ), 3]) 0 (1 / 4) ∧ DrawnWith (regIdx [(1 : ℚ), 3]) 0 (3 / 4) := by
  have h1 := C60_violated (vols := [(1 : ℚ), 3]) (by simp) (i := 0) (by decide) (by decide)
  have h2 := C60_reversed (vols := [(1 : ℚ), 3]) (by simp) (by norm_num) (i := 0) (by decide)
  norm_num at h1 h2
  norm_num
  exact ⟨h1, h2⟩

example : [(1 : ℚ), 3, 1].reverse = [1, 3, 1] ∧ regIdx [(1 : ℚ), 3, 1] (1 / 2) = 1 := by decide +kernel

/-! ### C59 -/

omit [Field F] [LinearOrder F] [IsStrictOrderedRing F] in
theorem sum_counts {l : List Int} {uniq : List Int} (hn : uniq.Nodup) (hsub : ∀ i ∈ l, i ∈ uniq) :
    (uniq.map fun i => (l.filter fun j => decide (j = i)).length).sum = l.length := by
  induction l with
  | nil => simp
  | cons a l ih =>
    have ha := hsub a (by simp)
    have ih' := ih fun i hi => hsub i (by simp [hi])
    have : ∀ u : List Int, u.Nodup → (u.map fun i => ((a :: l).filter fun j => decide (j = i)).length).sum =
        (u.map fun i => (l.filter fun j => decide (j = i)).length).sum + if a ∈ u then 1 else 0 := by
      intro u hu
      induction u with
      | nil => simp
      | cons b u ihu =>
        rw [List.nodup_cons] at hu
        rw [List.map_cons, List.sum_cons, ihu hu.2, List.map_cons, List.sum_cons]
        simp only [List.filter_cons, List.mem_cons]
        by_cases hab : a = b
        · subst hab
          simp [hu.1]
          omega
        · simp [hab]
          omega
    rw [this uniq hn, ih', if_pos ha, List.length_cons]

/-- C59, combined regions: with values from [0,1) for the choice, at least one point,
and samplers that return the requested number of points of their regions,
`sample_points` returns the requested number of points, each in one of the
regions. -/
theorem C59_combined {vols : List F} (h0 : ∀ v ∈ vols, 0 ≤ v) (hs : 0 < vols.sum)
    {samplers : List (Nat → List (Pt F))} (hlen : samplers.length = vols.length) {has : Nat → Pt F → Prop}
    (hsam : ∀ (i : Nat) (hi : i < samplers.length) (m : Nat), (samplers[i] m).length = m ∧
      ∀ p ∈ samplers[i] m, has i p)
    {us : List F} (hu : ∀ u ∈ us, 0 ≤ u ∧ u < 1) (hne : us ≠ []) :
    ∃ pts, combinedSample vols samplers us = .ok pts ∧ pts.length = us.length ∧
      ∀ p ∈ pts, ∃ i < vols.length, has i p := by
  have hrange : ∀ j ∈ us.map (regIdx vols), ∃ i < vols.length, j = (i : Int) := by
    intro j hj
    obtain ⟨u, hm, rfl⟩ := List.mem_map.1 hj
    obtain ⟨m, hmlt, h1, h2⟩ := exists_slot hs (hu u hm).1 (hu u hm).2
    refine ⟨vols.length - 1 - m, by omega, ?_⟩
    rw [regIdx_of h0 hmlt h1 h2]
    omega
  have hu_mem : ∀ i, i ∈ uniqueIdx vols.length (us.map (regIdx vols)) ↔ i ∈ us.map (regIdx vols) := by
    intro i
    unfold uniqueIdx
    rw [List.mem_filter, decide_eq_true_iff]
    refine ⟨fun h => h.2, fun h => ⟨?_, h⟩⟩
    obtain ⟨k, hk, rfl⟩ := hrange i h
    exact List.mem_cons_of_mem _ (List.mem_map.2 ⟨k, List.mem_range.2 hk, rfl⟩)
  have hu_nd : (uniqueIdx vols.length (us.map (regIdx vols))).Nodup := by
    unfold uniqueIdx
    refine List.Nodup.filter _ ?_
    rw [List.nodup_cons]
    refine ⟨?_, List.Nodup.map_on (fun a _ b _ h => by exact_mod_cast h) List.nodup_range⟩
    rw [List.mem_map]
    rintro ⟨k, _, h⟩
    omega
  obtain ⟨uniq, huq⟩ : ∃ uniq, uniq = uniqueIdx vols.length (us.map (regIdx vols)) := ⟨_, rfl⟩
  rw [← huq] at hu_mem hu_nd
  have hune : uniq ≠ [] := by
    obtain ⟨u, hm⟩ := List.exists_mem_of_ne_nil us hne
    exact List.ne_nil_of_mem ((hu_mem _).2 (List.mem_map.2 ⟨u, hm, rfl⟩))
  obtain ⟨pts, hpts⟩ : ∃ pts : List (Pt F), pts = uniq.flatMap fun i =>
      (if i = -1 then samplers.getLastD fun _ => [] else samplers.getD i.toNat fun _ => [])
        ((us.map (regIdx vols)).filter fun j => decide (j = i)).length := ⟨_, rfl⟩
  have hpart : ∀ i ∈ uniq, ∃ k, ∃ hk : k < samplers.length, (i = (k : Int)) ∧
      (if i = -1 then samplers.getLastD fun _ => [] else samplers.getD i.toNat fun _ => []) = samplers[k] := by
    intro i hi
    obtain ⟨k, hk, rfl⟩ := hrange i ((hu_mem i).1 hi)
    refine ⟨k, by omega, rfl, ?_⟩
    rw [if_neg (by omega), Int.toNat_natCast, List.getD_eq_getElem?_getD, List.getElem?_eq_getElem (by omega)]
    rfl
  have hl : pts.length = us.length := by
    rw [hpts, List.length_flatMap]
    have : (uniq.map fun i => ((if i = -1 then samplers.getLastD fun _ => [] else samplers.getD i.toNat fun _ => [])
        ((us.map (regIdx vols)).filter fun j => decide (j = i)).length).length) =
        uniq.map fun i => ((us.map (regIdx vols)).filter fun j => decide (j = i)).length := by
      refine List.map_congr_left fun i hi => ?_
      obtain ⟨k, hk, _, e⟩ := hpart i hi
      rw [e]
      exact (hsam k hk _).1
    rw [this, sum_counts hu_nd fun i hi => (hu_mem i).2 hi, List.length_map]
  refine ⟨pts, ?_, hl, ?_⟩
  · unfold combinedSample
    dsimp only
    rw [← huq]
    cases hcase : uniq with
    | nil => exact absurd hcase hune
    | cons a l =>
      dsimp only
      rw [← hcase, ← hpts, if_neg (not_not.2 hl)]
  · intro p hp
    rw [hpts, List.mem_flatMap] at hp
    obtain ⟨i, hi, hp⟩ := hp
    obtain ⟨k, hk, _, e⟩ := hpart i hi
    rw [e] at hp
    exact ⟨k, by omega, (hsam k hk _).2 p hp⟩

end

/-- Three points from two regions. -/
example : combinedSample [(1 : ℚ), 3]
    [fun n => List.replicate n ⟨0, 0, none⟩, fun n => List.replicate n ⟨5, 0, none⟩] [1 / 8, 1 / 2, 3 / 4] =
    .ok [⟨0, 0, none⟩, ⟨0, 0, none⟩, ⟨5, 0, none⟩] := by
  decide +kernel

/-- Draws for one point of each round region: the ball takes the third candidate. -/
example (r : Ball) (hr : r.radius = 2) :
    ¬ r.Accepts (fun i => if i < 6 then 0 else 1 / 4) 1 ∧ r.Accepts (fun i => if i < 6 then 0 else 1 / 4) 2 := by
  unfold Ball.Accepts uniform
  rw [hr]
  norm_num

end Verif

/-
Property C63 of linear trajectories with constant speed.
-/
import Verif.Lemmas.Trajectory
import Mathlib.Tactic.FinCases
namespace Verif

section
variable {d : Nat}

/-- **C63** The polygon of a linear trajectory: the given points, closed by the first one
unless they are closed already; for points whose last one equals the first one or differs
from it in some coordinate by more than `10⁻⁸` plus a hundred-thousandth of the coordinate. -/
theorem C63_polygon_partial (p0 : Vec d) (rest : List (Vec d))
    (hclose : (p0 :: rest).getLastD p0 = p0 ∨
      ∃ i, 1 / 10 ^ 8 + 1 / 10 ^ 5 * |p0 i| < |(p0 :: rest).getLastD p0 i - p0 i|) :
    ∃ poly, anchorPoints (p0 :: rest) = .ok poly ∧ (p0 :: rest) <+: poly ∧ poly.getLast? = poly.head? ∧
      (poly = p0 :: rest ∨ poly = p0 :: rest ++ [p0]) := by
  unfold anchorPoints
  by_cases h : vclose ((p0 :: rest).getLastD p0) p0
  · refine ⟨p0 :: rest, if_pos h, List.prefix_rfl, ?_, Or.inl rfl⟩
    have e : (p0 :: rest).getLastD p0 = p0 := by
      rcases hclose with e | ⟨i, hi⟩
      · exact e
      · exact absurd (h i) (not_le.mpr hi)
    have : (p0 :: rest).getLast? = some ((p0 :: rest).getLastD p0) := by
      rw [List.getLastD_eq_getLast?, List.getLast?_eq_some_getLast (by simp)]; rfl
    rw [this, e]; rfl
  · refine ⟨p0 :: rest ++ [p0], if_neg h, List.prefix_append _ _, ?_, Or.inr rfl⟩
    rw [List.getLast?_append]; rfl

/-- **C63** For every closed polygon with distinct consecutive corners, every period and
sample rate: the trajectory runs around the polygon with constant speed (`ConstantSpeed`:
periodic, visits the corners, stays on the sides, equal speed on all sides). -/
theorem C63_constant_speed_partial (pts poly : List (Vec d)) (period samplerate : ℝ) (hT : 0 < period * samplerate)
    (hpoly : anchorPoints pts = .ok poly) (hc : ClosedPolygon poly) :
    ∃ (f : ℝ → Except PyErr (Vec d)) (pos : ℝ → Vec d), linearTrajectory pts period samplerate (some true) = .ok f ∧
      (∀ n, f n = .ok (pos n)) ∧ ConstantSpeed poly (period * samplerate) pos := by
  obtain ⟨f, hf, hfmod, hfeq⟩ := constantSpeed_eq poly period samplerate hT hc.distinct hc.two
  obtain ⟨T, hTe⟩ : ∃ T, T = period * samplerate := ⟨_, rfl⟩
  rw [← hTe] at hT hfmod hfeq
  have hL := pathLength_pos hc.two hc.distinct
  have hlast := arrival_last poly T hL.ne'
  have hget : ∀ k, k < poly.length - 1 → ∃ p q, poly[k]? = some p ∧ poly[k + 1]? = some q := fun k hk =>
    ⟨_, _, List.getElem?_eq_getElem (by omega), List.getElem?_eq_getElem (by omega)⟩
  have hgap : ∀ k p q, poly[k]? = some p → poly[k + 1]? = some q → 0 < arrival poly T (k + 1) - arrival poly T k := by
    intro k p q h1 h2
    rw [arrival_succ poly T k p q h1 h2, add_sub_cancel_left]
    have := vdist_pos (hc.distinct k p q h1 h2)
    positivity
  have hex : ∀ n, ∃ x, f n = .ok x := by
    intro n
    have hm := fmod_spec n T hT
    obtain ⟨k, h1, h2, h3⟩ := exists_segment (fmod n T) hm.1 (poly.length - 1) (by rw [hlast]; exact hm.2)
    obtain ⟨p, q, hp, hq⟩ := hget k h1
    exact ⟨_, hfeq n k p q hp hq h2 h3⟩
  choose pos hpos using hex
  have hval : ∀ (t : ℝ) (k : Nat) (p q : Vec d), poly[k]? = some p → poly[k + 1]? = some q → 0 ≤ t → t < T →
      arrival poly T k ≤ t → t < arrival poly T (k + 1) →
      pos t = between p q ((t - arrival poly T k) / (arrival poly T (k + 1) - arrival poly T k)) := by
    intro t k p q hp hq h0 h1 h2 h3
    have e := fmod_of_lt t T h0 h1
    have := hfeq t k p q hp hq (by rw [e]; exact h2) (by rw [e]; exact h3)
    rw [e, hpos] at this
    exact Except.ok.inj this
  have hper : ∀ t, pos (t + T) = pos t := by
    intro t
    have := hfmod (t + T) t (by have := fmod_add_nat t T hT 1; simpa using this)
    rw [hpos, hpos] at this
    exact Except.ok.inj this
  have hle : ∀ j k, j ≤ k → k < poly.length → arrival poly T j ≤ arrival poly T k :=
    fun j k => arrival_le hT hc.distinct j k
  have hnn : ∀ k, k < poly.length → 0 ≤ arrival poly T k := by
    intro k hk; rw [← arrival_zero poly T]; exact hle 0 k (by omega) hk
  have hleT : ∀ k, k < poly.length → arrival poly T k ≤ T := by
    intro k hk; exact (hle k (poly.length - 1) (by omega) (by omega)).trans hlast.le
  have hvis : ∀ (k : Nat) (p : Vec d), poly[k]? = some p → pos (arrival poly T k) = p := by
    have hlow : ∀ (k : Nat) (p : Vec d), k < poly.length - 1 → poly[k]? = some p → pos (arrival poly T k) = p := by
      intro k p hk hp
      obtain ⟨p', q, hp', hq⟩ := hget k hk
      rw [hp] at hp'; cases hp'
      have hg := hgap k p q hp hq
      have h1 := hleT (k + 1) (by omega)
      rw [hval _ k p q hp hq (hnn k (by omega)) (by linarith) le_rfl (by linarith), sub_self, zero_div, between_zero]
    intro k p hp
    have hk := (List.getElem?_eq_some_iff.1 hp).1
    by_cases h : k < poly.length - 1
    · exact hlow k p h hp
    · have e : k = poly.length - 1 := by omega
      subst e
      rw [hlast, show T = 0 + T by ring, hper, ← arrival_zero poly T]
      apply hlow 0 p (by have := hc.two; omega)
      rw [← List.head?_eq_getElem?, ← hc.closed, List.getLast?_eq_getElem?]
      exact hp
  have hclosedval : ∀ (t : ℝ) (k : Nat) (p q : Vec d), poly[k]? = some p → poly[k + 1]? = some q →
      arrival poly T k ≤ t → t ≤ arrival poly T (k + 1) →
      pos t = between p q ((t - arrival poly T k) / (arrival poly T (k + 1) - arrival poly T k)) := by
    intro t k p q hp hq h1 h2
    have hk := (List.getElem?_eq_some_iff.1 hq).1
    have hg := hgap k p q hp hq
    rcases h2.eq_or_lt with rfl | h2
    · rw [hvis (k + 1) q hq, div_self hg.ne', between_one]
    · exact hval t k p q hp hq (le_trans (hnn k (by omega)) h1) (lt_of_lt_of_le h2 (hleT _ hk)) h1 h2
  refine ⟨f, pos, ?_, hpos, ?_⟩
  · unfold linearTrajectory; rw [hpoly]; exact hf
  · rw [← hTe]
    refine ⟨hper, hvis, arrival_zero poly T, hlast, ?_, ?_⟩
    · intro t h0 h1
      have : ∃ k p q, poly[k]? = some p ∧ poly[k + 1]? = some q ∧ arrival poly T k ≤ t ∧ t ≤ arrival poly T (k + 1) := by
        rcases h1.eq_or_lt with rfl | h1
        · obtain ⟨p, q, hp, hq⟩ := hget (poly.length - 2) (by have := hc.two; omega)
          refine ⟨_, p, q, hp, hq, hleT _ (by have := hc.two; omega), ?_⟩
          rw [show poly.length - 2 + 1 = poly.length - 1 by have := hc.two; omega, hlast]
        · obtain ⟨k, h2, h3, h4⟩ := exists_segment t h0 (poly.length - 1) (by rw [hlast]; exact h1)
          obtain ⟨p, q, hp, hq⟩ := hget k h2
          exact ⟨k, p, q, hp, hq, h3, h4.le⟩
      obtain ⟨k, p, q, hp, hq, h3, h4⟩ := this
      have hg := hgap k p q hp hq
      refine ⟨k, p, q, _, hp, hq, ?_, ?_, hclosedval t k p q hp hq h3 h4, h3, h4⟩
      · exact div_nonneg (by linarith) hg.le
      · rw [div_le_one hg]; linarith
    · intro k hk s t hs1 hs2 ht1 ht2
      obtain ⟨p, q, hp, hq⟩ := hget k (by omega)
      have hg := hgap k p q hp hq
      rw [hclosedval s k p q hp hq hs1 hs2, hclosedval t k p q hp hq ht1 ht2, dist_between]
      have e : (s - arrival poly T k) / (arrival poly T (k + 1) - arrival poly T k) -
          (t - arrival poly T k) / (arrival poly T (k + 1) - arrival poly T k) =
          (s - t) / (arrival poly T (k + 1) - arrival poly T k) := by rw [← sub_div]; congr 1; ring
      rw [e, abs_div, abs_of_pos hg, arrival_succ poly T k p q hp hq, add_sub_cancel_left]
      have hv := vdist_pos (hc.distinct k p q hp hq)
      field_simp

/-- **C63** Other modes, and trajectories without points, are refused; so are polygons
with two equal consecutive corners. -/
theorem C63_refused (pts poly : List (Vec d)) (period samplerate : ℝ) :
    (anchorPoints pts = .ok poly → linearTrajectory pts period samplerate none = .error .value) ∧
    linearTrajectory ([] : List (Vec d)) period samplerate (some true) = .error .index ∧
    (anchorPoints pts = .ok poly → ∀ (k : Nat) (p : Vec d), poly[k]? = some p → poly[k + 1]? = some p →
      linearTrajectory pts period samplerate (some true) = .error .assertion) := by
  refine ⟨fun h => by unfold linearTrajectory; rw [h], rfl, ?_⟩
  intro h k p h1 h2
  unfold linearTrajectory
  rw [h]
  dsimp only
  unfold constantSpeed
  rw [if_pos]
  intro hall
  have := hall _ (List.mem_of_getElem? (segLengths_get poly k p p h1 h2))
  simp [vdist] at this

end

/-- The corners of a triangle that is closed up to the tolerance of `np.allclose` only. -/
noncomputable def almostClosed : List (Vec 2) := [![0, 0], ![1, 0], ![0, 1 / 10 ^ 9]]

theorem almostClosed_anchor : anchorPoints almostClosed = .ok almostClosed := by
  unfold anchorPoints almostClosed
  dsimp only
  rw [if_pos]
  intro i
  fin_cases i <;> norm_num

/-- **C63 is violated** for a last point that is close to the first one but different: it
is never visited. -/
theorem C63_violated_tolerance : ∃ f, linearTrajectory almostClosed 1 1 (some true) = .ok f ∧
    ∀ n, f n ≠ .ok ![0, 1 / 10 ^ 9] := by
  have hd : ∀ (k : Nat) (p q : Vec 2), almostClosed[k]? = some p → almostClosed[k + 1]? = some q → p ≠ q := by
    intro k p q hp hq e
    subst e
    unfold almostClosed at hp hq
    match k, hp, hq with
    | 0, hp, hq =>
      simp only [List.getElem?_cons_zero, List.getElem?_cons_succ, Option.some.injEq] at hp hq
      rw [← hp] at hq
      have := congrFun hq 0
      simp at this
    | 1, hp, hq =>
      simp only [List.getElem?_cons_zero, List.getElem?_cons_succ, Option.some.injEq] at hp hq
      rw [← hp] at hq
      have := congrFun hq 0
      simp at this
    | k + 2, hp, hq => simp at hq
  obtain ⟨f, hf, -, hfeq⟩ := constantSpeed_eq almostClosed 1 1 (by norm_num) hd (by decide)
  refine ⟨f, by unfold linearTrajectory; rw [almostClosed_anchor]; exact hf, ?_⟩
  intro n hn
  have hL := pathLength_pos (pts := almostClosed) (by decide) hd
  have hm := fmod_spec n (1 * 1) (by norm_num)
  obtain ⟨k, h1, h2, h3⟩ := exists_segment (pts := almostClosed) (T := 1 * 1) (fmod n (1 * 1)) hm.1
    (almostClosed.length - 1) (by rw [arrival_last _ _ hL.ne']; exact hm.2)
  have hlen : almostClosed.length = 3 := rfl
  rw [hlen] at h1
  match k, h1 with
  | 0, _ =>
    have := hfeq n 0 _ _ rfl rfl h2 h3
    rw [hn] at this
    have := congrFun (Except.ok.inj this) 1
    simp [between] at this
  | 1, _ =>
    have := hfeq n 1 _ _ rfl rfl h2 h3
    rw [hn] at this
    have h0 := congrFun (Except.ok.inj this) 0
    simp only [between, Matrix.cons_val_zero] at h0
    have hlt : (fmod n (1 * 1) - arrival almostClosed (1 * 1) 1) /
        (arrival almostClosed (1 * 1) (1 + 1) - arrival almostClosed (1 * 1) 1) < 1 := by
      rw [div_lt_one (by linarith)]; linarith
    linarith

/-- Points whose last one is a millimetre away from the first one meet the hypotheses: the
first point is appended. -/
example : ∃ poly, anchorPoints [(![5, 0] : Vec 2), ![2, 0], ![5, 1 / 1000]] = .ok poly ∧
    [(![5, 0] : Vec 2), ![2, 0], ![5, 1 / 1000]] <+: poly ∧ poly.getLast? = poly.head? := by
  obtain ⟨poly, h1, h2, h3, -⟩ := C63_polygon_partial (![5, 0] : Vec 2) [![2, 0], ![5, 1 / 1000]]
    (Or.inr ⟨1, by simp [abs_of_pos]; norm_num⟩)
  exact ⟨poly, h1, h2, h3⟩

/-- A unit square meets the hypotheses: the side lengths are equal, so the corners are
reached at quarters of the period. -/
noncomputable def unitSquare : List (Vec 2) := [![0, 0], ![1, 0], ![1, 1], ![0, 1]]

theorem unitSquare_anchor : anchorPoints unitSquare = .ok (unitSquare ++ [![0, 0]]) := by
  unfold anchorPoints unitSquare
  dsimp only
  rw [if_neg]
  · intro h
    have := h 1
    norm_num at this

theorem unitSquare_closed : ClosedPolygon (unitSquare ++ [![0, 0]]) where
  two := by decide
  closed := rfl
  distinct := by
    intro k p q hp hq e
    subst e
    unfold unitSquare at hp hq
    match k, hp, hq with
    | 0, hp, hq =>
      simp at hp hq; rw [← hp] at hq; have := congrFun hq 0; simp at this
    | 1, hp, hq =>
      simp at hp hq; rw [← hp] at hq; have := congrFun hq 1; simp at this
    | 2, hp, hq =>
      simp at hp hq; rw [← hp] at hq; have := congrFun hq 0; simp at this
    | 3, hp, hq =>
      simp at hp hq; rw [← hp] at hq; have := congrFun hq 1; simp at this
    | k + 4, hp, hq => simp at hq

example : ∃ (f : ℝ → Except PyErr (Vec 2)) (pos : ℝ → Vec 2), linearTrajectory unitSquare 2 1000 (some true) = .ok f ∧
    (∀ n, f n = .ok (pos n)) ∧ pos 500 = ![1, 0] ∧ pos 4500 = ![1, 0] := by
  obtain ⟨f, pos, h1, h2, h3⟩ := C63_constant_speed_partial unitSquare _ 2 1000 (by norm_num) unitSquare_anchor unitSquare_closed
  have ha : arrival (unitSquare ++ [![0, 0]]) (2 * 1000) 1 = 500 := by
    unfold arrival unitSquare
    simp [pathLength, Fin.sum_univ_two]
    norm_num
  have h500 : pos 500 = ![1, 0] := by
    rw [← ha]; exact h3.visits 1 _ rfl
  refine ⟨f, pos, h1, h2, h500, ?_⟩
  rw [show (4500 : ℝ) = 500 + 2 * 1000 + 2 * 1000 by norm_num, h3.periodic, h3.periodic, h500]

end Verif

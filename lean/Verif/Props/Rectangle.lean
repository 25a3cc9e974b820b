/-
Properties C66, C79 of the points on the perimeter of a rectangle.
-/
import Verif.Lemmas.Rectangle
import Mathlib.Algebra.Order.Ring.Rat
import Mathlib.Data.Rat.Cast.Order
namespace Verif

section
variable {F : Type} [Field F] [LinearOrder F] [IsStrictOrderedRing F]

/-- **C79** With added side lengths, every other point along the perimeter is placed
on the larger rectangle: proved if nothing is added for the lower side, or the number
of points on the lower side is odd.  The points come in some order. -/
theorem C79_alternate_partial (n : Nat) (a b ea eb offset : F) (z : Option F) (ha : 0 < a) (hb : 0 < b)
    (h0 : 0 ≤ offset) (h1 : offset < 1)
    (hodd : eb = 0 ∨ ((List.range n).filter fun (i : Nat) => decide (a + b ≤ (i + offset) * (2 * (a + b)) / n) &&
      decide ((i + offset) * (2 * (a + b)) / n < 2 * a + b)).length % 2 = 1) :
    ∃ l : List (Pt F), equidistantRectangle n (a, b) (ea, eb) offset z = .ok l ∧ l.length = n ∧
      (∀ p ∈ l, p.z = z) ∧
      (l.map Pt.xy).Perm ((List.range n).map fun (i : Nat) =>
        perimeterPointFar a b ea eb ((i + offset) * (2 * (a + b)) / n) (decide (i % 2 = 1))) := by
  obtain ⟨l, hl, hz, hform⟩ := rectangle_form n a b ea eb offset z ha hb h0 h1.le
  have happ := sides_append n n a b offset ha hb h0 (fun i hi => by
    have : (i : F) + 1 ≤ (n : F) := by exact_mod_cast hi
    have := circPos_lt n a b offset ha hb (i := i) (by linarith) (by omega)
    linarith)
  have hside : eb = 0 ∨ (sideOf n n a b offset (a + b) (a + b + a)).length % 2 = 1 := by
    rcases hodd with h | h
    · exact Or.inl h
    · right
      rw [← h]
      unfold sideOf
      rw [List.filter_map, List.length_map]
      refine congrArg (fun x : List Nat => x.length % 2) (List.filter_congr ?_)
      intro i _
      have e : a + b + a = 2 * a + b := by ring
      simp only [Function.comp, circPos, e]
      rfl
  have hlow := lowerSide_eq a b ea eb hb (sideOf n n a b offset (a + b) (a + b + a)) _
    (fun k p hp => ⟨segment_idx (x := sideOf n n a b offset 0 a ++ sideOf n n a b offset a (a + b)) happ k p hp,
      (mem_sideOf _ _ _ _ _ _ _ (List.mem_of_getElem? hp)).2.2⟩) hside
  have hperm : (l.map Pt.xy).Perm ((List.range n).map fun (i : Nat) =>
        perimeterPointFar a b ea eb ((i + offset) * (2 * (a + b)) / n) (decide (i % 2 = 1))) := by
    rw [hform, hlow]
    have e : ((List.range n).map fun (i : Nat) =>
        perimeterPointFar a b ea eb (((i : F) + offset) * (2 * (a + b)) / n) (decide (i % 2 = 1))) =
        ((List.range n).map fun (i : Nat) => (i, circPos n a b offset i)).map (placed a b ea eb) := by
      rw [List.map_map]; rfl
    rw [e, ← happ]
    simp only [List.map_append]
    exact ((List.Perm.refl _).append (List.reverse_perm _)).append (List.Perm.refl _)
  exact ⟨l, hl, by simpa using hperm.length_eq, hz, hperm⟩

/-- **C66** For every number of points, side lengths and offset in [0, 1): exactly that
many points, and they are the points at arc length (i + offset) · circumference /
num_points on the perimeter, for i = 0, ..., num_points - 1, in some order: neighbours
along the perimeter are circumference / num_points apart. -/
theorem C66_equidistant_partial (n : Nat) (a b offset : F) (z : Option F) (ha : 0 < a) (hb : 0 < b)
    (h0 : 0 ≤ offset) (h1 : offset < 1) :
    ∃ l : List (Pt F), equidistantRectangle n (a, b) (0, 0) offset z = .ok l ∧ l.length = n ∧
      (∀ p ∈ l, p.z = z) ∧
      (l.map Pt.xy).Perm ((List.range n).map fun (i : Nat) => perimeterPoint a b ((i + offset) * (2 * (a + b)) / n)) := by
  obtain ⟨l, h2, h3, h4, h5⟩ := C79_alternate_partial n a b 0 0 offset z ha hb h0 h1 (Or.inl rfl)
  refine ⟨l, h2, h3, h4, ?_⟩
  have e : ∀ (s : F) (f : Bool), perimeterPointFar a b 0 0 s f = perimeterPoint a b s := by
    intro s f
    cases f
    · rfl
    · simp [perimeterPointFar]
  simpa only [e] using h5

/-- **C66** All points are on the perimeter, and no two of them coincide. -/
theorem C66_on_perimeter_partial (n : Nat) (a b offset : F) (z : Option F) (ha : 0 < a) (hb : 0 < b)
    (h0 : 0 ≤ offset) (h1 : offset < 1) (l : List (Pt F))
    (h : equidistantRectangle n (a, b) (0, 0) offset z = .ok l) :
    (∀ p ∈ l, OnBoundary a b (p.x, p.y)) ∧ l.Nodup := by
  obtain ⟨l', h2, h3, h4, h5⟩ := C66_equidistant_partial n a b offset z ha hb h0 h1
  rw [h] at h2
  have := Except.ok.inj h2
  subst this
  have hin : ∀ i < n, 0 ≤ ((i : F) + offset) * (2 * (a + b)) / n ∧ ((i : F) + offset) * (2 * (a + b)) / n < 2 * (a + b) := by
    intro i hi
    refine ⟨circPos_nonneg n a b offset ha hb h0 i, circPos_lt n a b offset ha hb ?_ (by omega)⟩
    have : (i : F) + 1 ≤ (n : F) := by exact_mod_cast hi
    linarith
  constructor
  · intro p hp
    have := h5.subset (List.mem_map_of_mem (f := Pt.xy) hp)
    obtain ⟨i, hi, e⟩ := List.mem_map.1 this
    have hb' := hin i (List.mem_range.1 hi)
    have := perimeterPoint_boundary a b _ ha hb hb'.1 hb'.2.le
    rw [e] at this
    exact this
  · apply List.Nodup.of_map Pt.xy
    rw [h5.nodup_iff]
    apply List.Nodup.map_on _ List.nodup_range
    intro i hi j hj e
    have hi := List.mem_range.1 hi
    have hj := List.mem_range.1 hj
    have := perimeterPoint_inj a b _ _ ha hb (hin i hi) (hin j hj) e
    rcases lt_trichotomy i j with hlt | rfl | hlt
    · exact absurd this (circPos_strict n (by omega) a b offset ha hb hlt).ne
    · rfl
    · exact absurd this (circPos_strict n (by omega) a b offset ha hb hlt).ne'

/-- **C66** Positions that run backwards, or side lengths that are not positive, are
refused. -/
theorem C66_refused (n : Nat) (a b offset : F) (e : F × F) (z : Option F)
    (h : ¬ (0 < a ∧ 0 < b) ∨ ¬ (0 ≤ offset ∧ offset ≤ 1)) :
    equidistantRectangle n (a, b) e offset z = .error .assertion := by
  unfold equidistantRectangle
  by_cases h1 : 0 < a ∧ 0 < b
  · rw [if_neg (not_not.2 h1), if_pos (by tauto)]
  · rw [if_pos h1]

/-- **C66 is violated** for offset 1: for every number of points and every rectangle one
point is missing. -/
theorem C66_violated_offset (n : Nat) (hn : 0 < n) (a b : F) (e : F × F) (z : Option F) (ha : 0 < a) (hb : 0 < b) :
    ∃ l : List (Pt F), equidistantRectangle n (a, b) e 1 z = .ok l ∧ l.length = n - 1 := by
  obtain ⟨l, hl, -, hform⟩ := rectangle_form n a b e.1 e.2 1 z ha hb zero_le_one le_rfl
  refine ⟨l, hl, ?_⟩
  obtain ⟨m, rfl⟩ : ∃ m, n = m + 1 := ⟨n - 1, by omega⟩
  have hn' : (0 : F) < ((m + 1 : Nat) : F) := by exact_mod_cast hn
  have hlast : circPos (m + 1) a b 1 m = 2 * (a + b) := by
    unfold circPos; push_cast at hn' ⊢; field_simp
  have hdrop : ∀ lo hi : F, hi ≤ 2 * (a + b) → sideOf (m + 1) (m + 1) a b 1 lo hi = sideOf (m + 1) m a b 1 lo hi := by
    intro lo hi hle
    unfold sideOf
    rw [List.range_succ, List.map_append, List.filter_append]
    simp [hlast, not_lt.2 hle]
  have happ := sides_append (m + 1) m a b 1 ha hb zero_le_one (fun i hi => by
    have : (i : F) + 1 < ((m + 1 : Nat) : F) := by push_cast; have : (i : F) < m := by exact_mod_cast hi
                                                   linarith
    have := circPos_lt (m + 1) a b 1 ha hb (i := i) this (by omega)
    linarith)
  have hlen := congrArg List.length happ
  have hfl := congrArg List.length hform
  rw [hdrop _ _ (by linarith), hdrop _ _ (by linarith), hdrop _ _ (by linarith), hdrop _ _ (by linarith)] at hfl
  simp only [List.length_append, List.length_map, lowerSide_length, List.length_range] at hfl hlen
  omega

end

/-- **C79 is violated**: with eight points on a square, the points with numbers 3 and 4
along the perimeter are both on the larger square, and 5 and 6 are both on the smaller one. -/
theorem C79_violated : ∃ l : List (Pt ℚ), equidistantRectangle 8 ((2 : ℚ), (2 : ℚ)) (1, 1) (1 / 2) none = .ok l ∧
    l.length = 8 ∧
    perimeterPointFar (2 : ℚ) 2 1 1 (7 / 2) true ∈ l.map Pt.xy ∧
    perimeterPointFar (2 : ℚ) 2 1 1 (9 / 2) true ∈ l.map Pt.xy ∧
    perimeterPointFar (2 : ℚ) 2 1 1 (9 / 2) false ∉ l.map Pt.xy ∧
    perimeterPointFar (2 : ℚ) 2 1 1 (11 / 2) false ∈ l.map Pt.xy ∧
    perimeterPointFar (2 : ℚ) 2 1 1 (13 / 2) false ∈ l.map Pt.xy := by
  apply exists_ok_of
  decide +kernel

/-- The returned order is not the order along the perimeter: the lower side is reversed. -/
theorem C66_order_reversed : ∃ l : List (Pt ℚ), equidistantRectangle 8 ((2 : ℚ), (2 : ℚ)) (0, 0) (1 / 2) none = .ok l ∧
    (l.map Pt.xy)[4]? = some (perimeterPoint 2 2 (11 / 2)) ∧ (l.map Pt.xy)[5]? = some (perimeterPoint 2 2 (9 / 2)) := by
  apply exists_ok_of
  decide +kernel

/-- Twelve points on a square, three on each side: all hypotheses of
`C79_alternate_partial` hold. -/
example : ∃ l : List (Pt ℚ), equidistantRectangle 12 ((2 : ℚ), (2 : ℚ)) (1, 1) (1 / 2) none = .ok l ∧ l.length = 12 ∧
    (∀ p ∈ l, p.z = none) ∧
    (l.map Pt.xy).Perm ((List.range 12).map fun (i : Nat) =>
      perimeterPointFar 2 2 1 1 ((i + 1 / 2) * (2 * (2 + 2)) / (12 : Nat)) (decide (i % 2 = 1))) :=
  C79_alternate_partial 12 2 2 1 1 (1 / 2) none (by norm_num) (by norm_num) (by norm_num) (by norm_num)
    (Or.inr (by decide +kernel))

/-- Five points on a 3 x 1 rectangle, first point in the corner. -/
example : ∃ l : List (Pt ℚ), equidistantRectangle 5 ((3 : ℚ), (1 : ℚ)) (0, 0) 0 (some 7) = .ok l ∧ l.length = 5 ∧
    l.head? = some ⟨-3 / 2, 1 / 2, some 7⟩ := by
  apply exists_ok_of
  decide +kernel

end Verif

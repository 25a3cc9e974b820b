/-
Property C153: `equidistant_rectangle_old`.
-/
import Verif.Model.OldRectangle
import Verif.Props.Rectangle
import Mathlib.Data.Rat.Floor
import Mathlib.Algebra.Order.Floor.Ring
import Mathlib.Tactic.Linarith
import Mathlib.Tactic.FieldSimp
namespace Verif

section
variable {F : Type} [Field F] [LinearOrder F] [IsStrictOrderedRing F] [FloorRing F]

/-- One side that is at least as long as the distance of the points. -/
theorem oldRectSide_step {n : Nat} {dist len off S : F} {corner fac : F × F} {s : OldRectSt F} (hd : 0 < dist) (hlen : dist ≤ len)
    (h0 : 0 < off) (hs : s.start = ((s.num : F) + off) * dist - S) (hs0 : 0 < s.start) (hs1 : s.start ≤ dist)
    (hS : S + len ≤ (n : F) * dist) :
    ∃ m : Nat, s.num + m ≤ n ∧
      (∀ k < m, S < ((s.num + k : Nat) + off) * dist ∧ ((s.num + k : Nat) + off) * dist ≤ S + len) ∧
      ∃ s', oldRectSide n dist len corner fac s = .ok s' ∧ s'.num = s.num + m ∧
        s'.start = ((s'.num : F) + off) * dist - (S + len) ∧ 0 < s'.start ∧ s'.start ≤ dist ∧
        s'.pts = s.pts ++ (List.range m).map fun (k : Nat) =>
          (corner.1 + fac.1 * (((s.num + k : Nat) + off) * dist - S), corner.2 + fac.2 * (((s.num + k : Nat) + off) * dist - S)) := by
  have hq : 0 ≤ (len - s.start) / dist := div_nonneg (by linarith) hd.le
  obtain ⟨j, hj⟩ : ∃ j : Nat, ⌊(len - s.start) / dist⌋ = (j : Int) := ⟨_, (Int.toNat_of_nonneg (Int.floor_nonneg.2 hq)).symm⟩
  have hm : (1 + intOf ((len - s.start) / dist)).toNat = j + 1 := by
    unfold intOf
    rw [if_pos hq, hj]
    omega
  have hfl := Int.floor_le ((len - s.start) / dist)
  have hlt := Int.lt_floor_add_one ((len - s.start) / dist)
  rw [hj, le_div_iff₀ hd] at hfl
  rw [hj, div_lt_iff₀ hd] at hlt
  push_cast at hfl hlt
  have hpos : ∀ k : Nat, (((s.num + k : Nat) : F) + off) * dist = s.start + S + (k : F) * dist := by
    intro k
    rw [hs]; push_cast; ring
  have hfit : s.num + (j + 1) ≤ n := by
    have h1 : (((s.num + j : Nat) : F) + off) * dist ≤ (n : F) * dist := by
      rw [hpos]; linarith
    have h2 := le_of_mul_le_mul_right h1 hd
    have h3 : ((s.num + j : Nat) : F) < (n : F) := by linarith
    have := Nat.cast_lt.1 h3
    omega
  have hres : oldRectSide n dist len corner fac s = .ok ⟨s.num + (j + 1), dist - (len - (s.start + (j : F) * dist)),
      s.pts ++ (((List.range (j + 1)).map fun (k : Nat) => s.start + (k : F) * dist).map fun t =>
        (corner.1 + fac.1 * t, corner.2 + fac.2 * t)).take (n - s.num)⟩ := by
    unfold oldRectSide
    dsimp only
    rw [hm, if_neg (by omega), if_pos (Or.inr hfit), Nat.add_sub_cancel]
  refine ⟨j + 1, hfit, ?_, _, hres, rfl, ?_, ?_, ?_, ?_⟩
  · intro k hk
    rw [hpos]
    have hk' : (k : F) ≤ (j : F) := Nat.cast_le.2 (by omega)
    have hk0 : (0 : F) ≤ (k : F) := Nat.cast_nonneg k
    have h1 := mul_le_mul_of_nonneg_right hk' hd.le
    have h2 := mul_nonneg hk0 hd.le
    constructor <;> linarith
  · dsimp only
    rw [hpos]
    push_cast
    ring
  · dsimp only
    linarith
  · dsimp only
    linarith
  · dsimp only
    rw [List.take_of_length_le (by simp only [List.length_map, List.length_range]; omega), List.map_map]
    congr 1
    refine List.map_congr_left fun k _ => ?_
    simp only [Function.comp_apply]
    rw [hpos, show s.start + S + (k : F) * dist - S = s.start + (k : F) * dist by ring]

/-- **C153** At least four points whose distance is not larger than a side, and an offset in
(0, 1]: the points are in order those at arc length (i + offset) · circumference /
num_points from the lower left corner counterclockwise. -/
theorem C153_partial (n : Nat) (a b offset : F) (z : Option F) (hn : 4 ≤ n) (ha : 2 * (a + b) ≤ n * a) (hb : 2 * (a + b) ≤ n * b)
    (hpos : 0 < a + b) (h0 : 0 < offset) (h1 : offset ≤ 1) :
    rectangleOld n (a, b) offset z = .ok ((List.range n).map fun (i : Nat) =>
      ⟨(perimeterPoint a b ((i + offset) * (2 * (a + b)) / n)).1,
        -(perimeterPoint a b ((i + offset) * (2 * (a + b)) / n)).2, z⟩) := by
  have hn' : (0 : F) < (n : F) := by exact_mod_cast (by omega : 0 < n)
  obtain ⟨d, hd⟩ : ∃ d : F, d = 2 * (a + b) / (n : F) := ⟨_, rfl⟩
  have hdn : d * n = 2 * (a + b) := by rw [hd]; field_simp
  have hd0 : 0 < d := by rw [hd]; positivity
  have ha' : d ≤ a := by rw [hd, div_le_iff₀ hn']; linarith
  have hb' : d ≤ b := by rw [hd, div_le_iff₀ hn']; linarith
  have hod : 0 < d * offset := mul_pos hd0 h0
  have hod1 : d * offset ≤ d := by nlinarith
  obtain ⟨m0, g0, p0, s1, e1, n1, q1, l1, u1, t1⟩ := oldRectSide_step (n := n) (dist := d) (len := a) (off := offset) (S := 0)
    (corner := (-a / 2, -b / 2)) (fac := (1, 0)) (s := ⟨0, d * offset, []⟩) hd0 ha' h0 (by simp; ring) hod hod1 (by linarith)
  obtain ⟨m1, g1, p1, s2, e2, n2, q2, l2, u2, t2⟩ := oldRectSide_step (n := n) (dist := d) (len := b) (off := offset) (S := 0 + a)
    (corner := (a / 2, -b / 2)) (fac := (0, 1)) (s := s1) hd0 hb' h0 q1 l1 u1 (by linarith)
  obtain ⟨m2, g2, p2, s3, e3, n3, q3, l3, u3, t3⟩ := oldRectSide_step (n := n) (dist := d) (len := a) (off := offset)
    (S := 0 + a + b) (corner := (a / 2, b / 2)) (fac := (-1, 0)) (s := s2) hd0 ha' h0 q2 l2 u2 (by linarith)
  obtain ⟨m3, g3, p3, s4, e4, n4, q4, l4, u4, t4⟩ := oldRectSide_step (n := n) (dist := d) (len := b) (off := offset)
    (S := 0 + a + b + a) (corner := (-a / 2, b / 2)) (fac := (0, -1)) (s := s3) hd0 hb' h0 q3 l3 u3 (by linarith)
  have hall : s4.num = n := by
    have h2 : (n : F) * d < ((s4.num : F) + offset) * d := by linarith
    have h3 := lt_of_mul_lt_mul_right h2 hd0.le
    have h4 : (n : F) < ((s4.num + 1 : Nat) : F) := by push_cast; linarith
    have := Nat.cast_lt.1 h4
    omega
  have hpts : s4.pts = (List.range n).map fun (i : Nat) =>
      ((perimeterPoint a b ((i + offset) * d)).1, -(perimeterPoint a b ((i + offset) * d)).2) := by
    rw [t4, t3, t2, t1, ← hall, n4, n3, n2, n1]
    simp only [Nat.zero_add, List.nil_append, List.range_add, List.map_append, List.map_map, n1, n2, n3]
    congr 1
    · congr 1
      · congr 1
        · refine List.map_congr_left fun k hk => ?_
          have h := p0 k (List.mem_range.1 hk)
          simp only [Nat.zero_add] at h
          unfold perimeterPoint
          rw [if_pos (by linarith)]
          refine Prod.ext ?_ ?_ <;> dsimp only <;> ring
        · refine List.map_congr_left fun k hk => ?_
          have h := p1 k (List.mem_range.1 hk)
          simp only [n1, Nat.zero_add] at h
          simp only [Function.comp_apply]
          unfold perimeterPoint
          rw [if_neg (by linarith), if_pos (by linarith)]
          refine Prod.ext ?_ ?_ <;> dsimp only <;> ring
      · refine List.map_congr_left fun k hk => ?_
        have h := p2 k (List.mem_range.1 hk)
        simp only [n2, n1, Nat.zero_add] at h
        simp only [Function.comp_apply]
        unfold perimeterPoint
        rw [if_neg (by linarith), if_neg (by linarith), if_pos (by linarith)]
        refine Prod.ext ?_ ?_ <;> dsimp only <;> ring
    · refine List.map_congr_left fun k hk => ?_
      have h := p3 k (List.mem_range.1 hk)
      simp only [n3, n2, n1, Nat.zero_add] at h
      simp only [Function.comp_apply]
      unfold perimeterPoint
      rw [if_neg (by linarith), if_neg (by linarith), if_neg (by linarith)]
      refine Prod.ext ?_ ?_ <;> dsimp only <;> ring
  have hsides : oldRectSides n a b offset = .ok s4 := by
    unfold oldRectSides
    simp only [← hd]
    rw [e1]
    show (do let s ← oldRectSide n d b (a / 2, -b / 2) (0, 1) s1; _ : Except PyErr (OldRectSt F)) = _
    rw [e2]
    show (do let s ← oldRectSide n d a (a / 2, b / 2) (-1, 0) s2; _ : Except PyErr (OldRectSt F)) = _
    rw [e3]
    exact e4
  unfold rectangleOld
  rw [if_neg (by omega), if_neg (by omega), if_neg hpos.ne']
  dsimp only
  rw [hsides]
  dsimp only
  rw [hpts]
  simp only [List.length_map, List.length_range, Nat.sub_self, List.replicate_zero, List.append_nil, List.map_map]
  congr 1
  refine List.map_congr_left fun i _ => ?_
  simp only [Function.comp_apply]
  rw [show ((i : F) + offset) * (2 * (a + b)) / (n : F) = ((i : F) + offset) * d by rw [hd]; ring]

/-- **C153** Fewer than four points are the first of the four that `equidistant_rectangle`
returns, on the boundary, and the offset has no effect. -/
theorem C153_few (n : Nat) (a b : F) (z : Option F) (hn : n < 4) (ha : 0 < a) (hb : 0 < b) :
    ∃ l l4, (∀ offset, rectangleOld n (a, b) offset z = .ok l) ∧ equidistantRectangle 4 (a, b) (0, 0) (1 / 2) none = .ok l4 ∧
      l.map Pt.xy = (l4.map Pt.xy).take n ∧ l.length = n ∧ (∀ p ∈ l, OnBoundary a b (p.x, p.y) ∧ p.z = z) := by
  obtain ⟨l, h2, h3, -⟩ := C66_equidistant_partial 4 a b (1 / 2) none ha hb (by norm_num) (by norm_num)
  obtain ⟨h4, -⟩ := C66_on_perimeter_partial 4 a b (1 / 2) none ha hb (by norm_num) (by norm_num) l h2
  unfold rectangleOld
  by_cases h0 : n = 0
  · simp only [if_pos h0]
    exact ⟨[], l, fun _ => rfl, h2, by simp [h0], by simp [h0], by simp⟩
  · simp only [if_neg h0, if_pos hn]
    rw [h2]
    refine ⟨_, l, fun _ => rfl, rfl, ?_, ?_, ?_⟩
    · rw [List.map_map, List.map_take]
      rfl
    · rw [List.length_map, List.length_take, h3]
      omega
    · intro p hp
      obtain ⟨p', hp', rfl⟩ := List.mem_map.1 hp
      exact ⟨h4 p' (List.mem_of_mem_take hp'), rfl⟩

end

/-- **C153 is violated** on an elongated rectangle: of six points on a rectangle of size 10 times 1
one is at height 7/3, outside. -/
theorem C153_violated_outside : ∃ l : List (Pt ℚ), rectangleOld 6 ((10 : ℚ), (1 : ℚ)) (1 / 2) none = .ok l ∧ l.length = 6 ∧
    (5, 7 / 3) ∈ l.map Pt.xy ∧ ¬ OnBoundary (10 : ℚ) 1 (5, 7 / 3) := by
  obtain ⟨l, h, h1, h2⟩ : ∃ l : List (Pt ℚ), rectangleOld 6 ((10 : ℚ), (1 : ℚ)) (1 / 2) none = .ok l ∧ l.length = 6 ∧
      ((5 : ℚ), (7 / 3 : ℚ)) ∈ l.map Pt.xy := by
    apply exists_ok_of
    decide +kernel
  refine ⟨l, h, h1, h2, ?_⟩
  rintro ⟨-, h3, -⟩
  norm_num at h3

/-- **C153 is violated** for offset 0: a point too much, which does not fit. -/
theorem C153_violated_offset : rectangleOld 8 ((2 : ℚ), (2 : ℚ)) 0 none = .error .value := by
  decide +kernel

/-- **C153 is violated** for few points: two points are a quarter of the circumference apart, not
half. -/
theorem C153_violated_few : ∃ l : List (Pt ℚ), rectangleOld 2 ((2 : ℚ), (2 : ℚ)) (1 / 2) none = .ok l ∧
    l.map Pt.xy = [perimeterPoint 2 2 1, perimeterPoint 2 2 3] := by
  apply exists_ok_of
  decide +kernel

/-- Eight points on a rectangle of size 3 times 2. -/
example : rectangleOld 8 ((3 : ℚ), (2 : ℚ)) (1 / 2) none = .ok ((List.range 8).map fun (i : Nat) =>
      ⟨(perimeterPoint (3 : ℚ) 2 ((i + 1 / 2) * (2 * (3 + 2)) / (8 : Nat))).1,
        -(perimeterPoint (3 : ℚ) 2 ((i + 1 / 2) * (2 * (3 + 2)) / (8 : Nat))).2, none⟩) :=
  C153_partial 8 3 2 (1 / 2) none (by norm_num) (by norm_num) (by norm_num) (by norm_num) (by norm_num) (by norm_num)

example : ∃ l, rectangleOld 3 ((3 : ℚ), (2 : ℚ)) (1 / 4) (some 1) = .ok l ∧ l.length = 3 ∧
    (∀ p ∈ l, OnBoundary 3 2 (p.x, p.y) ∧ p.z = some 1) := by
  obtain ⟨l, -, h, -, -, h1, h2⟩ := C153_few 3 (3 : ℚ) 2 (some 1) (by norm_num) (by norm_num) (by norm_num)
  exact ⟨l, h _, h1, h2⟩

end Verif

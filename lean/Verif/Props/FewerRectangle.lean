/-
Property C154: `equidistant_rectangle_for_fewer`.
-/
import Verif.Props.OldRectangle
namespace Verif

section
variable {F : Type} [Field F] [LinearOrder F] [IsStrictOrderedRing F] [FloorRing F]

theorem on_upper {a b x : F} (ha : 0 < a) (hb : 0 < b) (h0 : 0 ≤ x) (h1 : x < 1) {c : F} (hc : c = 1 ∨ c = -1) :
    OnBoundary a b (x * a / 4 - a / 4, c * b / 2) := by
  have h2 : 0 ≤ x * a := mul_nonneg h0 ha.le
  have h3 : x * a ≤ a := by nlinarith
  have h4 : |c * b / 2| = b / 2 := by
    rcases hc with rfl | rfl
    · rw [abs_of_nonneg (by linarith)]; ring
    · rw [abs_of_nonpos (by linarith)]; ring
  refine ⟨abs_le.2 ⟨by linarith, by linarith⟩, h4.le, Or.inr h4⟩

theorem on_side {a b x : F} (ha : 0 < a) (hb : 0 < b) (h0 : 0 ≤ x) (h1 : x < 1) {c : F} (hc : c = 1 ∨ c = -1) :
    OnBoundary a b (c * a / 2, x * b / 4 - b / 4) := by
  obtain ⟨h2, h3, h4⟩ := on_upper hb ha h0 h1 hc
  exact ⟨h3, h2, h4.symm⟩

/-- **C154** One, two or three points: as many as asked for, on the boundary of the rectangle. -/
theorem C154_few (u : Nat → F) (c : F) (n : Nat) (a b : F) (ha : 0 < a) (hb : 0 < b) (h1 : 1 ≤ n) (h3 : n ≤ 3)
    (hu : ∀ i, 0 ≤ u i ∧ u i < 1) (hc : c = 1 ∨ c = -1) :
    ∃ l, rectangleFewer u c n (a, b) = .ok l ∧ l.length = n ∧ ∀ p ∈ l, OnBoundary a b p := by
  have hup : ∀ i, OnBoundary a b (u i * a / 4 - a / 4, b / 2) := by
    intro i
    have := on_upper ha hb (hu i).1 (hu i).2 (c := 1) (Or.inl rfl)
    rwa [one_mul] at this
  obtain rfl | rfl | rfl : n = 1 ∨ n = 2 ∨ n = 3 := by omega
  · refine ⟨_, rfl, rfl, ?_⟩
    intro p hp
    rw [List.mem_singleton] at hp
    subst hp
    exact on_upper ha hb (hu 0).1 (hu 0).2 hc
  · refine ⟨_, rfl, rfl, ?_⟩
    intro p hp
    simp only [List.mem_cons, List.not_mem_nil, or_false] at hp
    rcases hp with rfl | rfl
    · exact hup 0
    · exact hup 1
  · refine ⟨_, rfl, rfl, ?_⟩
    intro p hp
    simp only [List.mem_cons, List.not_mem_nil, or_false] at hp
    rcases hp with rfl | rfl | rfl
    · exact hup 0
    · exact hup 1
    · exact on_side ha hb (hu 2).1 (hu 2).2 hc

/-- **C154** At least four points whose distance is not larger than a side: the points are in
order those at arc length (i + u) · circumference / num_points, where u is the number drawn,
unless it is 0. -/
theorem C154_partial (u : Nat → F) (c : F) (n : Nat) (a b : F) (hn : 4 ≤ n) (ha : 2 * (a + b) ≤ n * a)
    (hb : 2 * (a + b) ≤ n * b) (hpos : 0 < a + b) (h0 : 0 < u 0) (h1 : u 0 < 1) :
    rectangleFewer u c n (a, b) = .ok ((List.range n).map fun (i : Nat) =>
      ((perimeterPoint a b ((i + u 0) * (2 * (a + b)) / n)).1, -(perimeterPoint a b ((i + u 0) * (2 * (a + b)) / n)).2)) := by
  have h := C153_partial n a b (u 0) none hn ha hb hpos h0 h1.le
  unfold rectangleOld at h
  unfold rectangleFewer
  rw [if_neg (by omega), if_neg (by omega), if_neg hpos.ne'] at h
  dsimp only
  rw [if_neg (by omega), if_neg (by omega), if_neg (by omega), if_neg (by omega), if_neg hpos.ne']
  dsimp only at h
  cases hs : oldRectSides n a b (u 0) with
  | error e => rw [hs] at h; cases h
  | ok s =>
    rw [hs] at h
    have h2 := congrArg (List.map Pt.xy) (Except.ok.inj h)
    simp only [List.map_map] at h2
    have h3 : (Pt.xy ∘ fun (p : F × F) => (⟨p.1, p.2, none⟩ : Pt F)) = id := rfl
    rw [h3, List.map_id] at h2
    dsimp only
    rw [h2]
    rfl

end

/-- **C154 is violated** for no points at all. -/
theorem C154_violated_none (u : Nat → ℚ) (c : ℚ) (side : ℚ × ℚ) : rectangleFewer u c 0 side = .error .zeroDivision := rfl

/-- **C154 is violated** if the draw is 0. -/
theorem C154_violated_draw : rectangleFewer (fun _ => (0 : ℚ)) 1 8 (2, 2) = .error .value := by
  decide +kernel

/-- **C154 is violated** on an elongated rectangle: one of six points is not on the boundary. -/
theorem C154_violated_outside : ∃ l : List (ℚ × ℚ), rectangleFewer (fun _ => 1 / 2) 1 6 ((10 : ℚ), (1 : ℚ)) = .ok l ∧
    l.length = 6 ∧ (5, 7 / 3) ∈ l ∧ ¬ OnBoundary (10 : ℚ) 1 (5, 7 / 3) := by
  obtain ⟨l, h, h1, h2⟩ : ∃ l : List (ℚ × ℚ), rectangleFewer (fun _ => 1 / 2) 1 6 ((10 : ℚ), (1 : ℚ)) = .ok l ∧ l.length = 6 ∧
      ((5 : ℚ), (7 / 3 : ℚ)) ∈ l := by
    apply exists_ok_of
    decide +kernel
  refine ⟨l, h, h1, h2, ?_⟩
  rintro ⟨-, h3, -⟩
  norm_num at h3

/-- **C154 is violated** for two points: both are on the left half of the upper side, at a distance
that is less than a quarter of the width whatever is drawn. -/
theorem C154_violated_two {F : Type} [Field F] [LinearOrder F] [IsStrictOrderedRing F] [FloorRing F] (u : Nat → F) (c a b : F)
    (ha : 0 < a) (hu : ∀ i, 0 ≤ u i ∧ u i < 1) :
    ∃ x y, rectangleFewer u c 2 (a, b) = .ok [(x, b / 2), (y, b / 2)] ∧ |x - y| < a / 4 := by
  refine ⟨_, _, rfl, ?_⟩
  dsimp only
  have h0 := hu 0
  have h1 := hu 1
  rw [abs_lt]
  constructor <;> nlinarith

/-- Three points. -/
example : ∃ l : List (ℚ × ℚ), rectangleFewer (fun i => if i = 0 then 1 / 2 else if i = 1 then 3 / 4 else 0) (-1) 3 (4, 2) = .ok l ∧
    l = [(-1 / 2, 1), (-1 / 4, 1), (-2, -1 / 2)] ∧ ∀ p ∈ l, OnBoundary 4 2 p := by
  obtain ⟨l, h1, -, h3⟩ := C154_few (fun (i : Nat) => if i = 0 then (1 / 2 : ℚ) else if i = 1 then 3 / 4 else 0) (-1) 3 4 2
    (by norm_num) (by norm_num) (by norm_num) (by norm_num) (by intro i; split <;> [norm_num; split <;> norm_num]) (Or.inr rfl)
  refine ⟨l, h1, ?_, h3⟩
  have : rectangleFewer (fun (i : Nat) => if i = 0 then (1 / 2 : ℚ) else if i = 1 then 3 / 4 else 0) (-1) 3 (4, 2) =
      .ok [(-1 / 2, 1), (-1 / 4, 1), (-2, -1 / 2)] := by decide +kernel
  rw [this] at h1
  exact (Except.ok.inj h1).symm

/-- Eight points on a rectangle of size 3 times 2. -/
example : rectangleFewer (fun _ => 1 / 3) 1 8 ((3 : ℚ), (2 : ℚ)) = .ok ((List.range 8).map fun (i : Nat) =>
      ((perimeterPoint (3 : ℚ) 2 ((i + 1 / 3) * (2 * (3 + 2)) / (8 : Nat))).1,
        -(perimeterPoint (3 : ℚ) 2 ((i + 1 / 3) * (2 * (3 + 2)) / (8 : Nat))).2)) :=
  C154_partial (fun _ => 1 / 3) 1 8 3 2 (by norm_num) (by norm_num) (by norm_num) (by norm_num) (by norm_num) (by norm_num)

example : ∃ x y, rectangleFewer (fun i => if i = 0 then 1 / 2 else (1 / 4 : ℚ)) 1 2 (4, 2) = .ok [(x, 2 / 2), (y, 2 / 2)] ∧ |x - y| < 4 / 4 :=
  C154_violated_two _ _ _ _ (by norm_num) (by intro i; split <;> norm_num)

end Verif

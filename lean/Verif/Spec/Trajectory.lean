/-
What a movement along a closed polygon is.
-/
import Verif.Model.Trajectory
namespace Verif

noncomputable section
variable {d : Nat}

/-- Length of the path through the points. -/
def pathLength : List (Vec d) → ℝ
  | p :: q :: rest => √(∑ i, (p i - q i) ^ 2) + pathLength (q :: rest)
  | _ => 0

/-- When a movement with constant speed that takes time `T` for the whole path arrives at
point `k`. -/
def arrival (poly : List (Vec d)) (T : ℝ) (k : Nat) : ℝ := T * (pathLength (poly.take (k + 1)) / pathLength poly)

/-- The point at fraction `f` of the way from `p` to `q`. -/
def between (p q : Vec d) (f : ℝ) : Vec d := fun i => p i + f * (q i - p i)

/-- `pos` runs around the polygon with constant speed and period `T`: it has period `T`; it
is at each corner at the time it is reached with constant speed, first and last corner at
the start and the end of the period; it is on the sides of the polygon all the time, on
side `k` between the arrivals at corners `k` and `k+1`; distances covered inside a side
are proportional to the time, with the same speed for all sides. -/
structure ConstantSpeed (poly : List (Vec d)) (T : ℝ) (pos : ℝ → Vec d) : Prop where
  periodic : ∀ t, pos (t + T) = pos t
  visits : ∀ (k : Nat) (p : Vec d), poly[k]? = some p → pos (arrival poly T k) = p
  start : arrival poly T 0 = 0
  stop : arrival poly T (poly.length - 1) = T
  onSide : ∀ (t : ℝ), 0 ≤ t → t ≤ T → ∃ (k : Nat) (p q : Vec d) (f : ℝ), poly[k]? = some p ∧ poly[k + 1]? = some q ∧
    0 ≤ f ∧ f ≤ 1 ∧ pos t = between p q f ∧ arrival poly T k ≤ t ∧ t ≤ arrival poly T (k + 1)
  speed : ∀ (k : Nat), k + 1 < poly.length → ∀ s t : ℝ,
    arrival poly T k ≤ s → s ≤ arrival poly T (k + 1) → arrival poly T k ≤ t → t ≤ arrival poly T (k + 1) →
    √(∑ i, (pos s i - pos t i) ^ 2) = |s - t| * (pathLength poly / T)

/-- The points are the corners of a closed polygon with distinct consecutive corners. -/
structure ClosedPolygon (poly : List (Vec d)) : Prop where
  two : 2 ≤ poly.length
  closed : poly.getLast? = poly.head?
  distinct : ∀ (k : Nat) (p q : Vec d), poly[k]? = some p → poly[k + 1]? = some q → p ≠ q

end
end Verif

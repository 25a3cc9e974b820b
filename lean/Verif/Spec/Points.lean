/-
What is meant by the positions of generated points.
-/
import Verif.Model.Points
namespace Verif

/-- Inner and outer radius meant by the argument. -/
def Radius.Within (ρ : ℝ) : Radius → Prop
  | .one r => ρ = r
  | .range a b => a ≤ ρ ∧ ρ ≤ b

/-- The point at arc length `s` on the boundary of the rectangle with side lengths `a` and
`b` around the origin, from the corner (-a/2, b/2) along the upper, right, lower and left
side. -/
def perimeterPoint {F : Type} [Field F] [LinearOrder F] (a b s : F) : F × F :=
  if s ≤ a then (s - a / 2, b / 2)
  else if s ≤ a + b then (a / 2, b / 2 - (s - a))
  else if s ≤ 2 * a + b then (a / 2 - (s - (a + b)), -(b / 2))
  else (-(a / 2), s - (2 * a + b) - b / 2)

/-- The same, moved outwards by `ea / 2` (left and right side) or `eb / 2` (upper and
lower side) if `far` holds. -/
def perimeterPointFar {F : Type} [Field F] [LinearOrder F] (a b ea eb s : F) (far : Bool) : F × F :=
  let p := perimeterPoint a b s
  if far then
    if s < a then (p.1, p.2 + eb / 2)
    else if s < a + b then (p.1 + ea / 2, p.2)
    else if s < 2 * a + b then (p.1, p.2 - eb / 2)
    else (p.1 - ea / 2, p.2)
  else p

/-- The horizontal and vertical coordinate. -/
def Pt.xy {F : Type} (p : Pt F) : F × F := (p.x, p.y)

/-- On the boundary of the rectangle with side lengths `a` and `b` around the origin. -/
def OnBoundary {F : Type} [Field F] [LinearOrder F] (a b : F) (p : F × F) : Prop :=
  |p.1| ≤ a / 2 ∧ |p.2| ≤ b / 2 ∧ (|p.1| = a / 2 ∨ |p.2| = b / 2)

end Verif

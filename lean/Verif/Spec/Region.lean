/-
What it means to lie in a region, and evenly spaced coordinates.
-/
import Verif.Model.Region
namespace Verif

section
variable {F : Type} [Field F] [LinearOrder F]

/-- Coordinate number `k` of `n` coordinates at distance `d`, centred at `c`. -/
def gridCoord (c d : F) (n k : Nat) : F := c + ((k : F) - ((n : F) - 1) / 2) * d

/-- As many coordinates at distance `d` as `d` fits into `len`. -/
def FitsTimes (len d : F) (n : Nat) : Prop := (n : F) * d ≤ len ∧ len < ((n : F) + 1) * d

/-- As few coordinates at distance `d` as are needed to cover `len`. -/
def CoversTimes (len d : F) (n : Nat) : Prop := len ≤ (n : F) * d ∧ ((n : F) - 1) * d < len

/-- Region number `i` is chosen exactly for the drawn values of an interval of
length `s` in [0,1), i.e. with probability `s`. -/
def DrawnWith (choose : F → Int) (i : Nat) (s : F) : Prop :=
  ∃ a b : F, 0 ≤ a ∧ b ≤ 1 ∧ b - a = s ∧ ∀ u, 0 ≤ u → u < 1 → (choose u = (i : Int) ↔ a ≤ u ∧ u < b)

/-- Within half a side of the centre, enlarged by `pad`. -/
def Between (side center pad x : F) : Prop := |x - center| ≤ side / 2 + pad

/-- The box. -/
def Cuboid.Has (r : Cuboid F) (pad : F × F × F) (p : Pt F) : Prop :=
  Between r.side.1 r.center.1 pad.1 p.x ∧ Between r.side.2.1 r.center.2.1 pad.2.1 p.y ∧
    ∃ z, p.z = some z ∧ Between r.side.2.2 r.center.2.2 pad.2.2 z

/-- The rectangle, without regard to its plane. -/
def Rect.Has (r : Rect F) (pad : F × F) (p : Pt F) : Prop :=
  Between r.side.1 r.center.1 pad.1 p.x ∧ Between r.side.2 r.center.2 pad.2 p.y

/-- A point in the plane of a two-dimensional region, or in the plane `z` up to the
tolerance of the comparison. -/
def NearPlane (z : Option F) (p : Pt F) : Prop :=
  ∀ v, z = some v → ∃ a, p.z = some a ∧ |a - v| ≤ 1 / 10 ^ 8 + 1 / 10 ^ 5 * |v|

end

/-- The disc, without regard to its plane. -/
def Disc.Has (r : Disc) (p : Pt ℝ) : Prop :=
  0 ≤ r.radius ∧ (p.x - r.center.1) ^ 2 + (p.y - r.center.2) ^ 2 ≤ r.radius ^ 2

def Ball.Has (r : Ball) (p : Pt ℝ) : Prop :=
  0 ≤ r.radius ∧ ∃ z, p.z = some z ∧
    (p.x - r.center.1) ^ 2 + (p.y - r.center.2.1) ^ 2 + (z - r.center.2.2) ^ 2 ≤ r.radius ^ 2

def Cylinder.Has (r : Cylinder) (p : Pt ℝ) : Prop :=
  0 ≤ r.radius ∧ (p.x - r.center.1) ^ 2 + (p.y - r.center.2.1) ^ 2 ≤ r.radius ^ 2 ∧
    ∃ z, p.z = some z ∧ |z - r.center.2.2| ≤ r.height / 2

end Verif

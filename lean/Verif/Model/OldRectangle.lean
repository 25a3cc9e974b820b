/-
`equidistant_rectangle_old` of `src/aspsim/room/generatepoints.py`.  Elements of an ordered field
instead of floating-point numbers.
-/
import Verif.Model.Points
import Mathlib.Algebra.Order.Floor.Defs
namespace Verif

section
variable {F : Type} [Field F] [LinearOrder F] [FloorRing F]

/-- `int` of a number: towards zero. -/
def intOf (x : F) : Int := if 0 ≤ x then ⌊x⌋ else ⌈x⌉

/-- What the loop over the sides carries: `numCounter`, `startPos` and the rows of `points`
that were written. -/
structure OldRectSt (F : Type) where
  num : Nat
  start : F
  pts : List (F × F)

/-- One side, `generatepoints.py:450-461`, of length `len`, from the corner `corner` in the
direction `fac`.  An empty `axisPoints` has no last entry.  The rows are assigned to
a slice that ends with the array: one value fits every slice, more values must be as
many as the slice has rows. -/
def oldRectSide (n : Nat) (dist len : F) (corner fac : F × F) (s : OldRectSt F) : Except PyErr (OldRectSt F) :=
  let m := (1 + intOf ((len - s.start) / dist)).toNat
  if m = 0 then .error .index
  else if m = 1 ∨ s.num + m ≤ n then
    let axis := (List.range m).map fun (k : Nat) => s.start + (k : F) * dist
    .ok ⟨s.num + m, dist - (len - (s.start + ((m - 1 : Nat) : F) * dist)),
      s.pts ++ (axis.map fun t => (corner.1 + fac.1 * t, corner.2 + fac.2 * t)).take (n - s.num)⟩
  else .error .value

/-- The four sides, `generatepoints.py:441-461`. -/
def oldRectSides (n : Nat) (a b offset : F) : Except PyErr (OldRectSt F) := do
  let dist := 2 * (a + b) / (n : F)
  let s ← oldRectSide n dist a (-a / 2, -b / 2) (1, 0) ⟨0, dist * offset, []⟩
  let s ← oldRectSide n dist b (a / 2, -b / 2) (0, 1) s
  let s ← oldRectSide n dist a (a / 2, b / 2) (-1, 0) s
  oldRectSide n dist b (-a / 2, b / 2) (0, -1) s

/-- `equidistant_rectangle_old`, `generatepoints.py:425-464`.  Rows that were not written stay
zero.  Side lengths with sum zero divide by zero (Python numbers). -/
def rectangleOld (n : Nat) (side : F × F) (offset : F) (z : Option F) : Except PyErr (List (Pt F)) :=
  if n = 0 then .ok []
  else if n < 4 then
    match equidistantRectangle 4 side (0, 0) (1 / 2) none with
    | .error e => .error e
    | .ok l => .ok ((l.take n).map fun p => ⟨p.x, p.y, z⟩)
  else if side.1 + side.2 = 0 then .error .zeroDivision
  else
    match oldRectSides n side.1 side.2 offset with
    | .error e => .error e
    | .ok s => .ok ((s.pts ++ List.replicate (n - s.pts.length) (0, 0)).map fun (p : F × F) => ⟨p.1, p.2, z⟩)

/-- `equidistant_rectangle_for_fewer`, `generatepoints.py:467-507`.  `u` are the draws of
`np.random.rand`, in order, `c` the draw of `np.random.choice([-1, 1])`.  The order of `rand`
and `choice` does not matter, as they are arguments of their own. -/
def rectangleFewer (u : Nat → F) (c : F) (n : Nat) (side : F × F) : Except PyErr (List (F × F)) :=
  let x := fun (i : Nat) => u i * side.1 / 4 - side.1 / 4
  if n = 0 then .error .zeroDivision
  else if n = 1 then .ok [(x 0, c * side.2 / 2)]
  else if n = 2 then .ok [(x 0, side.2 / 2), (x 1, side.2 / 2)]
  else if n = 3 then .ok [(x 0, side.2 / 2), (x 1, side.2 / 2), (c * side.1 / 2, u 2 * side.2 / 4 - side.2 / 4)]
  else if side.1 + side.2 = 0 then .error .zeroDivision
  else
    match oldRectSides n side.1 side.2 (u 0) with
    | .error e => .error e
    | .ok s => .ok (s.pts ++ List.replicate (n - s.pts.length) (0, 0))

end
end Verif

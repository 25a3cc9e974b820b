/-
`four_equidistant_rectangles` of `src/aspsim/room/generatepoints.py`.  Elements of an ordered field
instead of floating-point numbers.
-/
import Verif.Model.Points
import Verif.Model.Session
namespace Verif

section
variable {F : Type} [Field F] [LinearOrder F]

/-- One pass of the loop over the odd indices, `generatepoints.py:385-396`: the point moved outwards. -/
def pushOutwards (side off : F) (p : Pt F) : Except PyErr (Pt F) :=
  if isClose p.x (side / 2) then .ok { p with x := p.x + off }
  else if isClose p.x (-side / 2) then .ok { p with x := p.x - off }
  else if isClose p.y (side / 2) then .ok { p with y := p.y + off }
  else if isClose p.y (-side / 2) then .ok { p with y := p.y - off }
  else .error .value

/-- The heights (`generatepoints.py:376-380`) and the loop (`generatepoints.py:385-396`) for the
points from index `i` on. -/
def fourRectLoop (side off zLow zHigh : F) : Nat → List (Pt F) → Except PyErr (List (Pt F))
  | _, [] => .ok []
  | i, p :: l =>
    let p : Pt F := { p with z := some (if i % 4 = 2 ∨ i % 4 = 3 then zHigh else zLow) }
    match if i % 2 = 1 then pushOutwards side off p else .ok p with
    | .error x => .error x
    | .ok q =>
      match fourRectLoop side off zLow zHigh (i + 1) l with
      | .error x => .error x
      | .ok r => .ok (q :: r)

/-- `four_equidistant_rectangles`, `generatepoints.py:355-397`; `distributed` tells whether `offset` is
the only supported value.  Assigning another number of points than `num_points` raises (line 361). -/
def fourRectangles (n : Nat) (side off zLow zHigh : F) (distributed : Bool) : Except PyErr (List (Pt F)) :=
  if !distributed then .error .notImplemented
  else do
    let l ← equidistantRectangle n (side, side) (0, 0) (1 / 2) none
    if l.length ≠ n then .error .value else fourRectLoop side off zLow zHigh 0 l

end
end Verif

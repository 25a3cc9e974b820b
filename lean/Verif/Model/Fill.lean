/-
Model of the generators of filled shapes in `src/aspsim/room/generatepoints.py`:
rectangle, cuboid, disc, sunflower pattern and cylinder.  Real numbers (or elements
of an ordered field) instead of floating-point numbers.
-/
import Verif.Model.Points
import Mathlib.Data.Nat.Sqrt
namespace Verif

section
variable {F : Type} [Field F]

/-- `np.linspace(a, b, n)`.
(`generatepoints.py:274,306-307,328-332,346-348`, `diagnostics/plot.py:350`.) -/
def linspace (a b : F) (n : Nat) : List F :=
  (List.range n).map fun (i : Nat) => if n = 1 then a else a + (i : F) * ((b - a) / ((n : F) - 1))

/-- `l[1::2]`.
(`generatepoints.py:346-348`.) -/
def everyOther {α : Type} : List α → List α
  | [] => []
  | [_] => []
  | _ :: b :: rest => b :: everyOther rest

variable [LinearOrder F]

/-- `np.isclose(k, n)` for whole numbers, with the default tolerances.
(`generatepoints.py:326,345`.) -/
def natClose (k n : Nat) : Bool :=
  decide (|((k : Int) : Rat) - ((n : Int) : Rat)| ≤ 1 / 10 ^ 8 + 1 / 10 ^ 5 * |((n : Int) : Rat)|)

/-- The argument `lim` of `uniform_filled_rectangle`: with two, with four or with
another number of entries.
(`generatepoints.py:327-332`.) -/
inductive Lim (F : Type)
  | two (lo hi : F)
  | four (x0 y0 x1 y1 : F)
  | other

/-- `uniform_filled_rectangle`, `generatepoints.py:324-341`; `int(np.sqrt(n))` is the
integer square root.  `np.meshgrid` and `flatten` run through the first axis
fastest. -/
def uniformFilledRectangle (n : Nat) (lim : Lim F) (z : Option F) : Except PyErr (List (Pt F)) :=
  let k := Nat.sqrt n
  if natClose (k ^ 2) n = false then .error .assertion
  else
    match lim with
    | .other => .error .unbound
    | .two lo hi =>
      .ok ((linspace lo hi k).flatMap fun y => (linspace lo hi k).map fun x => ⟨x, y, z⟩)
    | .four x0 y0 x1 y1 =>
      .ok ((linspace y0 y1 k).flatMap fun y => (linspace x0 x1 k).map fun x => ⟨x, y, z⟩)

/-- One axis of `uniform_filled_cuboid`, `generatepoints.py:346-348`. -/
def cellCentres (d : F) (k : Nat) : List F := everyOther (linspace (-d / 2) (d / 2) (2 * k + 1))

/-- `uniform_filled_cuboid`, `generatepoints.py:343-352`; `int(np.sqrt(n / m))` is the
integer square root of the quotient.  The order is that of `np.meshgrid`: second, first,
third axis. -/
def uniformFilledCuboid (n : Nat) (dims : F × F × F) (m : Nat) : Except PyErr (List (Pt F)) :=
  if m = 0 then .error .zeroDivision
  else
    let k := Nat.sqrt (n / m)
    if natClose (k ^ 2 * m) n = false then .error .assertion
    else
      .ok ((cellCentres dims.2.1 k).flatMap fun y =>
        (cellCentres dims.1 k).flatMap fun x =>
          (cellCentres dims.2.2 m).map fun z => ⟨x, y, some z⟩)

end

noncomputable section

/-- `uniform_disc`, `generatepoints.py:303-321`; `int` truncates towards zero, and
`np.linspace` rejects negative numbers of points. -/
def uniformDisc (dist radius : ℝ) (z : Option ℝ) : Except PyErr (List (Pt ℝ)) :=
  if dist = 0 then .error .zeroDivision
  else
    let q := 2 * radius / dist
    let num : Int := if 0 ≤ q then ⌊q⌋ else ⌈q⌉
    if num < 0 then .error .value
    else
      let axis := linspace (-radius) radius num.toNat
      let grid := axis.flatMap fun y => axis.map fun x => (x, y)
      .ok ((grid.filter fun p => decide (√(p.1 ^ 2 + p.2 ^ 2) ≤ radius)).map fun p => ⟨p.1, p.2, z⟩)

/-- `sunflower_pattern`, `generatepoints.py:290-300`; the argument `offset_angle` is
not used. -/
def sunflowerPattern (n : Nat) (radius : ℝ) (_offset : ℝ) : List (ℝ × ℝ) :=
  let phisq := ((√5 + 1) / 2) ^ 2
  (List.range n).map fun (i : Nat) =>
    let k : ℝ := (i : ℝ) + 1
    pol2cart (radius * √(k - 1 / 2) / √((n : ℝ) - 1 / 2)) (k * 2 * Real.pi / phisq)

/-- `uniform_cylinder`, `generatepoints.py:272-287`; `v` are the draws of
`np.random.rand`. -/
def uniformCylinder (n : Nat) (radius height : ℝ) (v : Nat → ℝ) : List (Pt ℝ) :=
  let zs := ((linspace (-height / 2) (height / 2) 6).drop 1).dropLast
  (List.range 4).flatMap fun j =>
    (sunflowerPattern (n / 4) radius (v j * 2 * Real.pi)).map fun q => ⟨q.1, q.2, some (zs.getD j 0)⟩

end
end Verif

/-
Model of `src/aspsim/room/generatepoints.py`: coordinate conversions, circles and
rectangles of points.  Real numbers (or elements of an ordered field) instead of
floating-point numbers; random generators as sequences of draws from [0,1).
-/
import Verif.Model.Region
import Mathlib.Analysis.SpecialFunctions.Complex.Arg
namespace Verif

noncomputable section

/-- `np.arctan2(y, x)`, the angle of `x + iy` in (-π, π], 0 at the origin.
(`generatepoints.py:22-23,69`.) -/
def arctan2 (y x : ℝ) : ℝ := Complex.arg ⟨x, y⟩

/-- One row of `cart2spherical`, `generatepoints.py:4-25`: radius, theta, phi. -/
def cart2sphericalRow (p : ℝ × ℝ × ℝ) : ℝ × ℝ × ℝ :=
  let r := √(p.1 ^ 2 + p.2.1 ^ 2 + p.2.2 ^ 2)
  let rxy := √(p.1 ^ 2 + p.2.1 ^ 2)
  (r, arctan2 p.2.1 p.1, arctan2 rxy p.2.2)

/-- `cart2spherical`, `generatepoints.py:4-25`. -/
def cart2spherical (pts : List (ℝ × ℝ × ℝ)) : List (ℝ × ℝ × ℝ) := pts.map cart2sphericalRow

/-- One row of `spherical2cart`, `generatepoints.py:27-49`. -/
def spherical2cartRow (q : ℝ × ℝ × ℝ) : ℝ × ℝ × ℝ :=
  (q.1 * Real.cos q.2.1 * Real.sin q.2.2, q.1 * Real.sin q.2.1 * Real.sin q.2.2, q.1 * Real.cos q.2.2)

/-- `spherical2cart`, `generatepoints.py:27-49`. -/
def spherical2cart (l : List (ℝ × ℝ × ℝ)) : List (ℝ × ℝ × ℝ) := l.map spherical2cartRow

/-- `cart2pol`, `generatepoints.py:51-70`, for one point. -/
def cart2pol (x y : ℝ) : ℝ × ℝ := (√(x ^ 2 + y ^ 2), arctan2 y x)

/-- `pol2cart`, `generatepoints.py:72-91`, for one point. -/
def pol2cart (r angle : ℝ) : ℝ × ℝ := (r * Real.cos angle, r * Real.sin angle)

/-- `np.mod(a, b)` for `b > 0`.
(`generatepoints.py:130`.) -/
def fmod (a b : ℝ) : ℝ := a - b * ⌊a / b⌋

/-- The argument `radius` of `equiangular_circle`.
(`generatepoints.py:94-142`.) -/
inductive Radius
  | one (r : ℝ)
  | range (inner outer : ℝ)

/-- `generatepoints.py:124-125`. -/
def Radius.pair : Radius → ℝ × ℝ
  | .one r => (r, r)
  | .range a b => (a, b)

/-- `equiangular_circle`, `generatepoints.py:94-140`; `2 * np.pi / 0` raises. -/
def equiangularCircle (n : Nat) (radius : Radius) (start : ℝ) (z : Option ℝ) (u : Nat → ℝ) :
    Except PyErr (List (Pt ℝ)) :=
  if n = 0 then .error .zeroDivision
  else
    let step := 2 * Real.pi / (n : ℝ)
    .ok ((List.range n).map fun (i : Nat) =>
      let angle := fmod (start + (i : ℝ) * step) (2 * Real.pi)
      let q := pol2cart (uniform radius.pair.1 radius.pair.2 (u i)) angle
      ⟨q.1, q.2, z⟩)

end

section
variable {F : Type} [Field F]

/-- `zValues`, `generatepoints.py:235-239,403-406`: multiples `-a, ..., -a + n - 1` of
the distance with `a = n // 2`, shifted by half a distance for even `n`. -/
def layerHeights (n : Nat) (dist : F) : List F :=
  (List.range n).map fun (i : Nat) =>
    let v := ((i : F) - ((n / 2 : Nat) : F)) * dist
    if n % 2 = 0 then v + dist / 2 else v

/-- `pointsPerCircle`, `generatepoints.py:243-245,408-410`; the caller has excluded
`k = 0`. -/
def layerSizes (n k : Nat) : List Nat :=
  (List.range k).map fun i => if i < n - k * (n / k) then n / k + 1 else n / k

end

noncomputable section

/-- The argument `angle_offset` of `concentrical_circles`, with the draws of
`np.random.rand` for the random variants.
(`generatepoints.py:232-270`.) -/
inductive AngleOffset
  | random (v : Nat → ℝ)
  | same
  | almostSame (v : Nat → ℝ)
  | distribute
  | other

/-- `startAngles`, `generatepoints.py:247-256`; `2 * np.pi / 0` raises, and so does
the use of the unassigned variable for other values. -/
def startAngles (k first : Nat) : AngleOffset → Except PyErr (List ℝ)
  | .random v => .ok ((List.range k).map fun i => v i * Real.pi * 2)
  | .same => .ok ((List.range k).map fun _ => 0)
  | .almostSame v =>
    if first = 0 then .error .zeroDivision
    else .ok ((List.range k).map fun i => v i * (2 * Real.pi / (first : ℝ) / 10))
  | .distribute =>
    if first = 0 then .error .zeroDivision
    else .ok ((List.range k).map fun (i : Nat) => (i : ℝ) * (2 * Real.pi / (first : ℝ)) / (k : ℝ))
  | .other => .error .unbound

/-- The loop over the circles, `generatepoints.py:258-263`; every circle has its own
random generator. -/
def circleLayers (radius : Radius) (u : Nat → Nat → ℝ) :
    Nat → List (Nat × ℝ × Option ℝ) → Except PyErr (List (List (Pt ℝ)))
  | _, [] => .ok []
  | i, (n, angle, z) :: rest =>
    match equiangularCircle n radius angle z (u i) with
    | .error x => .error x
    | .ok c =>
      match circleLayers radius u (i + 1) rest with
      | .error x => .error x
      | .ok l => .ok (c :: l)

/-- `zValues` of `concentrical_circles`, `generatepoints.py:236-241`. -/
def circleHeights (k : Nat) : Option ℝ → List (Option ℝ)
  | some d => (layerHeights k d).map some
  | none => List.replicate k none

/-- `concentrical_circles`, `generatepoints.py:232-266`. -/
def concentricalCircles (n k : Nat) (radius : Radius) (dist : Option ℝ) (off : AngleOffset) (u : Nat → Nat → ℝ) :
    Except PyErr (List (Pt ℝ)) :=
  if k = 0 then .error .zeroDivision
  else
    let zs := circleHeights k dist
    let sizes := layerSizes n k
    match startAngles k (sizes.headD 0) off with
    | .error x => .error x
    | .ok angles =>
      match circleLayers radius u 0 (sizes.zip (angles.zip zs)) with
      | .error x => .error x
      | .ok l => .ok l.flatten

end

section
variable {F : Type} [Field F] [LinearOrder F]

/-- `pos_on_circumference`, `generatepoints.py:181-184`. -/
def circPositions (n : Nat) (a b offset : F) : List F :=
  (List.range n).map fun (i : Nat) => (i : F) * (2 * (a + b) / (n : F)) + offset * (2 * (a + b) / (n : F))

/-- Positions (with their index) of one side, `idxs[i]`, `generatepoints.py:191-192`. -/
def onSide (n : Nat) (a b offset lo hi : F) : List (Nat × F) :=
  ((List.range n).zip (circPositions n a b offset)).filter fun p => decide (lo ≤ p.2) && decide (p.2 < hi)

/-- `equidistant_rectangle`, `generatepoints.py:144-224`: the four sides in turn.  The
positions on the third side are reversed (`np.flip`), the offsets of every other
point are not. -/
def equidistantRectangle (n : Nat) (side extra : F × F) (offset : F) (z : Option F) :
    Except PyErr (List (Pt F)) :=
  let a := side.1
  let b := side.2
  if ¬ (0 < a ∧ 0 < b) then .error .assertion
  else if ¬ (0 ≤ offset ∧ offset ≤ 1) then .error .assertion
  else
    let far := fun (e : F) (i : Nat) => if i % 2 = 1 then e / 2 else 0
    let s0 := onSide n a b offset 0 a
    let s1 := onSide n a b offset a (a + b)
    let s2 := onSide n a b offset (a + b) (a + b + a)
    let s3 := onSide n a b offset (a + b + a) (a + b + a + b)
    .ok ((s0.map fun p => ⟨p.2 - 0 - a / 2, b / 2 + far extra.2 p.1, z⟩) ++
      (s1.map fun p => ⟨a / 2 + far extra.1 p.1, -(p.2 - a - b / 2), z⟩) ++
      ((s2.zip s2.reverse).map fun p => ⟨-(p.2.2 - (a + b) - a / 2), -b / 2 - far extra.2 p.1.1, z⟩) ++
      (s3.map fun p => ⟨-a / 2 - far extra.1 p.1, p.2 - (a + b + a) - b / 2, z⟩))

/-- The loop of `stacked_equidistant_rectangles`, `generatepoints.py:416-421`. -/
def stackedLayers (side : F × F) (k : Nat) : List (Nat × Nat × F) → Except PyErr (List (Pt F))
  | [] => .ok []
  | (i, n, z) :: rest =>
    match equidistantRectangle n side (0, 0) ((2 * (i : F) + 1) / (2 * (k : F))) none with
    | .error x => .error x
    | .ok l =>
      if l.length ≠ n then .error .value
      else
        match stackedLayers side k rest with
        | .error x => .error x
        | .ok l' => .ok (l.map (fun p => { p with z := some z }) ++ l')

/-- `stacked_equidistant_rectangles`, `generatepoints.py:400-422`; the offsets are
`np.linspace(0, 1, 2 k + 1)[1::2]`.  Assigning another number of rows than the slice
has raises (the broadcast of a single row is left out: `C67_stacked` shows that the
numbers agree). -/
def stackedRectangles (n k : Nat) (side : F × F) (dist : F) : Except PyErr (List (Pt F)) :=
  if k = 0 then .error .zeroDivision
  else stackedLayers side k ((List.range k).zip ((layerSizes n k).zip (layerHeights k dist)))

end
end Verif

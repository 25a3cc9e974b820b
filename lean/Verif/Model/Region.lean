/-
Model of `src/aspsim/room/region.py` (without plotting).

Numbers are elements of an ordered field with floor (the box-shaped regions) or
real numbers (the round ones): no rounding, no `nan`.  A random generator is the
sequence of its draws from [0,1), and `rng.uniform(a, b)` is `a + (b - a) * u`.
Array arguments have the documented number of entries.
-/
import Verif.Model.PyErr
import Mathlib.Algebra.Order.Floor.Ring
import Mathlib.Data.Real.Basic
import Mathlib.Data.Real.Sqrt
import Mathlib.Data.Real.Archimedean
import Mathlib.Analysis.SpecialFunctions.Trigonometric.Basic
namespace Verif

/-- One row of a coordinate array of shape `(N, 2)` or `(N, 3)`.
(`region.py:73-500`.) -/
structure Pt (F : Type) where
  x : F
  y : F
  z : Option F
deriving DecidableEq

/-- Result of `is_in_region`: one answer for each coordinate, or the plain
`False`.
(`region.py:185-210,272-280`.) -/
inductive InReg
  | scalar (b : Bool)
  | each (l : List Bool)
deriving DecidableEq

section
variable {F : Type} [Field F] [LinearOrder F]

/-- `np.allclose(col, v)` with the default tolerances for a column and a number.
(`region.py:204,274`.) -/
def allCloseTo (col : List F) (v : F) : Bool :=
  col.all fun a => decide (|a - v| ≤ 1 / 10 ^ 8 + 1 / 10 ^ 5 * |v|)

/-- `Cuboid.__init__`, `region.py:73-81`. -/
structure Cuboid (F : Type) where
  side : F × F × F
  center : F × F × F
  spacing : F × F × F

/-- `low_lim`, `region.py:78`, of one axis. -/
def lowLim (side center : F) : F := center - side / 2

/-- `high_lim`, `region.py:79`, of one axis. -/
def highLim (side center : F) : F := center + side / 2

omit [LinearOrder F] in
/-- `volume` of a cuboid, `region.py:80`. -/
def Cuboid.volume (r : Cuboid F) : F := r.side.1 * r.side.2.1 * r.side.2.2

/-- `Cuboid.is_in_region`, `region.py:83-89`. -/
def Cuboid.isIn (r : Cuboid F) (rows : List (Pt F)) (pad : F × F × F) : Except PyErr InReg :=
  if rows.any fun p => p.z.isNone then .error .value
  else
    .ok (.each (rows.map fun p =>
      let z := p.z.getD 0
      (decide (lowLim r.side.1 r.center.1 - pad.1 ≤ p.x) && decide (p.x ≤ highLim r.side.1 r.center.1 + pad.1)) &&
      (decide (lowLim r.side.2.1 r.center.2.1 - pad.2.1 ≤ p.y) &&
        decide (p.y ≤ highLim r.side.2.1 r.center.2.1 + pad.2.1)) &&
      (decide (lowLim r.side.2.2 r.center.2.2 - pad.2.2 ≤ z) &&
        decide (z ≤ highLim r.side.2.2 r.center.2.2 + pad.2.2))))

variable [FloorRing F]

/-- One entry of `num_points`, `region.py:99,221`. -/
def numFloor (side dist : F) : Nat := ⌊side / dist⌋.toNat

/-- One entry of `single_axes`, `region.py:102-110,224-226`: `np.arange(n) * dist`
shifted by half of what remains between its last entry and the side length. -/
def singleAxis (side dist : F) : List F :=
  let ax := (List.range (numFloor side dist)).map fun (k : Nat) => (k : F) * dist
  let remainder := side - ax.getLastD 0
  ax.map fun a => a + remainder / 2

/-- The argument `point_dist` of `Cuboid.equally_spaced_points`.
(`region.py:91-116`.) -/
inductive PointDist (F : Type)
  | default
  | number (d : F)
  | triple (d : F × F × F)

omit [Field F] [LinearOrder F] [FloorRing F] in
/-- `region.py:92-97`. -/
def PointDist.get (spacing : F × F × F) : PointDist F → F × F × F
  | .default => spacing
  | .number d => (d, d, d)
  | .triple d => d

/-- `Cuboid.equally_spaced_points`, `region.py:91-116`; `np.meshgrid` runs through
the second axis first.  A spacing of zero (which leads to an infinite or undefined
number of points and raises later) is reported as `ValueError`. -/
def Cuboid.grid (r : Cuboid F) (pd : PointDist F) : Except PyErr (List (Pt F)) :=
  let d := pd.get r.spacing
  if d.1 = 0 ∨ d.2.1 = 0 ∨ d.2.2 = 0 then .error .value
  else if ¬ (1 ≤ ⌊r.side.1 / d.1⌋ ∧ 1 ≤ ⌊r.side.2.1 / d.2.1⌋ ∧ 1 ≤ ⌊r.side.2.2 / d.2.2⌋) then .error .assertion
  else
    .ok ((singleAxis r.side.2.1 d.2.1).flatMap fun y =>
      (singleAxis r.side.1 d.1).flatMap fun x =>
      (singleAxis r.side.2.2 d.2.2).map fun z =>
        ⟨x + lowLim r.side.1 r.center.1, y + lowLim r.side.2.1 r.center.2.1,
          some (z + lowLim r.side.2.2 r.center.2.2)⟩)

omit [FloorRing F] in
/-- `rng.uniform(lo, hi)` from a draw of [0,1).
(`region.py:118-130,234-253`.) -/
def uniform (lo hi u : F) : F := lo + (hi - lo) * u

omit [FloorRing F] in
/-- `Cuboid.sample_points`, `region.py:118-130`. -/
def Cuboid.sample (r : Cuboid F) (n : Nat) (u : Nat → F) : List (Pt F) :=
  (List.range n).map fun i =>
    ⟨uniform (lowLim r.side.1 r.center.1) (highLim r.side.1 r.center.1) (u (3 * i)),
     uniform (lowLim r.side.2.1 r.center.2.1) (highLim r.side.2.1 r.center.2.1) (u (3 * i + 1)),
     some (uniform (lowLim r.side.2.2 r.center.2.2) (highLim r.side.2.2 r.center.2.2) (u (3 * i + 2)))⟩

/-- `Rectangle.__init__`, `region.py:138-181`: `z` is `center[2]` for
`spatial_dim = 3`. -/
structure Rect (F : Type) where
  side : F × F
  center : F × F
  z : Option F
  spacing : F × F

omit [LinearOrder F] [FloorRing F] in
/-- `volume` of a rectangle, `region.py:183`. -/
def Rect.volume (r : Rect F) : F := r.side.1 * r.side.2

omit [FloorRing F] in
/-- The first lines of `Rectangle.is_in_region` and `Disc.is_in_region`,
`region.py:204-206,273-275`: an early result or `none`. -/
def offPlane (z : Option F) (rows : List (Pt F)) : Except PyErr (Option InReg) :=
  match z with
  | none => .ok none
  | some z =>
    if rows.any fun p => p.z.isNone then .error .index
    else if allCloseTo (rows.map fun p => p.z.getD 0) z then .ok none
    else .ok (some (.scalar false))

omit [FloorRing F] in
/-- `Rectangle.is_in_region`, `region.py:185-211`. -/
def Rect.isIn (r : Rect F) (rows : List (Pt F)) (pad : F × F) : Except PyErr InReg :=
  match offPlane r.z rows with
  | .error x => .error x
  | .ok (some a) => .ok a
  | .ok none =>
    .ok (.each (rows.map fun p =>
      (decide (lowLim r.side.1 r.center.1 - pad.1 ≤ p.x) && decide (p.x ≤ highLim r.side.1 r.center.1 + pad.1)) &&
      (decide (lowLim r.side.2 r.center.2 - pad.2 ≤ p.y) && decide (p.y ≤ highLim r.side.2 r.center.2 + pad.2))))

/-- `Rectangle.equally_spaced_points`, `region.py:212-232`. -/
def Rect.grid (r : Rect F) : Except PyErr (List (Pt F)) :=
  if r.spacing.1 = 0 ∨ r.spacing.2 = 0 then .error .value
  else if ¬ (1 ≤ ⌊r.side.1 / r.spacing.1⌋ ∧ 1 ≤ ⌊r.side.2 / r.spacing.2⌋) then .error .assertion
  else
    .ok ((singleAxis r.side.2 r.spacing.2).flatMap fun y =>
      (singleAxis r.side.1 r.spacing.1).map fun x =>
        ⟨x + lowLim r.side.1 r.center.1, y + lowLim r.side.2 r.center.2, r.z⟩)

omit [FloorRing F] in
/-- `Rectangle.sample_points`, `region.py:234-253`. -/
def Rect.sample (r : Rect F) (n : Nat) (u : Nat → F) : List (Pt F) :=
  (List.range n).map fun i =>
    ⟨uniform (lowLim r.side.1 r.center.1) (highLim r.side.1 r.center.1) (u i),
     uniform (lowLim r.side.2 r.center.2) (highLim r.side.2 r.center.2) (u (n + i)),
     r.z.map fun z => z * 1⟩

end

/-! ### round regions -/

/-- `Disc.__init__`, `region.py:262-270`. -/
structure Disc where
  radius : ℝ
  center : ℝ × ℝ
  z : Option ℝ
  spacing : ℝ × ℝ

noncomputable section

/-- `volume` of a disc, `region.py:270`. -/
def Disc.volume (r : Disc) : ℝ := r.radius ^ 2 * Real.pi

open Classical in
/-- `Disc.is_in_region`, `region.py:272-280`. -/
def Disc.isIn (r : Disc) (rows : List (Pt ℝ)) : Except PyErr InReg :=
  match offPlane r.z rows with
  | .error x => .error x
  | .ok (some a) => .ok a
  | .ok none =>
    .ok (.each (rows.map fun p =>
      decide (√((p.x - r.center.1) ^ 2 + (p.y - r.center.2) ^ 2) ≤ r.radius)))

/-- One axis of the grid of `Disc` and `Cylinder`, `region.py:284-286,292-293,
465-467,472-473`: `np.arange(num_points) * dist - (num_points - 1) * dist / 2` for
`num_points = ceil(len / dist)`. -/
def ceilAxis (len dist : ℝ) : List ℝ :=
  (List.range ⌈len / dist⌉.toNat).map fun (k : Nat) => (k : ℝ) * dist - ((⌈len / dist⌉ : ℝ) - 1) * dist / 2

open Classical in
/-- `Disc.equally_spaced_points`, `region.py:282-302`. -/
def Disc.grid (r : Disc) : Except PyErr (List (Pt ℝ)) :=
  if r.spacing.1 = 0 ∨ r.spacing.2 = 0 then .error .value
  else
    .ok ((((ceilAxis (r.radius * 2) r.spacing.2).flatMap fun y =>
        (ceilAxis (r.radius * 2) r.spacing.1).map fun x => (x, y)).filter fun p =>
          decide (√(p.1 ^ 2 + p.2 ^ 2) ≤ r.radius)).map fun p =>
      ⟨p.1 + r.center.1, p.2 + r.center.2, r.z.map fun z => 0 + z⟩)

/-- `Disc.sample_points`, `region.py:304-313`. -/
def Disc.sample (r : Disc) (n : Nat) (u : Nat → ℝ) : List (Pt ℝ) :=
  (List.range n).map fun i =>
    let rad := r.radius * √(u i)
    let angle := 2 * Real.pi * u (n + i)
    ⟨rad * Real.cos angle + r.center.1, rad * Real.sin angle + r.center.2, r.z.map fun z => z * 1⟩

/-- `Ball.__init__`, `region.py:322-350`. -/
structure Ball where
  radius : ℝ
  center : ℝ × ℝ × ℝ
  spacing : ℝ × ℝ × ℝ

/-- `volume` of a ball, `region.py:350`. -/
def Ball.volume (r : Ball) : ℝ := 4 / 3 * r.radius ^ 3 * Real.pi

open Classical in
/-- `Ball.is_in_region`, `region.py:352-356`. -/
def Ball.isIn (r : Ball) (rows : List (Pt ℝ)) : Except PyErr InReg :=
  if rows.any fun p => p.z.isNone then .error .value
  else
    .ok (.each (rows.map fun p =>
      decide (√((p.x - r.center.1) ^ 2 + (p.y - r.center.2.1) ^ 2 + (p.z.getD 0 - r.center.2.2) ^ 2) ≤ r.radius)))

/-- Rows of an array selected by a boolean array, `a[mask,:]`.
(`region.py:295-302,358-366,476-480`.) -/
def pick {α : Type} (l : List α) (mask : List Bool) : List α :=
  ((l.zip mask).filter fun p => p.2).map Prod.fst

/-- `Ball.equally_spaced_points`, `region.py:358-366`. -/
def Ball.grid (r : Ball) : Except PyErr (List (Pt ℝ)) :=
  match (⟨(2 * r.radius, 2 * r.radius, 2 * r.radius), (0, 0, 0), r.spacing⟩ : Cuboid ℝ).grid .default with
  | .error x => .error x
  | .ok pts =>
    let pts := pts.map fun p => (⟨p.x + r.center.1, p.y + r.center.2.1, p.z.map (· + r.center.2.2)⟩ : Pt ℝ)
    match r.isIn pts with
    | .error x => .error x
    | .ok (.scalar b) => .ok (if b then pts else [])
    | .ok (.each m) => .ok (pick pts m)

open Classical in
/-- The loop of `Ball.sample_points`, `region.py:373-384`, with the samples accepted
so far; `fuel` bounds the number of rounds, `none` if it is used up. -/
def Ball.sampleLoop (r : Ball) (n : Nat) (u : Nat → ℝ) : Nat → Nat → List (ℝ × ℝ × ℝ) →
    Option (List (ℝ × ℝ × ℝ))
  | 0, _, _ => none
  | fuel + 1, k, acc =>
    let new := ((List.range n).map fun i =>
      (uniform (-r.radius) r.radius (u (k + 3 * i)), uniform (-r.radius) r.radius (u (k + 3 * i + 1)),
        uniform (-r.radius) r.radius (u (k + 3 * i + 2)))).filter fun p =>
          decide (√(p.1 ^ 2 + p.2.1 ^ 2 + p.2.2 ^ 2) ≤ r.radius)
    let acc := acc ++ new.take (min new.length (n - acc.length))
    if n ≤ acc.length then some acc else Ball.sampleLoop r n u fuel (k + 3 * n) acc

/-- `Ball.sample_points`, `region.py:368-387`. -/
def Ball.sample (r : Ball) (n : Nat) (u : Nat → ℝ) (fuel : Nat) : Option (List (Pt ℝ)) :=
  (r.sampleLoop n u fuel 0 []).map fun l =>
    l.map fun p => ⟨p.1 + r.center.1, p.2.1 + r.center.2.1, some (p.2.2 + r.center.2.2)⟩

/-- `Cylinder.__init__`, `region.py:396-425`. -/
structure Cylinder where
  radius : ℝ
  height : ℝ
  center : ℝ × ℝ × ℝ
  spacing : ℝ × ℝ × ℝ

/-- `volume` of a cylinder, `region.py:425`. -/
def Cylinder.volume (r : Cylinder) : ℝ := r.radius ^ 2 * Real.pi * r.height

open Classical in
/-- `Cylinder.is_in_region`, `region.py:427-454`. -/
def Cylinder.isIn (r : Cylinder) (rows : List (Pt ℝ)) : Except PyErr InReg :=
  if rows.any fun p => p.z.isNone then .error .assertion
  else
    .ok (.each (rows.map fun p =>
      (decide (-r.height / 2 ≤ p.z.getD 0 - r.center.2.2) && decide (p.z.getD 0 - r.center.2.2 ≤ r.height / 2)) &&
      decide (√((p.x - r.center.1) ^ 2 + (p.y - r.center.2.1) ^ 2) ≤ r.radius)))

open Classical in
/-- `Cylinder.equally_spaced_points`, `region.py:456-480`. -/
def Cylinder.grid (r : Cylinder) : Except PyErr (List (Pt ℝ)) :=
  if r.spacing.1 = 0 ∨ r.spacing.2.1 = 0 ∨ r.spacing.2.2 = 0 then .error .value
  else
    .ok ((((ceilAxis (r.radius * 2) r.spacing.1).flatMap fun x =>
        (ceilAxis (r.radius * 2) r.spacing.2.1).flatMap fun y =>
        (ceilAxis r.height r.spacing.2.2).map fun z => (x, y, z)).filter fun p =>
          decide (√(p.1 ^ 2 + p.2.1 ^ 2) ≤ r.radius)).map fun p =>
      ⟨p.1 + r.center.1, p.2.1 + r.center.2.1, some (p.2.2 + r.center.2.2)⟩)

/-- `Cylinder.sample_points`, `region.py:482-500`. -/
def Cylinder.sample (r : Cylinder) (n : Nat) (u : Nat → ℝ) : List (Pt ℝ) :=
  (List.range n).map fun i =>
    let rad := r.radius * √(u i)
    let angle := 2 * Real.pi * u (n + i)
    ⟨rad * Real.cos angle + r.center.1, rad * Real.sin angle + r.center.2.1,
      some (uniform (-r.height / 2) (r.height / 2) (u (2 * n + i)) + r.center.2.2)⟩

end

/-! ### combined regions -/

section
variable {F : Type}

/-- `CombinedRegion.is_in_region`, `region.py:50-51`: the answers of the regions are
computed, but `np.logical_or` of a single argument raises `TypeError`. -/
def combinedIsIn (regs : List (List (Pt F) → Except PyErr InReg)) (rows : List (Pt F)) : Except PyErr InReg :=
  match regs.mapM fun r => r rows with
  | .error x => .error x
  | .ok _ => .error .typeErr

/-- `CombinedRegion.equally_spaced_points`, `region.py:53-54`; `np.concatenate` of an
empty list raises. -/
def combinedGrid (regs : List (Except PyErr (List (Pt F)))) : Except PyErr (List (Pt F)) :=
  match regs.mapM id with
  | .error x => .error x
  | .ok [] => .error .value
  | .ok l => .ok l.flatten

/-- `np.any` of what `is_in_region` returns.
(`region.py:45-46`.) -/
def InReg.any : InReg → Bool
  | .scalar b => b
  | .each l => l.any id

/-- What `CombinedRegion.__init__` uses of a region: which object it is, its grid, the 100
points drawn from it, `is_in_region` and `volume`.
(`region.py:30-48`.) -/
structure RegionView (F : Type) where
  obj : Nat
  grid : Except PyErr (List (Pt F))
  drawn : List (Pt F)
  isIn : List (Pt F) → Except PyErr InReg
  volume : F

/-- The inner loop of `_overlaps`, `region.py:42-47`. -/
def RegionView.hits (r : RegionView F) (fixed : List (Pt F)) : List (RegionView F) → Except PyErr Bool
  | [] => .ok false
  | o :: os =>
    if r.obj = o.obj then r.hits fixed os
    else
      match o.isIn fixed with
      | .error x => .error x
      | .ok a =>
        if a.any then .ok true
        else
          match o.isIn r.drawn with
          | .error x => .error x
          | .ok b => if b.any then .ok true else r.hits fixed os

/-- The outer loop of `_overlaps`, `region.py:39-48`. -/
def overlapLoop (all : List (RegionView F)) : List (RegionView F) → Except PyErr Bool
  | [] => .ok false
  | r :: rs =>
    match r.grid with
    | .error x => .error x
    | .ok fixed =>
      match r.hits fixed all with
      | .error x => .error x
      | .ok true => .ok true
      | .ok false => overlapLoop all rs

variable [Field F] [LinearOrder F]

omit [LinearOrder F] in
/-- `CombinedRegion.__init__`, `region.py:30-36`: the attribute `volume`. -/
def combinedVolume (regs : List (RegionView F)) : Except PyErr F :=
  match overlapLoop regs regs with
  | .error x => .error x
  | .ok true => .error .assertion
  | .ok false => .ok (regs.map fun r => r.volume).sum

/-- `np.cumsum(vol_ratio)`, `region.py:57-58`. -/
def sampleLimits (vols : List F) : List F :=
  (List.range vols.length).map fun k => ((vols.map fun v => v / vols.sum).take (k + 1)).sum

/-- One entry of `reg_idx`, `region.py:60-61`: the number of limits above the drawn
value, minus one. -/
def regIdx (vols : List F) (u : F) : Int :=
  ((sampleLimits vols).filter fun s => decide (u < s)).length - 1

/-- `unique` of `np.unique(reg_idx, return_counts=True)`, `region.py:62`: the indices
that occur, in increasing order. -/
def uniqueIdx (n : Nat) (idxs : List Int) : List Int :=
  ((-1) :: (List.range n).map fun (i : Nat) => (i : Int)).filter fun i => decide (i ∈ idxs)

/-- `CombinedRegion.sample_points`, `region.py:56-66`, for the samplers of the
regions and the values drawn for the choice; the index -1 denotes the last
region, and `np.concatenate` of an empty list raises. -/
def combinedSample (vols : List F) (samplers : List (Nat → List (Pt F))) (us : List F) :
    Except PyErr (List (Pt F)) :=
  let idxs := us.map (regIdx vols)
  match uniqueIdx vols.length idxs with
  | [] => .error .value
  | uniq =>
    let pts := uniq.flatMap fun i =>
      (if i = -1 then samplers.getLastD fun _ => [] else samplers.getD i.toNat fun _ => [])
        (idxs.filter fun j => decide (j = i)).length
    if pts.length ≠ us.length then .error .assertion else .ok pts

end
end Verif

/-
Model of `src/aspsim/room/trajectory.py` (without plotting).  Times and positions
are real numbers; a position is a vector of any dimension.
-/
import Verif.Model.Points
import Mathlib.Algebra.BigOperators.Fin
namespace Verif

noncomputable section
variable {d : Nat}

/-- A position.
(`trajectory.py:18-30`.) -/
abbrev Vec (d : Nat) := Fin d → ℝ

/-- Euclidean distance, `np.sqrt(np.sum((p - q)**2))`.
(`trajectory.py:95,119`.) -/
def vdist (p q : Vec d) : ℝ := √(∑ i, (p i - q i) ^ 2)

/-- `np.allclose(p, q)` with the default tolerances.
(`trajectory.py:79`.) -/
def vclose (p q : Vec d) : Prop := ∀ i, |p i - q i| ≤ 1 / 10 ^ 8 + 1 / 10 ^ 5 * |q i|

open Classical in
/-- `anchor_points`, `trajectory.py:79-81`: the first point is appended unless the
last one is close to it. -/
def anchorPoints (pts : List (Vec d)) : Except PyErr (List (Vec d)) :=
  match pts with
  | [] => .error .index
  | p :: rest => if vclose ((p :: rest).getLastD p) p then .ok (p :: rest) else .ok (p :: rest ++ [p])

/-- `segment_distance`, `trajectory.py:95`. -/
def segLengths (pts : List (Vec d)) : List ℝ := pts.zipWith vdist pts.tail

/-- `cumulative_samples` from the samples per segment, `trajectory.py:103`. -/
def cumul (l : List ℝ) : List ℝ := (List.range (l.length + 1)).map fun (k : Nat) => (l.take k).sum

open Classical in
/-- `np.argmax(t < cum)`: the first index, 0 if there is none.
(`trajectory.py:108,129`.) -/
def firstAbove (cum : List ℝ) (t : ℝ) : Nat :=
  let i := cum.findIdx fun c => decide (t < c)
  if i < cum.length then i else 0

/-- Indexing with the index reduced by one, `l[i-1]`: the last element for `i = 0`.
(`trajectory.py:109-112,130-133`.) -/
def prevIdx {α : Type} (l : List α) (i : Nat) : Option α := if i = 0 then l.getLast? else l[i - 1]?

/-- `points[i-1,:]*(1-f) + points[i,:]*f`.
(`trajectory.py:109-113,130-134`.) -/
def blend (p q : Vec d) (f : ℝ) : Vec d := fun i => p i * (1 - f) + q i * f

open Classical in
/-- `LinearTrajectory._constant_speed_pos_func`, `trajectory.py:94-113`, for closed
`points`: the position function. -/
def constantSpeed (pts : List (Vec d)) (period samplerate : ℝ) : Except PyErr (ℝ → Except PyErr (Vec d)) :=
  let seg := segLengths pts
  if ¬ ∀ s ∈ seg, 0 < s then .error .assertion
  else
    let perSample := seg.sum / (samplerate * period)
    let samples := seg.map fun s => s / perSample
    let cum := cumul samples
    .ok fun n =>
      let t := fmod n (period * samplerate)
      let i := firstAbove cum t
      match prevIdx cum i, prevIdx samples i, prevIdx pts i, pts[i]? with
      | some c, some s, some p, some q => .ok (blend p q ((t - c) / s))
      | _, _, _, _ => .error .index

/-- `LinearTrajectory._constant_time_pos_func`, `trajectory.py:115-134`. -/
def constantTime (pts : List (Vec d)) (period samplerate : ℝ) : ℝ → Except PyErr (Vec d) :=
  let samples := period / (pts.length : ℝ) * samplerate
  let cum := (List.range pts.length).map fun (k : Nat) => (k : ℝ) * samples
  fun n =>
    let t := fmod n (period * samplerate)
    let i := firstAbove cum t
    match prevIdx cum i, prevIdx pts i, pts[i]? with
    | some c, some p, some q => .ok (blend p q ((t - c) / samples))
    | _, _, _ => .error .index

/-- `LinearTrajectory.__init__`, `trajectory.py:56-92`; `speed` tells whether the mode
is "constant_speed" or "constant_time", `none` is any other mode. -/
def linearTrajectory (pts : List (Vec d)) (period samplerate : ℝ) (speed : Option Bool) :
    Except PyErr (ℝ → Except PyErr (Vec d)) :=
  match anchorPoints pts with
  | .error x => .error x
  | .ok pts =>
    match speed with
    | some true => constantSpeed pts period samplerate
    | some false => .ok (constantTime pts period samplerate)
    | none => .error .value

/-- `CircularTrajectory.__init__`, `trajectory.py:186-246`. -/
structure Circular where
  radius : ℝ × ℝ
  center : ℝ × ℝ × ℝ
  radialPeriod : ℝ
  anglePeriod : ℝ
  samplerate : ℝ
  startAngle : ℝ

open Classical in
/-- The radius at a time, `trajectory.py:230-241`. -/
def Circular.rad (c : Circular) (t : ℝ) : ℝ :=
  let portion := fmod t (c.radialPeriod * c.samplerate) / (c.radialPeriod * c.samplerate)
  let diff := c.radius.2 - c.radius.1
  if portion < 1 / 2 then c.radius.1 + diff * (1 - 2 * portion) else c.radius.1 + diff * (portion - 1 / 2) * 2

/-- The angle at a time, `trajectory.py:229,232,235`. -/
def Circular.angle (c : Circular) (t : ℝ) : ℝ :=
  c.startAngle + 2 * Real.pi * (fmod t (c.anglePeriod * c.samplerate) / (c.anglePeriod * c.samplerate))

open Classical in
/-- `CircularTrajectory`, `trajectory.py:186-246`: the position function. -/
def Circular.pos (c : Circular) : Except PyErr (ℝ → ℝ × ℝ × ℝ) :=
  if ¬ 0 ≤ c.radius.2 - c.radius.1 then .error .assertion
  else .ok fun t =>
    let q := pol2cart (c.rad t) (c.angle t)
    (q.1 + c.center.1, q.2 + c.center.2.1, 0 + c.center.2.2)

/-- `TrajectoryCollection.current_pos`, `trajectory.py:48-49`; `np.concatenate` of an
empty list raises. -/
def collectionPos (trajs : List (ℝ → Except PyErr (List (Vec d)))) (t : ℝ) : Except PyErr (List (Vec d)) :=
  match trajs.mapM fun f => f t with
  | .error x => .error x
  | .ok [] => .error .value
  | .ok l => .ok l.flatten

end
end Verif

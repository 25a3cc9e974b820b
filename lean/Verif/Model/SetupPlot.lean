/-
The figure of the arrays that `create_simulator` draws: `ArrayCollection.plot`, `Array.plot`
(`src/aspsim/array.py`) and the methods `plot` of the trajectories
(`src/aspsim/room/trajectory.py`).  Exact real arithmetic.
-/
import Verif.Model.Trajectory
import Mathlib.Algebra.Order.Floor.Ring
namespace Verif

noncomputable section

/-- `cumulative_samples` of a `LinearTrajectory` with the corners `poly`, in the modes
"constant_speed" and "constant_time".
(`trajectory.py:94-103,115-124`.) -/
def linearCum {d : Nat} (poly : List (Vec d)) (period samplerate : ℝ) (speed : Bool) : List ℝ :=
  if speed then cumul ((segLengths poly).map fun s => s / ((segLengths poly).sum / (samplerate * period)))
  else (List.range poly.length).map fun (k : Nat) => (k : ℝ) * (period / (poly.length : ℝ) * samplerate)

open Classical in
/-- The points joined by `LinearTrajectory.plot`, `trajectory.py:136-145`, called with the number of
samples of the simulation. -/
def linearDrawn {d : Nat} (poly : List (Vec d)) (cum : List ℝ) (period samplerate : ℝ) (tot : Nat) : List (Vec d) :=
  if period * samplerate ≤ tot then poly else poly.take (firstAbove cum tot)

/-- `samples_per_point` of `CircularTrajectory.plot`, `trajectory.py:253-255`. -/
def Circular.plotStep (c : Circular) : Int := ⌊c.samplerate * max c.radialPeriod c.anglePeriod / 1000⌋

/-- The points joined by `CircularTrajectory.plot`, `trajectory.py:248-262`: `np.arange` with step 0
raises (all arguments are Python numbers).  The number of samples of the simulation is not used. -/
def Circular.drawn (c : Circular) (pos : ℝ → ℝ × ℝ × ℝ) (_tot : Nat) : Except PyErr (List (ℝ × ℝ)) :=
  if c.plotStep = 0 then .error .zeroDivision
  else
    .ok ((List.range ⌈c.samplerate * max c.radialPeriod c.anglePeriod / c.plotStep⌉.toNat).map fun (k : Nat) =>
      ((pos (k * c.plotStep)).1, (pos (k * c.plotStep)).2.1))

/-- A trajectory as its method `plot` sees it: given by a function, linear with its corners, or
circular with its position function.
(`trajectory.py:14-15,82-84,210-246`.) -/
inductive Drawable
  | func
  | linear (poly : List (Vec 3)) (period samplerate : ℝ) (speed : Bool)
  | circular (c : Circular) (pos : ℝ → ℝ × ℝ × ℝ)

/-- The lines drawn by the method `plot` of a trajectory; one given by a function draws nothing.
(`trajectory.py:32-33,136-145,248-262`.) -/
def Drawable.draw : Drawable → Nat → Except PyErr (List (List (ℝ × ℝ)))
  | .func, _ => .ok []
  | .linear poly period samplerate speed, tot =>
    .ok [(linearDrawn poly (linearCum poly period samplerate speed) period samplerate tot).map fun p => (p 0, p 1)]
  | .circular c pos, tot =>
    match c.drawn pos tot with
    | .error e => .error e
    | .ok l => .ok [l]

/-- What an array draws: its positions, or its trajectory, or each of those of a
`TrajectoryCollection`.  Regions, which draw a shape, are left out, as are collections of
collections.
(`array.py:553-557`, `trajectory.py:51-53`.) -/
inductive DrawnArray
  | still (pos : List (Vec 3))
  | moving (trajs : List Drawable)

/-- `Array.plot`, `array.py:553-557`. -/
def DrawnArray.draw : DrawnArray → Nat → Except PyErr (List (List (ℝ × ℝ)))
  | .still pos, _ => .ok [pos.map fun p => (p 0, p 1)]
  | .moving trajs, tot =>
    match trajs.mapM fun t => t.draw tot with
    | .error e => .error e
    | .ok ls => .ok ls.flatten

/-- The loop of `ArrayCollection.plot`, `array.py:337-338`.  `create_simulator` calls it for every
setup, also if no figure is saved (`simulator.py:202`). -/
def drawArrays (arrs : List (String × DrawnArray)) (tot : Nat) : Except PyErr (List (String × List (List (ℝ × ℝ)))) :=
  arrs.mapM fun a =>
    match a.2.draw tot with
    | .error e => .error e
    | .ok ls => .ok (a.1, ls)

end
end Verif

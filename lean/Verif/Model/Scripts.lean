/-
Model of the short example scripts: `examples/example_simplest_simulation.py`,
`example_processor.py`, `example_moving_source.py`, `example_debug.py` and
`example_directional_mic.py`, from the arrays to the end of `run_simulation`.
-/
import Verif.Model.Diagnostics
import Verif.Spec.Room
import Verif.Spec.Array
import Mathlib.Algebra.Field.Basic
namespace Verif

section
variable {K R S P V G : Type} [Field K] [LinearOrder K] [Field R] [DecidableEq R]

/-- An array of a script: `add_free_source`, `add_controllable_source` or `add_mics` with a matrix of
positions, `simulator.py:85-125`, `array.py:489-538`; `omni` says that all directivity types are "omni"
(the default). -/
def placedArr (name : String) (kind : ArrKind) (omni : Bool) (pos : List (K × K × K)) : Arr (K × K × K) :=
  ⟨name, some kind, pos.length, pos, none, 1, none, omni, []⟩

/-- The same with a trajectory of a single point (`LinearTrajectory.current_pos` has one row),
`array.py:506-518`. -/
def movingArr (name : String) (kind : ArrKind) (f : Nat → K × K × K) : Arr (K × K × K) :=
  ⟨name, some kind, 1, [f 0], none, 1, some fun n => [f n], true, []⟩

/-- `sim.diag.add_diagnostic(name, dg.RecordSignal(sig, sim.sim_info, ...))` for each pair of names in
turn, `example_simplest_simulation.py:18`, `example_processor.py:25-26`,
`example_moving_source.py:36-37`, `example_debug.py:32`, `example_directional_mic.py:48-50`.  The number of
channels is the default 1 (`diagnostics.py:85`); `ex` is the argument `export_at`. -/
def recordAll (info : DiagInfo) (ex : Option IdxSel) (l : List (String × String)) : Except PyErr (List (Diag (DData R P V))) :=
  l.mapM fun x => mkRecordSignal info x.1 x.2 ex none 1 none

/-- A script from `create_simulator` to the end of `run_simulation`.  `simulate` sets up the impulse
responses once more, with the same result. -/
def runScript (base : SimCfg R (IrMat R) (Fir R) S (G × Coll (K × K × K) (IrMat R)) P (DData R P V) (DOut R V)) (ext : RoomExt K R G)
    (i : RoomInfo K) (g : G) (c : Coll (K × K × K) (IrMat R)) (srcs : String → S) (proc : P) (f0 : Fir R) (info : DiagInfo)
    (ex : Option IdxSel) (l : List (String × String)) :
    Except PyErr (SimSt R (Fir R) S (G × Coll (K × K × K) (IrMat R)) P (DData R P V) (DOut R V)) :=
  match roomSetup ext i g c with
  | .error x => .error x
  | .ok _ =>
    match recordAll info ex l with
    | .error x => .error x
    | .ok ds => simulate base ext i g c srcs proc f0 ds

/-- `example_simplest_simulation.py:13-14`, at any places. -/
def simplestArrays (ps : List (K × K × K)) (p : K × K × K) : List (Arr (K × K × K)) :=
  [placedArr "source" .free true ps, placedArr "mic" .mic true [p]]

/-- `example_processor.py:18-19`, at any places. -/
def playArrays (s p : K × K × K) : List (Arr (K × K × K)) :=
  [placedArr "ls" .ctrl true [s], placedArr "mic" .mic true [p]]

/-- `example_moving_source.py:29-30`, with any trajectory and at any place. -/
def movingArrays (f : Nat → K × K × K) (p : K × K × K) : List (Arr (K × K × K)) :=
  [movingArr "ls" .free f, placedArr "mic" .mic true [p]]

/-- `example_debug.py:21-23`, at any places. -/
def debugArrays (s l p : K × K × K) : List (Arr (K × K × K)) :=
  [placedArr "src" .free true [s], placedArr "loudspeaker" .ctrl true [l], placedArr "mic" .mic true [p]]

/-- `example_debug.py:25-26`. -/
def debugTypes : List (PathOp R) := [.type "loudspeaker" "mic" "none", .type "src" "mic" "direct"]

/-- `example_directional_mic.py:40-42`: sources `ls_0`, `ls_1`, ... and a cardioid microphone, at any places. -/
def directionalArrays (ps : List (K × K × K)) (p : K × K × K) : List (Arr (K × K × K)) :=
  (ps.mapIdx fun n s => placedArr ("ls_" ++ toString n) .free true [s]) ++ [placedArr "mic" .mic false [p]]

end
end Verif

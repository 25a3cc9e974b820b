/-
Model of `examples/example_active_noise_control_real_data.py`: the constructor of
`FastBlockFxLMS` and the course of the script from the arrays to the end of
`run_simulation`.  Reading and resampling the measured responses is left out: they are
arguments.
-/
import Verif.Model.Anc
import Verif.Model.FastBlock
import Verif.Model.Scripts
namespace Verif

section
variable {R Pt : Type}

/-- `FastBlockFxLMS.__init__` with the constructors of its base classes, as far as it concerns
sizes, `anc_processors.py:36-47,74-77,160-184`: the filter is updated after every
`control_filt_len` samples, and the step is normalized over such a block. -/
def fastCreate (arrays : List (Arr Pt)) (bs L : Nat) (mu beta : R) : Except PyErr (FxPar R) :=
  fxCreate arrays bs L L mu beta .block

end

section
variable {F K R S G D O : Type} [Field K] [LinearOrder K] [Field R]

/-- From `create_simulator` to the end of `run_simulation`,
`example_active_noise_control_real_data.py:100-117`: the impulse responses are generated, the
processor is made with the responses from "loudspeaker" to "error", the diagnostics `diags` are
added (they may depend on the arrays), and the simulation is run.  `base` has the arguments
that do not concern arrays and processor. -/
def realSimulate (base : SimCfg R (IrMat R) F S (G × Coll (K × K × K) (IrMat R)) (FastSt R) D O) (ext : RoomExt K R G)
    (i : RoomInfo K) (g : G) (c : Coll (K × K × K) (IrMat R)) (srcs : String → S)
    (bs L : Nat) (mu beta : R) (f0 : F) (diags : Coll (K × K × K) (IrMat R) → Except PyErr (List (Diag D))) :
    Except PyErr (SimSt R F S (G × Coll (K × K × K) (IrMat R)) (FastSt R) D O) :=
  match roomSetup ext i g c with
  | .error x => .error x
  | .ok (par, gc) =>
    match Coll.path gc "loudspeaker" "error" with
    | .error x => .error x
    | .ok sp =>
      match fastCreate gc.2.arrays bs L mu beta with
      | .error x => .error x
      | .ok q =>
        match diags gc.2 with
        | .error x => .error x
        | .ok ds =>
          { base with
            arrays := c.infos, arrUpdate := Coll.update (createPath (i.cfg ext par)), arrPath := Coll.path
            proc := some (fastProc q) }.runWith (fastPrepare q) srcs gc (fastInit q sp) f0 ds

/-- The arrays, `example_active_noise_control_real_data.py:89-93`, at any places. -/
def realArrays (pm pe : List (K × K × K)) (pr : K × K × K) (pl : List (K × K × K)) (pn : K × K × K) : List (Arr (K × K × K)) :=
  [placedArr "error" .mic true pm, placedArr "eval" .mic true pe, placedArr "ref" .mic true [pr],
    placedArr "loudspeaker" .ctrl true pl, placedArr "noise" .free true [pn]]

/-- The measured responses and the path types,
`example_active_noise_control_real_data.py:95-98`. -/
def realOps (hm he : IrMat R) : List (PathOp R) :=
  [.path hm "loudspeaker" "error", .path he "loudspeaker" "eval", .type "loudspeaker" "ref" "none", .type "noise" "ref" "direct"]

end
end Verif

/-
Model of the active noise control example: the constructor of the processor and the
diagnostics in `examples/anc_processors.py`, and the course of
`examples/example_active_noise_control.py`.
-/
import Verif.Model.Adaptive
import Verif.Model.Diagnostics
import Verif.Model.Room
namespace Verif

section
variable {R V Pt : Type}

/-- `arrays[name].num`, `array.py:53-54`, `anc_processors.py:39-41`. -/
def numOfArray (arrays : List (Arr Pt)) (name : String) : Except PyErr Nat :=
  match arrays.find? fun a => a.name == name with
  | none => .error .key
  | some a => .ok a.num

/-- `FxLMS.__init__` with the constructors of its base classes, as far as it concerns sizes,
`anc_processors.py:36-47,74-77,104-113`.  (What `aspcore` does with a filter of length 0 is
left out, as are sizes that are not natural numbers; the type `FxNorm` has the three allowed
values of `normalization`.) -/
def fxCreate (arrays : List (Arr Pt)) (bs ub L : Nat) (mu beta : R) (norm : FxNorm) : Except PyErr (FxPar R) :=
  match numOfArray arrays "ref" with
  | .error x => .error x
  | .ok nr =>
    match numOfArray arrays "error" with
    | .error x => .error x
    | .ok ne =>
      match numOfArray arrays "loudspeaker" with
      | .error x => .error x
      | .ok nl =>
        if bs = 0 then .error .zeroDivision
        else if ub % bs ≠ 0 then .error .assertion
        else if ub < bs then .error .assertion
        else .ok ⟨bs, ub, L, nr, nl, ne, mu, beta, norm⟩

/-- `add_anc_diagnostics(sim)`, `anc_processors.py:15-32`; `get` is the reading of the
secondary paths.  (The preprocessing belongs to the export functions, `Model/Plot.lean`.) -/
def ancDiagnostics {P : Type} (info : DiagInfo) (arrays : List (Arr Pt)) (get : P → Except PyErr V) :
    Except PyErr (List (Diag (DData R P V))) := do
  let d1 ← mkSignalPowerRatio info "noise_reduction" "error" "noise~error" none none none none
  let d2 ← mkSignalPower info "power_ls" "loudspeaker" none none none
  let d3 ← mkSignalPower info "power_error" "error" none none none
  let d4 ← mkSignalPower info "power_primary_noise" "noise~error" none none none
  let d5 ← mkSignalPower info "power_secondary_noise" "loudspeaker~error" none none none
  let d6 ← mkSignalPower info "power_ref" "ref" none none none
  let nl ← numOfArray arrays "loudspeaker"
  let d7 ← mkRecordSignal info "sig_ls" "loudspeaker" none none nl none
  let ne ← numOfArray arrays "error"
  let d8 ← mkRecordSignal info "sig_error" "error" none none ne none
  let nr ← numOfArray arrays "ref"
  let d9 ← mkRecordSignal info "sig_ref" "ref" none none nr none
  let d10 ← mkRecordSignal info "sig_primary_noise" "noise~error" none none ne none
  let d11 ← mkRecordSignal info "sig_secondary_noise" "loudspeaker~error" none none ne none
  let d12 ← mkRecordFilter info "secondary_paths" get none
  let ds := [d1, d2, d3, d4, d5, d6, d7, d8, d9, d10, d11, d12]
  if arrays.any fun a => a.name == "eval" then
    let d13 ← mkSignalPowerRatio info "spatial_noise_reduction" "eval" "noise~eval" none none none none
    .ok (ds ++ [d13])
  else .ok ds

/-- The diagnostics of the example, `example_active_noise_control.py:69-71`. -/
def exampleDiagnostics {P : Type} (info : DiagInfo) (arrays : List (Arr Pt)) (numLs numMics : Nat)
    (get : P → Except PyErr V) : Except PyErr (List (Diag (DData R P V))) := do
  let ds ← ancDiagnostics info arrays get
  let d1 ← mkRecordSignal info "loudspeaker_signal" "loudspeaker" none none numLs none
  let d2 ← mkRecordSignal info "microphone_signal" "error" none none numMics none
  .ok (ds ++ [d1, d2])

end

section
variable {F K R S G D O : Type} [Field K] [LinearOrder K] [Field R]

/-- From `create_simulator` to the end of `run_simulation`,
`example_active_noise_control.py:53-74`: the impulse responses are generated, the processor is
made with the responses from "loudspeaker" to "error", the diagnostics `diags` are added (they
may depend on the arrays), and the simulation is run.  `base` has the arguments that do not
concern arrays and processor. -/
def ancSimulate (base : SimCfg R (IrMat R) F S (G × Coll (K × K × K) (IrMat R)) (FxSt R) D O) (ext : RoomExt K R G)
    (i : RoomInfo K) (g : G) (c : Coll (K × K × K) (IrMat R)) (srcs : String → S)
    (bs ub L : Nat) (mu beta : R) (norm : FxNorm) (f0 : F)
    (diags : Coll (K × K × K) (IrMat R) → Except PyErr (List (Diag D))) :
    Except PyErr (SimSt R F S (G × Coll (K × K × K) (IrMat R)) (FxSt R) D O) :=
  match roomSetup ext i g c with
  | .error x => .error x
  | .ok (par, gc) =>
    match Coll.path gc "loudspeaker" "error" with
    | .error x => .error x
    | .ok sp =>
      match fxCreate gc.2.arrays bs ub L mu beta norm with
      | .error x => .error x
      | .ok q =>
        match diags gc.2 with
        | .error x => .error x
        | .ok ds =>
          { base with
            arrays := c.infos, arrUpdate := Coll.update (createPath (i.cfg ext par)), arrPath := Coll.path
            proc := some (fxProc q) }.runWith fxPrepare srcs gc (fxInit q sp) f0 ds

end
end Verif

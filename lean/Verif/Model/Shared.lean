/-
Model of what several simulators made from one setup share
(`src/aspsim/simulator.py:166-312`, `src/aspsim/room/roomimpulseresponse.py:63-103`).

The arrays of a simulator are a deep copy; its configuration is the same object as that
of the setup (also for the array collection, the signals, the propagator and the logger),
so a change of the setup's configuration is seen by all simulators.  The constants of the
image-source package and the random generators of numpy are global (`G`).

Simplifications: no session folder and no figure folder; after a run that raises only the
exception is kept (the object is not used again), and a creation that raises has no effect
on the global state.
-/
import Verif.Model.Session
import Verif.Model.Sim
namespace Verif

/-- External functions and user code that is the same for all simulators.  `gen made now`
is `create_path` of a path generator that was constructed with the configuration `made`
(which determines the absorption and the reflection order,
`roomimpulseresponse.py:82-88`), called when the configuration is `now`
(`array.py:276`, `roomimpulseresponse.py:104-171`); `init` is the effect of the
constructor on the global state (`roomimpulseresponse.py:77,97`). -/
structure ShareSys (F Fl S P D O G : Type) where
  gen : SimInfo F → SimInfo F → GenFn (List F) (IrMat F) G
  init : SimInfo F → G → G
  srcGet : S → Nat → Except PyErr (S × Mat F)
  filt : FiltOps F (IrMat F) Fl
  filt0 : Fl
  diag : DiagOps F P D O

/-- A `Simulator` object: its own arrays, sound sources, processor and diagnostics; and
what its last run has produced (`simulator.py:220-252`).
`made` is the configuration at its creation. -/
structure SimObj (F S P D O : Type) where
  made : SimInfo F
  coll : Coll (List F) (IrMat F)
  source : String → S
  procObj : Option (Proc F P)
  proc : P
  diags : List (Diag D)
  outcome : Option (Except PyErr (List (Event O)))

/-- The setup (`simulator.py:13-71`), the global state and all simulators created so far. -/
structure World (F S P D O G : Type) where
  info : SimInfo F
  coll : Coll (List F) (IrMat F)
  source : String → S
  g : G
  sims : List (SimObj F S P D O)

/-- What a user can do: assign to fields of the setup's configuration, change the arrays
and sources of the setup, create a simulator (`simulator.py:166-204`), add a processor and
diagnostics to the `j`-th simulator, run it (`simulator.py:284-312`). -/
inductive UserOp (F S P D : Type)
  | setInfo (f : SimInfo F → SimInfo F)
  | setArrays (f : Coll (List F) (IrMat F) → Coll (List F) (IrMat F)) (s : (String → S) → String → S)
  | create (p0 : P)
  | equip (j : Nat) (procObj : Option (Proc F P)) (proc : P) (diags : List (Diag D))
  | run (j : Nat)

section
variable {F Fl S P D O G : Type}

/-- The path generator of a simulator made with the current configuration.
(`roomimpulseresponse.py:40-103`.) -/
def ShareSys.gens (sys : ShareSys F Fl S P D O G) : GenSys F G := ⟨fun i => sys.gen i i, sys.init⟩

/-- The configuration a run of a simulator uses: the current values of the shared
configuration object (`simulator.py:229-232,266-277`). -/
def ShareSys.cfg (sys : ShareSys F Fl S P D O G) (info : SimInfo F) (o : SimObj F S P D O) :
    SimCfg F (IrMat F) Fl S (G × Coll (List F) (IrMat F)) P D O where
  B := info.simBuffer
  C := info.chunk
  tot := info.totSamples
  warm := info.startBefore
  contrib := info.contrib
  plotNone := decide (info.plotOutput = "none")
  arrays := o.coll.infos
  srcGet := sys.srcGet
  filt := sys.filt
  arrUpdate := fun gc n => Coll.update (sys.gen o.made info) gc n
  arrPath := Coll.path
  proc := o.procObj
  diag := sys.diag

variable [Zero F] [Add F]

/-- `run_simulation`, `simulator.py:284-312`, with the current configuration and global
state. -/
def ShareSys.runSim (sys : ShareSys F Fl S P D O G) (info : SimInfo F) (g : G) (o : SimObj F S P D O) :
    Except PyErr (SimSt F Fl S (G × Coll (List F) (IrMat F)) P D O) :=
  (sys.cfg info o).run o.source (g, { o.coll with freq := info.updateFreq }) o.proc sys.filt0 o.diags

/-- One user operation.
(`simulator.py:166-312`.) -/
def ShareSys.exec (sys : ShareSys F Fl S P D O G) (w : World F S P D O G) : UserOp F S P D → World F S P D O G
  | .setInfo f => { w with info := f w.info }
  | .setArrays f s => { w with coll := f w.coll, source := s w.source }
  | .create p0 =>
    if w.coll.arrays.isEmpty then w
    else
      match setupArrays (S := S) sys.gens w.g w.info (w.coll.setDefault w.info.reverb) (fun nm => some (w.source nm)) with
      | .error _ => w
      | .ok (g, b) => { w with g := g, sims := w.sims ++ [⟨w.info, b.coll, w.source, none, p0, [], none⟩] }
  | .equip j procObj proc diags =>
    { w with sims := w.sims.modify j fun o => { o with procObj := procObj, proc := proc, diags := diags } }
  | .run j =>
    match w.sims[j]? with
    | none => w
    | some o =>
      match sys.runSim w.info w.g o with
      | .error x => { w with sims := w.sims.modify j fun o => { o with outcome := some (.error x) } }
      | .ok fin => { w with
          g := fin.eng.arr.1
          sims := w.sims.modify j fun o => { o with
            coll := fin.eng.arr.2, source := fin.eng.srcs, proc := fin.eng.proc, diags := fin.diags
            outcome := some (.ok fin.log) } }

/-- Several user operations.
(`simulator.py:166-312`.) -/
def ShareSys.execs (sys : ShareSys F Fl S P D O G) (w : World F S P D O G) (ops : List (UserOp F S P D)) :
    World F S P D O G := ops.foldl sys.exec w

end
end Verif

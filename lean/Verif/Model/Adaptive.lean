/-
Model of the adaptive noise control processor `FxLMS` in
`examples/anc_processors.py:36-152`, as it runs in a simulation.
-/
import Verif.Model.Fxlms
import Verif.Model.Examples
import Verif.Model.Counter
namespace Verif

/-- The arguments of `FxLMS.__init__` and the sizes of the arrays,
`anc_processors.py:36-41,74-79,104-110`. -/
structure FxPar (R : Type) where
  bs : Nat
  ub : Nat
  L : Nat
  nr : Nat
  nl : Nat
  ne : Nat
  mu : R
  beta : R
  norm : FxNorm

/-- The attributes of the processor that change, `anc_processors.py:46,77,113`. -/
structure FxSt (R : Type) where
  ctrl : Fir R
  sec : Fir R
  cnt : EventSt

section
variable {R : Type} [Field R]

/-- The row of `sig["xf"]` of reference microphone `r`, loudspeaker `l` and error
microphone `m`.  The signal has the shape `(num_ref, num_speaker, num_error)`
(`anc_processors.py:114`); signals of this model have rows. -/
def fxRow (q : FxPar R) (r l m : Nat) : Nat := (r * q.nl + l) * q.ne + m

/-- `create_filter(ir=sec_path_ir, broadcast_dim=num_ref, sum_over_input=False)`,
`anc_processors.py:112-113`, and the transposition of its output in lines 120 and
129: each reference microphone through the path of each loudspeaker to each error
microphone, `block_size` zeros in front.  The package `aspcore` enters through its
contract; here the filter is one that sums over its inputs, with paths from the
other reference microphones that have no taps. -/
def fxSecIr (q : FxPar R) (S : IrMat R) : IrMat R where
  numIn := q.nr
  numOut := q.nr * q.nl * q.ne
  ir := fun s o => if o / (q.nl * q.ne) = s then
    List.replicate q.bs 0 ++ S.ir (o / q.ne % q.nl) (o % q.ne) else []

/-- The processor after `__init__`, `anc_processors.py:36-47,74-79,104-116`: control
filter 0, counter at 0. -/
def fxInit (q : FxPar R) (S : IrMat R) : FxSt R where
  ctrl := ⟨⟨q.nr, q.nl, fun _ _ => List.replicate q.L 0⟩, []⟩
  sec := ⟨fxSecIr q S, []⟩
  cnt := EventSt.init [("update_filter", (q.ub : Int), (q.ub : Int))]

/-- `prepare`, `anc_processors.py:118-122`. -/
def fxPrepare (p : FxSt R) (sig : Sigs R) (idx : Int) : Except PyErr (FxSt R × Sigs R) :=
  match sigGet sig "ref" 0 idx with
  | .error x => .error x
  | .ok v =>
    match p.sec.process v with
    | .error x => .error x
    | .ok (sec, y) =>
      match sigAssign sig "xf" 0 idx y with
      | .error x => .error x
      | .ok sig => .ok ({ p with sec := sec }, sig)

/-- The gradients of all pairs, `anc_processors.py:133-150`. -/
def fxGrads (q : FxPar R) (xf : Nat → Nat → Nat → List R) (err : Nat → List R) (start stop : Nat) :
    Except PyErr (List (List (List R))) :=
  (List.range q.nr).mapM fun r => (List.range q.nl).mapM fun l =>
    fxGrad q.norm q.beta q.nr q.nl q.ne q.L xf err start stop r l

/-- `self.control_filter.ir -= grad * self.mu`, `anc_processors.py:152`. -/
def fxStep (mu : R) (f : Fir R) (g : List (List (List R))) : Fir R :=
  { f with mat := { f.mat with ir := fun r l => fxUpdate mu (f.mat.ir r l) ((g.getD r []).getD l []) } }

/-- `update_filter`, `anc_processors.py:124-152`.  If `idx` is smaller than
`update_block_size`, the loop in line 134 comes to `n = -1`, if nothing raises before
that.  There the slice of `xf` in line 136 ends at 0 and is empty, and adding it to the
gradient in line 142 raises `ValueError`. -/
def fxUpdateFilter (q : FxPar R) (p : FxSt R) (sig : Sigs R) (idx : Int) : Except PyErr (FxSt R × Sigs R) :=
  if idx < q.ub then .error .value else
  match sigGet sig "ref" (idx - q.ub) idx with
  | .error x => .error x
  | .ok v =>
    match p.sec.process v with
    | .error x => .error x
    | .ok (sec, y) =>
      match sigAssign sig "xf" (idx - q.ub) idx y with
      | .error x => .error x
      | .ok sig =>
        match sig "xf", sig "error" with
        | some X, some E =>
          match fxGrads q (fun r l m => X.getD (fxRow q r l m) []) (fun m => E.getD m []) (idx - q.ub).toNat idx.toNat with
          | .error x => .error x
          | .ok g => .ok ({ p with ctrl := fxStep q.mu p.ctrl g, sec := sec }, sig)
        | _, _ => .error .key

/-- `process`, `anc_processors.py:49-55`. -/
def fxProcess (q : FxPar R) (p : FxSt R) (sig : Sigs R) (idx : Int) : Except PyErr (FxSt R × Sigs R) :=
  match ancProcess "ref" "loudspeaker" q.bs p.ctrl sig idx with
  | .error x => .error x
  | .ok (f, sig1) =>
    match (if "update_filter" ∈ p.cnt.event then fxUpdateFilter q { p with ctrl := f } sig1 idx
        else .ok ({ p with ctrl := f }, sig1)) with
    | .error x => .error x
    | .ok (p2, sig2) =>
      match (List.range q.bs).foldlM (fun s _ => EventSt.progress s) p2.cnt with
      | .error x => .error x
      | .ok c => .ok ({ p2 with cnt := c }, sig2)

/-- The processor object, `anc_processors.py:87-152`. -/
def fxProc (q : FxPar R) : Proc R (FxSt R) where
  bs := q.bs
  process := fxProcess q
  extra := [("xf", q.nr * q.nl * q.ne)]

end

/-- `_prepare_simulation` with a processor whose `prepare` does something,
`simulator.py:254-281`. -/
def SimCfg.initWith {R IR F S A P D O : Type} [Zero R] [Add R] (cfg : SimCfg R IR F S A P D O)
    (prep : P → Sigs R → Int → Except PyErr (P × Sigs R)) (srcs : String → S) (arr : A) (proc : P) (f0 : F)
    (diags : List (Diag D)) : Except PyErr (SimSt R F S A P D O) :=
  match cfg.init srcs arr proc f0 diags with
  | .error x => .error x
  | .ok st =>
    match prep st.eng.proc st.eng.sig st.idx with
    | .error x => .error x
    | .ok (p, sig) => .ok { st with eng := { st.eng with proc := p, sig := sig } }

/-- `run_simulation` with such a processor, `simulator.py:284-312`: as `SimCfg.run`. -/
def SimCfg.runWith {R IR F S A P D O : Type} [Zero R] [Add R] (cfg : SimCfg R IR F S A P D O)
    (prep : P → Sigs R → Int → Except PyErr (P × Sigs R)) (srcs : String → S) (arr : A) (proc : P) (f0 : F)
    (diags : List (Diag D)) : Except PyErr (SimSt R F S A P D O) :=
  match cfg.initWith prep srcs arr proc f0 diags with
  | .error x => .error x
  | .ok st =>
    match cfg.steps (cfg.tot + cfg.mbs) st with
    | .error x => .error x
    | .ok st' =>
      match dispatch cfg.diag cfg.plotNone st'.diags st'.log with
      | .error x => .error x
      | .ok (ds, log) => .ok { st' with diags := ds, log := log }

end Verif

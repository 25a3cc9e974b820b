/-
Model of `src/aspsim/simulator.py`: `Signals`, `Propagator`, `Simulator`.

Parameters (external or user code): the path filters of `aspcore.filter`
(`FiltOps`), the sources (`srcGet`), the array collection with its moving
arrays (`arrUpdate`, `arrPath`), the processor and the diagnostic classes.
Signals are two-dimensional.  Printing, metadata files and random generators
are not modelled.
-/
import Mathlib.Algebra.Ring.Defs
import Verif.Model.Logger
namespace Verif

/-! ### `Signals`, `simulator.py:347-405` -/

section
variable {R : Type}

/-- `self.signals[name] = m`, `simulator.py:394,398`. -/
def Sigs.set (S : Sigs R) (name : String) (m : Mat R) : Sigs R :=
  fun k => if k = name then some m else S k

/-- `sig[name][..., i:j]` (`simulator.py:363-364,439,473`). -/
def sigGet (S : Sigs R) (name : String) (i j : Int) : Except PyErr (Mat R) :=
  match S name with
  | none => .error .key
  | some m => .ok (pySlice2 m i j)

/-- `sig[name][..., i:j] = v` (`simulator.py:435,442,465,476`). -/
def sigAssign (S : Sigs R) (name : String) (i j : Int) (v : Mat R) : Except PyErr (Sigs R) :=
  match S name with
  | none => .error .key
  | some m =>
    match pyAssign2 m i j v with
    | none => .error .value
    | some m' => .ok (S.set name m')

/-- `sig[name][..., i:j] += v` (`simulator.py:440,474`). -/
def sigAdd [Add R] (S : Sigs R) (name : String) (i j : Int) (v : Mat R) :
    Except PyErr (Sigs R) :=
  match S name with
  | none => .error .key
  | some m =>
    match pyAddAssign2 m i j v with
    | none => .error .value
    | some m' => .ok (S.set name m')

/-- `create_signal`, `simulator.py:378-394`: `np.zeros((num, len))`. -/
def createSignal [Zero R] (len : Nat) (S : Sigs R) (p : String × Nat) : Except PyErr (Sigs R) :=
  match S p.1 with
  | some _ => .error .assertion
  | none => .ok (S.set p.1 (List.replicate p.2 (List.replicate len 0)))

/-- `_reset_signals`, `simulator.py:396-405`: for every signal
`concatenate((sig[..., -B:], zeros(C)))`. -/
def resetSigs [Zero R] (B C : Nat) (S : Sigs R) : Sigs R :=
  fun k => (S k).map fun m => m.map fun r => pySliceFrom r (-(B : Int)) ++ List.replicate C 0
end

/-! ### Arrays as seen by the simulator -/

/-- Microphone array, free source array, controllable source array
(`array.py:566-673`). -/
inductive ArrKind | mic | free | ctrl
  deriving DecidableEq, Repr

/-- What the simulator uses of an `Array` object (`array.py:461-538`). -/
structure ArrInfo where
  name : String
  num : Nat
  kind : ArrKind
  dynamic : Bool
  deriving DecidableEq, Repr

/-- `arrays.mics()`, `array.py:121-124` (in order of registration). -/
def micsOf (as : List ArrInfo) : List ArrInfo := as.filter fun a => a.kind == .mic

/-- `arrays.sources()`, `array.py:116-119`. -/
def sourcesOf (as : List ArrInfo) : List ArrInfo := as.filter fun a => a.kind != .mic

/-- `arrays.free_sources()`, `array.py:126-129`. -/
def freeOf (as : List ArrInfo) : List ArrInfo := as.filter fun a => a.kind == .free

/-- `arrays.mic_src_combos()`, `array.py:131-135`: pairs (source, microphone). -/
def combosOf (as : List ArrInfo) : List (ArrInfo × ArrInfo) :=
  (sourcesOf as).flatMap fun s => (micsOf as).map fun m => (s, m)

/-- Name of a contribution signal, `simulator.py:361,442,476`. -/
def contribName (s m : ArrInfo) : String := s.name ++ "~" ++ m.name

/-! ### Configuration of a simulation -/

/-- A filter object of `aspcore.filter` as used by the propagator:
`create_filter(ir, sum_over_input=True, dynamic)`, `process(signal)` and
`update_ir(ir)` (`simulator.py:418,438,469,472`). -/
structure FiltOps (R IR F : Type) where
  create : IR → Bool → F
  process : F → Mat R → Except PyErr (F × Mat R)
  updateIr : F → IR → Except PyErr F

/-- A processor object: block size, `process(block_size)` acting on its own
state and on the signals at the current index, and the additional 2-D signals
it created in its constructor (`simulator.py:268-272`; only their shapes are
copied).  `prepare` is `pass` (`processor.py:25-26`). -/
structure Proc (R P : Type) where
  bs : Nat
  process : P → Sigs R → Int → Except PyErr (P × Sigs R)
  extra : List (String × Nat)

/-- Everything that does not change during a run (`simulator.py:220-239,254-281`). -/
structure SimCfg (R IR F S A P D O : Type) where
  B : Nat
  C : Nat
  tot : Nat
  warm : Bool
  contrib : Bool
  plotNone : Bool
  arrays : List ArrInfo
  srcGet : S → Nat → Except PyErr (S × Mat R)
  filt : FiltOps R IR F
  arrUpdate : A → Nat → Except PyErr A
  arrPath : A → String → String → Except PyErr IR
  proc : Option (Proc R P)
  diag : DiagOps R P D O

/-- Signals together with everything that produces them; `Sg` is the type of
the signal store.
(`simulator.py:254-281`.) -/
structure Eng (Sg F S A P : Type) where
  sig : Sg
  srcs : String → S
  filts : String → String → F
  arr : A
  proc : P

/-- State of a running simulation.
(`simulator.py:284-312`.) -/
structure SimSt (R F S A P D O : Type) where
  eng : Eng (Sigs R) F S A P
  idx : Int
  n : Nat
  diags : List (Diag D)
  log : List (Event O)

section
variable {R IR F S A P D O : Type}

/-- All signals created by `Signals.__init__` (`simulator.py:351-361`) and for
the processor (`simulator.py:268-272`; names already present are skipped). -/
def SimCfg.signalList (cfg : SimCfg R IR F S A P D O) : List (String × Nat) :=
  let base := cfg.arrays.map (fun a => (a.name, a.num)) ++
    (if cfg.contrib then (combosOf cfg.arrays).map fun p => (contribName p.1 p.2, p.2.num) else [])
  match cfg.proc with
  | none => base
  | some p => base ++ p.extra.filter fun q => !(base.any fun b => b.1 == q.1)

/-- `Signals.__init__` and the copied processor signals, `simulator.py:266-272,351-361`. -/
def SimCfg.createSignals [Zero R] (cfg : SimCfg R IR F S A P D O) : Except PyErr (Sigs R) :=
  cfg.signalList.foldlM (createSignal (cfg.B + cfg.C)) (fun _ => none)

/-- `Propagator.__init__`, `simulator.py:409-418`: one filter per pair. -/
def SimCfg.createFilters (cfg : SimCfg R IR F S A P D O) (arr : A) (f0 : String → String → F) :
    Except PyErr (String → String → F) :=
  (combosOf cfg.arrays).foldlM (fun fs p =>
    match cfg.arrPath arr p.1.name p.2.name with
    | .error e => .error e
    | .ok ir => .ok fun s m =>
        if s = p.1.name ∧ m = p.2.name then cfg.filt.create ir (p.1.dynamic || p.2.dynamic)
        else fs s m) f0

/-- One source of the first loop of `Propagator.prepare`, `simulator.py:434-435`. -/
def SimCfg.prepSource (cfg : SimCfg R IR F S A P D O) (num : Nat) (e : Eng (Sigs R) F S A P)
    (a : ArrInfo) : Except PyErr (Eng (Sigs R) F S A P) :=
  match cfg.srcGet (e.srcs a.name) num with
  | .error x => .error x
  | .ok (s', v) =>
    match sigAssign e.sig a.name ((cfg.B : Int) - num) cfg.B v with
    | .error x => .error x
    | .ok sig => .ok { e with sig := sig, srcs := fun k => if k = a.name then s' else e.srcs k }

/-- One pair of the second loop of `Propagator.prepare`, `simulator.py:437-442`.
Line 440 adds to the slice `[:, :B]`. -/
def SimCfg.prepPair [Add R] (cfg : SimCfg R IR F S A P D O) (num : Nat)
    (e : Eng (Sigs R) F S A P) (p : ArrInfo × ArrInfo) : Except PyErr (Eng (Sigs R) F S A P) :=
  match sigGet e.sig p.1.name ((cfg.B : Int) - num) cfg.B with
  | .error x => .error x
  | .ok x =>
    match cfg.filt.process (e.filts p.1.name p.2.name) x with
    | .error x => .error x
    | .ok (f', y) =>
      match sigAdd e.sig p.2.name 0 cfg.B y with
      | .error x => .error x
      | .ok sig =>
        match (if cfg.contrib then
            sigAssign sig (contribName p.1 p.2) ((cfg.B : Int) - num) cfg.B y else .ok sig) with
        | .error x => .error x
        | .ok sig => .ok { e with
            sig := sig
            filts := fun s m => if s = p.1.name ∧ m = p.2.name then f' else e.filts s m }

/-- `num_samples` of `Propagator.prepare`, `simulator.py:431`. -/
def SimCfg.prepNum (cfg : SimCfg R IR F S A P D O) : Nat := if cfg.warm then cfg.B else 1

/-- `Propagator.prepare`, `simulator.py:420-443`. -/
def SimCfg.prepare [Add R] (cfg : SimCfg R IR F S A P D O) (e : Eng (Sigs R) F S A P) :
    Except PyErr (Eng (Sigs R) F S A P) :=
  match (freeOf cfg.arrays).foldlM (cfg.prepSource cfg.prepNum) e with
  | .error x => .error x
  | .ok e' => (combosOf cfg.arrays).foldlM (cfg.prepPair cfg.prepNum) e'

/-- One source of the first loop of `propagate(1)`, `simulator.py:464-465`. -/
def SimCfg.stepSource (cfg : SimCfg R IR F S A P D O) (i : Int) (e : Eng (Sigs R) F S A P)
    (a : ArrInfo) : Except PyErr (Eng (Sigs R) F S A P) :=
  match cfg.srcGet (e.srcs a.name) 1 with
  | .error x => .error x
  | .ok (s', v) =>
    match sigAssign e.sig a.name i (i + 1) v with
    | .error x => .error x
    | .ok sig => .ok { e with sig := sig, srcs := fun k => if k = a.name then s' else e.srcs k }

/-- One pair of the second loop of `propagate(1)`, `simulator.py:467-469`. -/
def SimCfg.stepUpdate {Sg : Type} (cfg : SimCfg R IR F S A P D O) (e : Eng Sg F S A P)
    (p : ArrInfo × ArrInfo) : Except PyErr (Eng Sg F S A P) :=
  if p.1.dynamic || p.2.dynamic then
    match cfg.arrPath e.arr p.1.name p.2.name with
    | .error x => .error x
    | .ok ir =>
      match cfg.filt.updateIr (e.filts p.1.name p.2.name) ir with
      | .error x => .error x
      | .ok f' => .ok { e with
          filts := fun s m => if s = p.1.name ∧ m = p.2.name then f' else e.filts s m }
  else .ok e

/-- One pair of the third loop of `propagate(1)`, `simulator.py:471-476`. -/
def SimCfg.stepPair [Add R] (cfg : SimCfg R IR F S A P D O) (i : Int) (e : Eng (Sigs R) F S A P)
    (p : ArrInfo × ArrInfo) : Except PyErr (Eng (Sigs R) F S A P) :=
  match sigGet e.sig p.1.name i (i + 1) with
  | .error x => .error x
  | .ok x =>
    match cfg.filt.process (e.filts p.1.name p.2.name) x with
    | .error x => .error x
    | .ok (f', y) =>
      match sigAdd e.sig p.2.name i (i + 1) y with
      | .error x => .error x
      | .ok sig =>
        match (if cfg.contrib then
            sigAssign sig (contribName p.1 p.2) i (i + 1) y else .ok sig) with
        | .error x => .error x
        | .ok sig => .ok { e with
            sig := sig
            filts := fun s m => if s = p.1.name ∧ m = p.2.name then f' else e.filts s m }

/-- `Propagator.propagate(1)`, `simulator.py:446-476`. -/
def SimCfg.propagate [Add R] (cfg : SimCfg R IR F S A P D O) (i : Int)
    (e : Eng (Sigs R) F S A P) : Except PyErr (Eng (Sigs R) F S A P) :=
  match (freeOf cfg.arrays).foldlM (cfg.stepSource i) e with
  | .error x => .error x
  | .ok e1 =>
    match (combosOf cfg.arrays).foldlM cfg.stepUpdate e1 with
    | .error x => .error x
    | .ok e2 => (combosOf cfg.arrays).foldlM (cfg.stepPair i) e2

/-- The processor part of an iteration, `simulator.py:296-298`; at most one
processor (`simulator.py:255-256`). -/
def SimCfg.callProc (cfg : SimCfg R IR F S A P D O) (n : Nat) (i : Int)
    (e : Eng (Sigs R) F S A P) : Except PyErr (Eng (Sigs R) F S A P) :=
  match cfg.proc with
  | none => .ok e
  | some p =>
    if p.bs = 0 then .error .zeroDivision
    else if n % p.bs = p.bs - 1 then
      match p.process e.proc e.sig i with
      | .error x => .error x
      | .ok (p', sig) => .ok { e with proc := p', sig := sig }
    else .ok e

/-- The signal-producing part of one loop iteration, `simulator.py:294-299`:
`arrays.update`, processor, `propagate(1)`. -/
def SimCfg.engine [Add R] (cfg : SimCfg R IR F S A P D O) (n : Nat) (i : Int)
    (e : Eng (Sigs R) F S A P) : Except PyErr (Eng (Sigs R) F S A P) :=
  match cfg.arrUpdate e.arr n with
  | .error x => .error x
  | .ok arr =>
    match cfg.callProc n i { e with arr := arr } with
    | .error x => .error x
    | .ok e1 => cfg.propagate i e1

/-- `max_block_size`, `simulator.py:289`. -/
def SimCfg.mbs (cfg : SimCfg R IR F S A P D O) : Nat :=
  match cfg.proc with
  | some p => p.bs
  | none => cfg.B / 4

/-- `last_block_on_buffer`, `simulator.py:329-330`. -/
def SimCfg.lastBlock (cfg : SimCfg R IR F S A P D O) (idx : Int) : Bool :=
  decide (idx + cfg.mbs ≥ cfg.C + cfg.B)

/-- One iteration of the main loop, `simulator.py:294-309`. -/
def SimCfg.step [Zero R] [Add R] (cfg : SimCfg R IR F S A P D O) (st : SimSt R F S A P D O) :
    Except PyErr (SimSt R F S A P D O) :=
  match cfg.engine st.n st.idx st.eng with
  | .error x => .error x
  | .ok e =>
    let last := cfg.lastBlock st.idx
    match saveData cfg.diag (if cfg.proc.isSome then some e.proc else none) e.sig st.idx st.n last
        st.diags with
    | .error x => .error x
    | .ok ds =>
      let e' := if last then { e with sig := resetSigs cfg.B cfg.C e.sig } else e
      let idx' := if last then st.idx - cfg.C else st.idx
      match dispatch cfg.diag cfg.plotNone ds st.log with
      | .error x => .error x
      | .ok (ds', log) => .ok { eng := e', idx := idx' + 1, n := st.n + 1, diags := ds', log := log }

/-- `k` iterations of the main loop, `simulator.py:293-309`. -/
def SimCfg.steps [Zero R] [Add R] (cfg : SimCfg R IR F S A P D O) :
    Nat → SimSt R F S A P D O → Except PyErr (SimSt R F S A P D O)
  | 0, st => .ok st
  | k + 1, st =>
    match cfg.steps k st with
    | .error x => .error x
    | .ok st' => cfg.step st'

/-- `_prepare_simulation`, `simulator.py:254-281` (and `self.n_tot = 0`).  The
arguments are the initial states of sources, array collection, processor and
diagnostics; `f0` is an irrelevant filter for non-existing pairs. -/
def SimCfg.init [Zero R] [Add R] (cfg : SimCfg R IR F S A P D O) (srcs : String → S) (arr : A)
    (proc : P) (f0 : F) (diags : List (Diag D)) : Except PyErr (SimSt R F S A P D O) :=
  match cfg.createSignals with
  | .error x => .error x
  | .ok sig =>
    match cfg.createFilters arr (fun _ _ => f0) with
    | .error x => .error x
    | .ok fs =>
      match cfg.prepare { sig := sig, srcs := srcs, filts := fs, arr := arr, proc := proc } with
      | .error x => .error x
      | .ok e => .ok { eng := e, idx := cfg.B, n := 0, diags := diags, log := [] }

/-- `run_simulation`, `simulator.py:284-312`: `n_tot` grows by one per
iteration, so the `while` loop runs `tot + max_block_size` times. -/
def SimCfg.run [Zero R] [Add R] (cfg : SimCfg R IR F S A P D O) (srcs : String → S) (arr : A)
    (proc : P) (f0 : F) (diags : List (Diag D)) : Except PyErr (SimSt R F S A P D O) :=
  match cfg.init srcs arr proc f0 diags with
  | .error x => .error x
  | .ok st =>
    match cfg.steps (cfg.tot + cfg.mbs) st with
    | .error x => .error x
    | .ok st' =>
      match dispatch cfg.diag cfg.plotNone st'.diags st'.log with
      | .error x => .error x
      | .ok (ds, log) => .ok { st' with diags := ds, log := log }

end
end Verif

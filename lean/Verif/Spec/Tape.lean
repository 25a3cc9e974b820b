/-
Specification of a simulation on unbounded signals ("tapes"): every signal is
a function of the absolute step number, there are no buffers, chunks, resets or
local indices.  The theorems relate the buffered simulator to this one.
-/
import Verif.Model.Sim
namespace Verif

/-- All signals: name, channel, absolute step. -/
abbrev Tape (R : Type) := String → Nat → Int → R

/-- The `(ch, n)` array with entries `f c k`. -/
def matOf {R : Type} (ch n : Nat) (f : Nat → Nat → R) : Mat R :=
  (List.range ch).map fun c => (List.range n).map fun k => f c k

/-- Entry of an array (zero outside). -/
def matVal {R : Type} [Zero R] (m : Mat R) (c k : Nat) : R := (m.getD c []).getD k 0

/-- The signals `dims` (name to number of channels) restricted to the steps
`a, ..., a+L-1`. -/
def cut {R : Type} (dims : String → Option Nat) (T : Tape R) (a : Int) (L : Nat) : Sigs R :=
  fun k => (dims k).map fun num => matOf num L fun c p => T k c (a + p)

/-- numpy broadcasting of `v` to shape `(num, n)`. -/
def broadcastMat {R : Type} (v : Mat R) (num n : Nat) : Option (Mat R) :=
  (broadcastChan v num).bind fun w => w.mapM fun r => broadcastRow r n

/-- Writing an array into a signal at steps `a, ..., a+n-1`. -/
def Tape.write {R : Type} [Zero R] (T : Tape R) (name : String) (a : Int) (n : Nat) (w : Mat R) :
    Tape R :=
  fun k c t => if k = name ∧ a ≤ t ∧ t < a + n then matVal w c (t - a).toNat else T k c t

/-- Adding an array to a signal at steps `a, ..., a+n-1`. -/
def Tape.addOn {R : Type} [Zero R] [Add R] (T : Tape R) (name : String) (a : Int) (n : Nat)
    (w : Mat R) : Tape R :=
  fun k c t => if k = name ∧ a ≤ t ∧ t < a + n then T k c t + matVal w c (t - a).toNat else T k c t

/-- Replacing all signals at steps `a, ..., a+n-1`. -/
def Tape.paste {R : Type} (T : Tape R) (a : Int) (n : Nat) (out : String → Nat → Nat → R) :
    Tape R :=
  fun k c t => if a ≤ t ∧ t < a + n then out k c (t - a).toNat else T k c t

/-- `sig[name][..., a:a+n]` on the tape. -/
def tGet {R : Type} (dims : String → Option Nat) (T : Tape R) (name : String) (a : Int) (n : Nat) :
    Except PyErr (Mat R) :=
  match dims name with
  | none => .error .key
  | some num => .ok (matOf num n fun c p => T name c (a + p))

/-- `sig[name][..., a:a+n] = v` on the tape. -/
def tAssign {R : Type} [Zero R] (dims : String → Option Nat) (T : Tape R) (name : String) (a : Int)
    (n : Nat) (v : Mat R) : Except PyErr (Tape R) :=
  match dims name with
  | none => .error .key
  | some num =>
    match broadcastMat v num n with
    | none => .error .value
    | some w => .ok (T.write name a n w)

/-- `sig[name][..., a:a+n] += v` on the tape. -/
def tAdd {R : Type} [Zero R] [Add R] (dims : String → Option Nat) (T : Tape R) (name : String)
    (a : Int) (n : Nat) (v : Mat R) : Except PyErr (Tape R) :=
  match dims name with
  | none => .error .key
  | some num =>
    match broadcastMat v num n with
    | none => .error .value
    | some w => .ok (T.addOn name a n w)

/-- What a processor does, as a function of its state and of the samples from
`H` before the current index to the end of the block: new state and new
content of the block. -/
structure ProcView (R P : Type) where
  H : Nat
  act : P → Sigs R → Except PyErr (P × (String → Nat → Nat → R))

/-- The contract of a well-behaved processor with look-back `H`: on every
signal store in which the samples `idx-H, ..., idx+bs-1` exist, `process` only
looks at these samples and only changes the samples `idx, ..., idx+bs-1`. -/
def ProcView.Valid {R P : Type} (lp : ProcView R P) (dims : String → Option Nat)
    (o : Option (Proc R P)) : Prop :=
  ∀ p, o = some p → ∀ q T (i L : Nat), lp.H ≤ i → i + p.bs ≤ L →
    p.process q (cut dims T 0 L) i =
      (lp.act q (cut dims T ((i : Int) - lp.H) (lp.H + p.bs))).map
        fun r => (r.1, cut dims (T.paste i p.bs r.2) 0 L)

section
variable {R IR F S A P D O : Type}

/-- Signals known to the simulator with their number of channels. -/
def SimCfg.dims (cfg : SimCfg R IR F S A P D O) : String → Option Nat :=
  fun k => (cfg.signalList.find? fun q => q.1 == k).map (·.2)

def SimCfg.tSource [Zero R] (cfg : SimCfg R IR F S A P D O) (n : Nat) (e : Eng (Tape R) F S A P)
    (a : ArrInfo) : Except PyErr (Eng (Tape R) F S A P) :=
  match cfg.srcGet (e.srcs a.name) 1 with
  | .error x => .error x
  | .ok (s', v) =>
    match tAssign cfg.dims e.sig a.name n 1 v with
    | .error x => .error x
    | .ok sig => .ok { e with sig := sig, srcs := fun k => if k = a.name then s' else e.srcs k }

def SimCfg.tPair [Zero R] [Add R] (cfg : SimCfg R IR F S A P D O) (n : Nat)
    (e : Eng (Tape R) F S A P) (p : ArrInfo × ArrInfo) : Except PyErr (Eng (Tape R) F S A P) :=
  match tGet cfg.dims e.sig p.1.name n 1 with
  | .error x => .error x
  | .ok x =>
    match cfg.filt.process (e.filts p.1.name p.2.name) x with
    | .error x => .error x
    | .ok (f', y) =>
      match tAdd cfg.dims e.sig p.2.name n 1 y with
      | .error x => .error x
      | .ok sig =>
        match (if cfg.contrib then
            tAssign cfg.dims sig (contribName p.1 p.2) n 1 y else .ok sig) with
        | .error x => .error x
        | .ok sig => .ok { e with
            sig := sig
            filts := fun s m => if s = p.1.name ∧ m = p.2.name then f' else e.filts s m }

def SimCfg.tPropagate [Zero R] [Add R] (cfg : SimCfg R IR F S A P D O) (n : Nat)
    (e : Eng (Tape R) F S A P) : Except PyErr (Eng (Tape R) F S A P) :=
  match (freeOf cfg.arrays).foldlM (cfg.tSource n) e with
  | .error x => .error x
  | .ok e1 =>
    match (combosOf cfg.arrays).foldlM cfg.stepUpdate e1 with
    | .error x => .error x
    | .ok e2 => (combosOf cfg.arrays).foldlM (cfg.tPair n) e2

def SimCfg.tProc (cfg : SimCfg R IR F S A P D O) (lp : ProcView R P) (n : Nat)
    (e : Eng (Tape R) F S A P) : Except PyErr (Eng (Tape R) F S A P) :=
  match cfg.proc with
  | none => .ok e
  | some p =>
    if p.bs = 0 then .error .zeroDivision
    else if n % p.bs = p.bs - 1 then
      match lp.act e.proc (cut cfg.dims e.sig ((n : Int) - lp.H) (lp.H + p.bs)) with
      | .error x => .error x
      | .ok (p', out) => .ok { e with proc := p', sig := e.sig.paste n p.bs out }
    else .ok e

/-- Step `n` on the tape: move arrays, call the processor if a block is
complete, generate and propagate one sample. -/
def SimCfg.tEngine [Zero R] [Add R] (cfg : SimCfg R IR F S A P D O)
    (lp : ProcView R P) (n : Nat) (e : Eng (Tape R) F S A P) :
    Except PyErr (Eng (Tape R) F S A P) :=
  match cfg.arrUpdate e.arr n with
  | .error x => .error x
  | .ok arr =>
    match cfg.tProc lp n { e with arr := arr } with
    | .error x => .error x
    | .ok e1 => cfg.tPropagate n e1

/-- The first `n` steps on the tape. -/
def SimCfg.tSteps [Zero R] [Add R] (cfg : SimCfg R IR F S A P D O)
    (lp : ProcView R P) : Nat → Eng (Tape R) F S A P →
    Except PyErr (Eng (Tape R) F S A P)
  | 0, e => .ok e
  | n + 1, e =>
    match cfg.tSteps lp n e with
    | .error x => .error x
    | .ok e' => cfg.tEngine lp n e'

/-- `Propagator.prepare` on the tape: the sources deliver `num` samples for the
steps `-num, ..., -1`. -/
def SimCfg.tPrepSource [Zero R] (cfg : SimCfg R IR F S A P D O) (num : Nat)
    (e : Eng (Tape R) F S A P) (a : ArrInfo) : Except PyErr (Eng (Tape R) F S A P) :=
  match cfg.srcGet (e.srcs a.name) num with
  | .error x => .error x
  | .ok (s', v) =>
    match tAssign cfg.dims e.sig a.name (-(num : Int)) num v with
    | .error x => .error x
    | .ok sig => .ok { e with sig := sig, srcs := fun k => if k = a.name then s' else e.srcs k }

/-- The microphones receive the filtered samples; note that the code adds them
to the steps `-B, ..., -1` whatever `num` is. -/
def SimCfg.tPrepPair [Zero R] [Add R] (cfg : SimCfg R IR F S A P D O) (num : Nat)
    (e : Eng (Tape R) F S A P) (p : ArrInfo × ArrInfo) : Except PyErr (Eng (Tape R) F S A P) :=
  match tGet cfg.dims e.sig p.1.name (-(num : Int)) num with
  | .error x => .error x
  | .ok x =>
    match cfg.filt.process (e.filts p.1.name p.2.name) x with
    | .error x => .error x
    | .ok (f', y) =>
      match tAdd cfg.dims e.sig p.2.name (-(cfg.B : Int)) cfg.B y with
      | .error x => .error x
      | .ok sig =>
        match (if cfg.contrib then
            tAssign cfg.dims sig (contribName p.1 p.2) (-(num : Int)) num y else .ok sig) with
        | .error x => .error x
        | .ok sig => .ok { e with
            sig := sig
            filts := fun s m => if s = p.1.name ∧ m = p.2.name then f' else e.filts s m }

def SimCfg.tPrepare [Zero R] [Add R] (cfg : SimCfg R IR F S A P D O) (e : Eng (Tape R) F S A P) :
    Except PyErr (Eng (Tape R) F S A P) :=
  match (freeOf cfg.arrays).foldlM (cfg.tPrepSource cfg.prepNum) e with
  | .error x => .error x
  | .ok e' => (combosOf cfg.arrays).foldlM (cfg.tPrepPair cfg.prepNum) e'

/-- The state before step 0. -/
def SimCfg.tInit [Zero R] [Add R] (cfg : SimCfg R IR F S A P D O) (srcs : String → S) (arr : A)
    (proc : P) (f0 : F) : Except PyErr (Eng (Tape R) F S A P) :=
  match cfg.createFilters arr (fun _ _ => f0) with
  | .error x => .error x
  | .ok fs =>
    cfg.tPrepare { sig := fun _ _ _ => 0, srcs := srcs, filts := fs, arr := arr, proc := proc }

/-- Buffer, chunk and block sizes for which the buffered simulator is expected
to work with a processor that looks back `lp.H` samples. -/
structure Admissible (cfg : SimCfg R IR F S A P D O) (lp : ProcView R P) : Prop where
  block : 1 ≤ cfg.mbs
  buffer : cfg.mbs + 1 ≤ cfg.B
  chunk : 1 ≤ cfg.C
  proc : ∀ p, cfg.proc = some p → (2 ≤ cfg.C ∨ p.bs ≤ cfg.C) ∧ lp.H + p.bs ≤ cfg.B + 1
  valid : lp.Valid cfg.dims cfg.proc

/-- The processor state after step `n` (`none` without processor). -/
def SimCfg.procAfter [Zero R] [Add R] (cfg : SimCfg R IR F S A P D O) (lp : ProcView R P)
    (e0 : Eng (Tape R) F S A P) (n : Nat) : Option P :=
  match cfg.tSteps lp (n + 1) e0 with
  | .ok e => if cfg.proc.isSome then some e.proc else none
  | .error _ => none

end
end Verif

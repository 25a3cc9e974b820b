/-
Model of the diagnostic classes: `src/aspsim/diagnostics/core.py:162-195`
(constructors of the counters), `core.py:245-440` (base classes),
`core.py:488-537` (selection of the exported values),
`src/aspsim/diagnostics/diagnostics.py`
and `src/aspsim/diagnostics/diagnosticscollection.py`.

`none` in a data array is `nan`.  Signals are real, so `np.abs(x)**2` is `x*x`.
Preprocessing and the choice of export functions are in `Model/Plot.lean`.
-/
import Mathlib.Algebra.Field.Basic
import Verif.Model.Logger
namespace Verif

/-! ### Constructors of the counters -/

/-- A scalar (frequency) or a list of indices, as accepted for `export_at`.
(`diagnostics/core.py:349-366,381-401`.) -/
inductive IdxSel
  | every (f : Nat)
  | list (l : List Int)
  deriving DecidableEq, Repr

/-- `IndexCounter(export_at, tot_samples)`, `core.py:221-234`. -/
def IdxSel.counter (tot : Nat) : IdxSel → Except PyErr IxCounter
  | .every f => IxCounter.ofFreq f tot
  | .list l => .ok (IxCounter.init l)

/-- `IntervalCounter.from_frequency`, `core.py:188-195`: counter and
`num_values = ceil(max / f)`. -/
def IvCounter.fromFrequency (f max : Nat) (includeZero : Bool) : Except PyErr (IvCounter × Nat) :=
  if f = 0 then .error .zeroDivision
  else
    let start : Int := if includeZero then 0 else f
    .ok (IvCounter.init (List.zip (pyRange (start - 1) max f) (pyRange start (max + 1) f)),
      (max + f - 1) / f)

/-- `IntervalCounter(intervals)` for a list of intervals, `core.py:172-185`
(`intervals[0]` of an empty list raises). -/
def IvCounter.ofList (ivs : List (Int × Int)) : Except PyErr IvCounter :=
  match ivs with
  | [] => .error .index
  | _ => .ok (IvCounter.init ivs)

/-! ### numpy helpers -/

/-- `l[i]` for an integer index.
(`diagnostics/diagnostics.py:99-108`.) -/
def pyIndex {α : Type} (l : List α) (i : Int) : Except PyErr α :=
  match (if i < 0 then (if i + l.length < 0 then none else l[(i + l.length).toNat]?) else l[i.toNat]?) with
  | none => .error .index
  | some x => .ok x

/-- Row selection `m[sel, :]`: `slice(None)` or a tuple of indices.
(`diagnostics/diagnostics.py:90-108`.) -/
def selectRows {α : Type} (m : Mat α) : Option (List Int) → Except PyErr (Mat α)
  | none => .ok m
  | some is => is.mapM (pyIndex m)

/-- `sig[name][sel, i:j]`.
(`diagnostics/diagnostics.py:99-108`.) -/
def sigSelect {R : Type} (S : Sigs R) (name : String) (sel : Option (List Int)) (i j : Int) :
    Except PyErr (Mat R) :=
  match S name with
  | none => .error .key
  | some m => selectRows (pySlice2 m i j) sel

/-- Number of columns of a `(rows, i:j)` slice; with no rows at all the slice
is taken to be complete.
(`diagnostics/diagnostics.py:99-108`.) -/
def widthOr {α : Type} (v : Mat α) (n : Nat) : Nat :=
  match v with
  | [] => n
  | r :: _ => r.length

/-- `np.mean(np.abs(v)**2, axis=0)`; the mean over no rows is `nan`.
(`diagnostics/diagnostics.py:168-170,194-201`.) -/
def colPower {R : Type} [Field R] (v : Mat R) (n : Nat) : List (Option R) :=
  (List.range (widthOr v n)).map fun k =>
    match v with
    | [] => none
    | _ => some ((v.map fun r => r.getD k 0 * r.getD k 0).sum / v.length)

/-- `np.sum(np.abs(v)**2, axis=-1)`.
(`diagnostics/diagnostics.py:353-354`.) -/
def rowPower {R : Type} [Field R] (v : Mat R) : List R :=
  v.map fun r => (r.map fun x => x * x).sum

/-- A fresh moving-average filter `fc.create_filter(ir=np.ones((1,1,q))/q)`
applied to `x` (contract of `aspcore.filter`: FIR with zero initial state);
`nan` stays in the window for `q` samples.
(`diagnostics/diagnostics.py:157-174,176-205`.) -/
def smooth {R : Type} [Field R] (q : Nat) (x : List (Option R)) : List (Option R) :=
  (List.range x.length).map fun k =>
    ((List.range (min q (k + 1))).foldr (fun j acc =>
      match acc, x.getD (k - j) none with
      | some a, some b => some (b / q + a)
      | _, _ => none) (some 0))

/-- `get_values_up_to_idx`, `core.py:488-507`. -/
def getUpTo {α : Type} (m : Mat (Option α)) (maxIdx : Int) : Except PyErr (Mat α × List Int) :=
  let c := m.map fun r => pySlice r 0 maxIdx
  match c with
  | [] => .error .index
  | r0 :: _ =>
    let mask := r0.map Option.isSome
    if c.any (fun r => r.map Option.isSome != mask) then .error .assertion
    else if mask.length ≠ maxIdx.toNat then .error .index
    else .ok (c.map (fun r => r.filterMap id),
      ((List.range maxIdx.toNat).zip mask).filterMap fun p =>
        if p.2 then some (p.1 : Int) else none)

/-- `get_values_from_selection`, `core.py:509-537`. -/
def getSelection {α : Type} (m : Mat (Option α)) (times : List Int) (maxIdx : Int) :
    Except PyErr (Mat α × List Int) :=
  match m with
  | [] => .error .index
  | r0 :: _ =>
    let mask := r0.map Option.isSome
    if m.any (fun r => r.map Option.isSome != mask) then .error .assertion
    else if times.length ≠ mask.length then .error .assertion
    else
      let ts := (times.zip mask).filterMap fun p => if p.2 then some p.1 else none
      let sg := m.map fun r => r.filterMap id
      if ts.length = 0 then .ok (sg, ts)
      else
        -- `np.argmax` of a boolean array: first true position, 0 if there is none
        let j := if ts.any (fun t => decide (t ≥ maxIdx)) then
            ts.findIdx (fun t => decide (t ≥ maxIdx)) else 0
        let j := if j = 0 then ts.length else j
        .ok (sg.map fun r => r.take j, ts.take j)

/-! ### The classes -/

/-- Data of a diagnostic object.  `get` is the property getter; what it
returns is copied (numpy assignment, `copy.deepcopy`).
(`diagnostics/diagnostics.py:8-358`, `diagnostics/diagnosticscollection.py:87-187`.) -/
inductive DData (R P V : Type)
  /-- `RecordSignal`, `diagnostics.py:81-112`. -/
  | recSignal (sig : String) (chan : Option (List Int)) (signal : Mat (Option R))
  /-- `RecordState` 115-152, and, with one row, `StatePower` 208-232,
  `StateComparison` 235-262, `StateSummary` 266-292. -/
  | recState (get : P → Except PyErr (List R)) (values : Mat (Option R)) (times : List Int) (at_ : Nat)
  /-- `SignalPower`, `diagnostics.py:157-173`. -/
  | power (sig : String) (chan : Option (List Int)) (power : List (Option R))
  /-- `SignalPowerRatio`, `diagnostics.py:176-204`; an entry is the pair
  numerator, denominator. -/
  | ratio (num : String) (numCh : Option (List Int)) (den : String) (denCh : Option (List Int))
      (smoothing : Nat) (vals : List (Option (R × R)))
  /-- `RecordFilter`, `diagnostics.py:8-28`. -/
  | instant (get : P → Except PyErr V) (prop : Option V)
  /-- `SoundfieldPower`, `diagnostics.py:311-357`. -/
  | sfPower (sig : String) (numAvg : Nat) (power : List R)
  /-- `SignalPowerSpectrum`, `diagnosticscollection.py:116-157`; `welch` is the call
  of `scipy.signal.welch` with the following mean over the channels, taken to raise no
  exception. -/
  | spectrum (sig : String) (chan : Option (List Int)) (welch : Mat (Option R) → V)
      (signal : Mat (Option R)) (counter : Nat)
  /-- `SignalSummary`, `diagnosticscollection.py:161-187`; `func` is `summary_func`. -/
  | summary (sig : String) (func : Option (Mat R → Except PyErr R)) (numSamples : Nat) (mean : R)

/-- What is handed to the export function.
(`diagnostics/core.py:332-338,369-374,404-409`.) -/
inductive DOut (R V : Type)
  | series (sig : Mat R) (times : List Int)
  | ratios (vals : Mat (R × R)) (times : List Int)
  | value (v : Option V)
  | vec (v : List R)
  | scalar (x : R)

/-- Entry-wise pairing of two rows with `nan`.
(`diagnostics/diagnostics.py:203-205`.) -/
def pairRow {R : Type} (a b : List (Option R)) : List (Option (R × R)) :=
  List.zipWith (fun x y => match x, y with
    | some x, some y => some (x, y)
    | _, _ => none) a b

/-- What `SignalSummary` computes from a piece of the signal: the sum of all samples or
`summary_func`.
(`diagnostics/diagnosticscollection.py:180-184`.) -/
def summaryOf {R : Type} [Field R] (func : Option (Mat R → Except PyErr R)) (v : Mat R) : Except PyErr R :=
  match func with
  | none => .ok (v.map List.sum).sum
  | some f => f v

/-- The `save` methods.  A `SignalSummary` over an empty range divides by zero, which
numpy turns into `nan`; here it raises.
(`diagnostics/diagnostics.py:24-25,99-109,144-149,168-170,194-201,223-229,252-259,283-289,353-354`,
`diagnostics/diagnosticscollection.py:147-151,180-184`.) -/
def DData.save {R P V : Type} [Field R] (d : DData R P V) (proc : Option P) (sig : Sigs R)
    (c g : Int × Int) : Except PyErr (DData R P V) :=
  match d with
  | .recSignal name chan signal =>
    match sigSelect sig name chan c.1 c.2 with
    | .error x => .error x
    | .ok v =>
      match pyAssign2 signal g.1 g.2 (v.map fun r => r.map some) with
      | none => .error .value
      | some s => .ok (.recSignal name chan s)
  | .recState get values times i =>
    if g.2 - g.1 ≠ 1 then .error .assertion
    else match proc with
      | none => .error .attribute
      | some p =>
        match get p with
        | .error x => .error x
        | .ok v =>
          if times.length ≤ i then .error .index
          else match broadcastRow v values.length with
            | none => .error .value
            | some w => .ok (.recState get
                (List.zipWith (fun r x => r.set i (some x)) values w) (times.set i g.1) (i + 1))
  | .power name chan pw =>
    match sigSelect sig name chan c.1 c.2 with
    | .error x => .error x
    | .ok v =>
      match pyAssign pw g.1 g.2 (colPower v (c.2 - c.1).toNat) with
      | none => .error .value
      | some s => .ok (.power name chan s)
  | .ratio n nc dn dc q vals =>
    match sigSelect sig n nc c.1 c.2, sigSelect sig dn dc c.1 c.2 with
    | .error x, _ => .error x
    | _, .error x => .error x
    | .ok vn, .ok vd =>
      let a := smooth q (colPower vn (c.2 - c.1).toNat)
      let b := smooth q (colPower vd (c.2 - c.1).toNat)
      if q = 0 then .error .value
      else match pyAssign vals g.1 g.2 (pairRow a b) with
        | none => .error .value
        | some s => .ok (.ratio n nc dn dc q s)
  | .instant get _ =>
    match proc with
    | none => .error .attribute
    | some p =>
      match get p with
      | .error x => .error x
      | .ok v => .ok (.instant get (some v))
  | .sfPower name q pw =>
    match proc with
    | none => .error .attribute
    | some _ =>
      match sigSelect sig name none c.1 c.2 with
      | .error x => .error x
      | .ok v =>
        match broadcastRow ((rowPower v).map fun x => x / (q : R)) pw.length with
        | none => .error .value
        | some w => .ok (.sfPower name q (List.zipWith (· + ·) pw w))
  | .spectrum name chan welch signal k =>
    match sigSelect sig name chan c.1 c.2 with
    | .error x => .error x
    | .ok v =>
      match pyAssign2 signal k (k + (c.2 - c.1)) (v.map fun r => r.map some) with
      | none => .error .value
      | some s => .ok (.spectrum name chan welch s (k + (c.2 - c.1)).toNat)
  | .summary name func q mean =>
    match sigSelect sig name none c.1 c.2 with
    | .error x => .error x
    | .ok v =>
      match summaryOf func v with
      | .error x => .error x
      | .ok y => if q = 0 then .error .zeroDivision else .ok (.summary name func q (mean + y / (q : R)))

/-- `get_processed_output` without preprocessing: `core.py:332-338` (base and
instant), `core.py:369-373` (signals), `core.py:404-408` (states).  A quotient
`0/0` is `nan`. -/
def DData.output {R P V : Type} [Field R] [DecidableEq R] (d : DData R P V) (e : Int) :
    Except PyErr (DOut R V) :=
  match d with
  | .recSignal _ _ signal => (getUpTo signal e).map fun r => .series r.1 r.2
  | .recState _ values times _ => (getSelection values times e).map fun r => .series r.1 r.2
  | .power _ _ pw => (getUpTo [pw] e).map fun r => .series r.1 r.2
  | .ratio _ _ _ _ _ vals =>
    (getUpTo [vals.map fun o => o.bind fun p => if p.1 = 0 ∧ p.2 = 0 then none else some p] e).map
      fun r => .ratios r.1 r.2
  | .instant _ v => .ok (.value v)
  | .sfPower _ _ pw => .ok (.vec pw)
  | .spectrum _ _ welch signal _ => .ok (.value (some (welch signal)))
  | .summary _ _ _ mean => .ok (.scalar mean)

/-- The diagnostic classes as the logger sees them.
(`diagnostics/core.py:83-158`.) -/
def diagOps (R P V : Type) [Field R] [DecidableEq R] : DiagOps R P (DData R P V) (DOut R V) where
  save := DData.save
  output := DData.output

/-! ### Constructors -/

section
variable {R P V : Type}

/-- The parts of `SimulatorInfo` the constructors use.
(`diagnostics/core.py:257-306`.) -/
structure DiagInfo where
  tot : Nat
  exportFreq : Nat
  smoothing : Nat

/-- `export_at` with its default, `core.py:278-285`. -/
def exportCounter (info : DiagInfo) (o : Option IdxSel) : Except PyErr IxCounter :=
  (o.getD (.every info.exportFreq)).counter info.tot

/-- `save_at` of `SignalDiagnostic`, `core.py:359-360`. -/
def signalSaveAt (info : DiagInfo) : Option (List (Int × Int)) → Except PyErr IvCounter
  | none => .ok (IvCounter.init [(0, (info.tot : Int))])
  | some l => IvCounter.ofList l

/-- `RecordSignal.__init__`, `diagnostics.py:82-97`. -/
def mkRecordSignal (info : DiagInfo) (name sig : String) (exportAt : Option IdxSel)
    (saveAt : Option (List (Int × Int))) (numCh : Nat) (chan : Option (List Int)) :
    Except PyErr (Diag (DData R P V)) := do
  let sv ← signalSaveAt info saveAt
  let ex ← exportCounter info exportAt
  if chan.any (fun l => l.length != numCh) then .error .assertion
  else .ok { name, saveAt := sv, exportAt := ex
             data := .recSignal sig chan (List.replicate numCh (List.replicate info.tot none)) }

/-- `SignalPower.__init__`, `diagnostics.py:158-166`. -/
def mkSignalPower (info : DiagInfo) (name sig : String) (exportAt : Option IdxSel)
    (saveAt : Option (List (Int × Int))) (chan : Option (List Int)) :
    Except PyErr (Diag (DData R P V)) := do
  let sv ← signalSaveAt info saveAt
  let ex ← exportCounter info exportAt
  .ok { name, saveAt := sv, exportAt := ex, data := .power sig chan (List.replicate info.tot none) }

/-- `SignalPowerRatio.__init__`, `diagnostics.py:177-192`. -/
def mkSignalPowerRatio (info : DiagInfo) (name num den : String) (exportAt : Option IdxSel)
    (saveAt : Option (List (Int × Int))) (numCh denCh : Option (List Int)) :
    Except PyErr (Diag (DData R P V)) := do
  let sv ← signalSaveAt info saveAt
  let ex ← exportCounter info exportAt
  .ok { name, saveAt := sv, exportAt := ex
        data := .ratio num numCh den denCh info.smoothing (List.replicate info.tot none) }

/-- `StateDiagnostic.__init__`, `core.py:381-397`: counters and `num_values`.
A list as save frequency fails in the division of `from_frequency`. -/
def stateCounters (info : DiagInfo) (exportAt saveFreq : Option IdxSel) :
    Except PyErr (IvCounter × Nat × IxCounter) :=
  match saveFreq with
  | none => .error .notImplemented
  | some (.list _) => .error .typeErr
  | some (.every f) => do
    let r ← IvCounter.fromFrequency f info.tot false
    let ex ← exportCounter info exportAt
    .ok (r.1, r.2, ex)

/-- `RecordState.__init__`, `diagnostics.py:124-141`; `junk` is what numpy
makes of `nan` in an integer array. -/
def mkRecordState (info : DiagInfo) (name : String) (get : P → Except PyErr (List R)) (dim : Nat)
    (exportAt saveFreq : Option IdxSel) (junk : Int) : Except PyErr (Diag (DData R P V)) := do
  let r ← stateCounters info exportAt saveFreq
  .ok { name, saveAt := r.1, exportAt := r.2.2
        data := .recState get (List.replicate dim (List.replicate r.2.1 none))
          (List.replicate r.2.1 junk) 0 }

/-- `StatePower.__init__`, `diagnostics.py:209-220`: line 214 passes
`save_frequency` and `export_at` in the wrong order. -/
def mkStatePower [Field R] (info : DiagInfo) (name : String) (get : P → Except PyErr (List R))
    (exportAt saveFreq : Option IdxSel) (junk : Int) : Except PyErr (Diag (DData R P V)) := do
  let r ← stateCounters info saveFreq exportAt
  .ok { name, saveAt := r.1, exportAt := r.2.2
        data := .recState (fun p => (get p).map fun v => [(v.map fun x => x * x).sum / v.length])
          [List.replicate r.2.1 none] (List.replicate r.2.1 junk) 0 }

/-- `InstantDiagnostic.__init__` (`core.py:418-440`) with `RecordFilter.__init__`. -/
def mkRecordFilter (info : DiagInfo) (name : String) (get : P → Except PyErr V)
    (saveAt : Option IdxSel) : Except PyErr (Diag (DData R P V)) := do
  let sel := saveAt.getD (.every info.exportFreq)
  let sv ← (match sel with
    | .list [] => .error .index
    | .list l => .ok (IvCounter.initIdx l)
    | .every f => (IvCounter.fromFrequency f info.tot false).map (·.1))
  let ex ← sel.counter info.tot
  .ok { name, saveAt := sv, exportAt := ex, data := .instant get none }

/-- `SoundfieldPower.__init__`, `diagnostics.py:316-349`. -/
def mkSoundfieldPower [Zero R] (name sig : String) (numMic : Nat) (use : Int × Int) :
    Except PyErr (Diag (DData R P V)) :=
  if use.2 - use.1 < 1 then .error .assertion
  else .ok { name, saveAt := IvCounter.init [use], exportAt := IxCounter.init [use.2]
             data := .sfPower sig (use.2 - use.1).toNat (List.replicate numMic 0) }

/-- `SummaryDiagnostic.__init__` and `SignalPowerSpectrum.__init__`,
`diagnosticscollection.py:93-113,117-141`; a range of negative length is rejected by
`np.full`.  `welch` stands for lines 155-156. -/
def mkSignalPowerSpectrum (name sig : String) (range : Int × Int) (numCh : Nat)
    (welch : Mat (Option R) → V) (chan : Option (List Int)) : Except PyErr (Diag (DData R P V)) :=
  if range.2 - range.1 < 0 then .error .value
  else .ok { name, saveAt := IvCounter.init [range], exportAt := IxCounter.init [range.2]
             data := .spectrum sig chan welch
               (List.replicate numCh (List.replicate (range.2 - range.1).toNat none)) 0 }

/-- `SummaryDiagnostic.__init__` and `SignalSummary.__init__`,
`diagnosticscollection.py:93-113,162-176`.  A range of negative length, which gives a negative
`num_samples`, is not modelled (it is rejected here). -/
def mkSignalSummary [Zero R] (name sig : String) (range : Int × Int)
    (func : Option (Mat R → Except PyErr R)) : Except PyErr (Diag (DData R P V)) :=
  if range.2 - range.1 < 0 then .error .value
  else .ok { name, saveAt := IvCounter.init [range], exportAt := IxCounter.init [range.2]
             data := .summary sig func (range.2 - range.1).toNat 0 }

/-- `StateComparison.__init__` and `save`, `diagnostics.py:235-262`: the value of
`compare_func` for the two states; `junk` is what numpy makes of `nan` in an integer array. -/
def mkStateComparison {A B : Type} (info : DiagInfo) (name : String) (cmp : A → B → Except PyErr R)
    (get1 : P → Except PyErr A) (get2 : P → Except PyErr B)
    (exportAt saveFreq : Option IdxSel) (junk : Int) : Except PyErr (Diag (DData R P V)) := do
  let r ← stateCounters info exportAt saveFreq
  .ok { name, saveAt := r.1, exportAt := r.2.2
        data := .recState (fun p => do
            let s1 ← get1 p
            let s2 ← get2 p
            let x ← cmp s1 s2
            pure [x])
          [List.replicate r.2.1 none] (List.replicate r.2.1 junk) 0 }

/-- `StateSummary.__init__` and `save`, `diagnostics.py:266-292`. -/
def mkStateSummary {A : Type} (info : DiagInfo) (name : String) (func : A → Except PyErr R)
    (get : P → Except PyErr A) (exportAt saveFreq : Option IdxSel) (junk : Int) :
    Except PyErr (Diag (DData R P V)) := do
  let r ← stateCounters info exportAt saveFreq
  .ok { name, saveAt := r.1, exportAt := r.2.2
        data := .recState (fun p => do
            let s ← get p
            let x ← func s
            pure [x])
          [List.replicate r.2.1 none] (List.replicate r.2.1 junk) 0 }

/-- `save` of `EigenvaluesOverTime`, `diagnosticscollection.py:37-44`: `symm` is the test of
line 40, `eigh` gives all eigenvalues in ascending order, of which `scipy.linalg.eigh` returns those
with the indices `lo, ..., hi` (an invalid range raises), `absVal` is the identity or `np.abs`. -/
def eigenvaluesOf (symm : Mat R → Bool) (eigh : Mat R → Except PyErr (List R)) (absVal : R → R) (lo hi : Nat)
    (mat : Mat R) : Except PyErr (List R) :=
  if symm mat then
    match eigh mat with
    | .error x => .error x
    | .ok ev =>
      if lo ≤ hi ∧ hi < ev.length then .ok (((ev.drop lo).take (hi - lo + 1)).map absVal) else .error .value
  else .error .assertion

/-- `EigenvaluesOverTime.__init__` and `save`, `diagnosticscollection.py:20-47`. -/
def mkEigenvaluesOverTime (info : DiagInfo) (name : String) (symm : Mat R → Bool)
    (eigh : Mat R → Except PyErr (List R)) (absVal : R → R) (get : P → Except PyErr (Mat R)) (lo hi : Nat)
    (exportAt saveFreq : Option IdxSel) (junk : Int) : Except PyErr (Diag (DData R P V)) := do
  let r ← stateCounters info exportAt saveFreq
  .ok { name, saveAt := r.1, exportAt := r.2.2
        data := .recState (fun p => do
            let m ← get p
            eigenvaluesOf symm eigh absVal lo hi m)
          (List.replicate (hi + 1 - lo) (List.replicate r.2.1 none)) (List.replicate r.2.1 junk) 0 }

/-- `Eigenvalues`, `diagnosticscollection.py:53-81`: an instant diagnostic (constructed as
`RecordFilter` is) whose `save` checks that the matrix is Hermitian and keeps all its eigenvalues.
`symm`, `eigh` and `absVal` as in `eigenvaluesOf`; `wrap` is the reshaping `[None, None, :]` of line 75. -/
def mkEigenvalues (info : DiagInfo) (name : String) (symm : Mat R → Bool)
    (eigh : Mat R → Except PyErr (List R)) (absVal : R → R) (wrap : List R → V)
    (get : P → Except PyErr (Mat R)) (saveAt : Option IdxSel) : Except PyErr (Diag (DData R P V)) :=
  mkRecordFilter info name (fun p => do
    let m ← get p
    if symm m then
      let ev ← eigh m
      .ok (wrap (ev.map absVal))
    else .error .assertion) saveAt

/-- `RecordFilterDifference`, `diagnostics.py:31-43`: `RecordFilter` with the difference of
two properties (`sub` is the subtraction of the recorded objects). -/
def mkRecordFilterDifference (info : DiagInfo) (name : String) (sub : V → V → Except PyErr V)
    (get1 get2 : P → Except PyErr V) (saveAt : Option IdxSel) : Except PyErr (Diag (DData R P V)) :=
  mkRecordFilter info name (fun p => do
    let s1 ← get1 p
    let s2 ← get2 p
    sub s1 s2) saveAt
end

end Verif

/-
The summary diagnostics of `src/aspsim/diagnostics/diagnosticsummary.py`.

Not modelled: `SignalPowerSpectrum` beyond its constructor (its `save` is that of
`diagnosticscollection.py`, see `Model/Diagnostics.lean`), the JSON text of `add_to_summary` (the
file is its dictionary) and the export functions.
-/
import Verif.Model.Diagnostics

namespace Verif

/-- Binding of the positional arguments of a call of a Python function without default values:
`params` parameters, `given` arguments.  (`diagnosticsummary.py:69` calls `core.py:257-266`.) -/
def bindPositional (params given : Nat) : Except PyErr Unit :=
  if given = params then .ok () else .error .typeErr

/-- The argument `save_at` / `save_range`: a pair of samples or an `IntervalCounter`.
(`diagnosticsummary.py:58-67`.) -/
inductive RangeArg
  | pair (a b : Int)
  | counter (c : IvCounter)

/-- `SummaryDiagnostic.__init__`, `diagnosticsummary.py:48-69`: the counters of exports and saves.
`Diagnostic.__init__` (`core.py:257-266`) has seven parameters beside `self`, line 69 passes eight
arguments. -/
def oldSummaryInit : RangeArg → Except PyErr (IxCounter × IvCounter)
  | .counter _ => .error .notImplemented
  | .pair a b => do
    let s ← IvCounter.ofList [(a, b)]
    bindPositional 7 8
    .ok (IxCounter.init [b], s)

/-- `SignalPowerRatioSummary.__init__`, `SignalPowerSummary.__init__` and
`SignalPowerSpectrum.__init__`, `diagnosticsummary.py:77-98,111-130,143-168`: `num_samples` and the
counters.  Subscripting a counter raises. -/
def oldPowerInit : RangeArg → Except PyErr (Int × IxCounter × IvCounter)
  | .counter _ => .error .typeErr
  | .pair a b => do
    let r ← oldSummaryInit (.pair a b)
    .ok (b - a, r)

/-- Addition of two numbers that may be `nan`.  (`diagnosticsummary.py:101-102,133`.) -/
def addNan {R : Type} [Add R] : Option R → Option R → Option R
  | some x, some y => some (x + y)
  | _, _ => none

/-- The increment `np.sum(np.mean(np.abs(v)**2, axis=0)) / num_samples`,
`diagnosticsummary.py:101-102,133`.  `none` is `nan`, the mean over no channels; division by zero,
which is `nan` or infinite in numpy, is `none` too. -/
def oldPowerOf {R : Type} [Field R] (v : Mat R) (n : Int) : Option R :=
  if n = 0 then none
  else ((colPower v 0).foldr addNan (some 0)).map (· / (n : R))

/-- `SignalPowerSummary.save`, `diagnosticsummary.py:132-133`, with the sum `power` so far. -/
def oldPowerSave {R : Type} [Field R] (name : String) (chan : Option (List Int)) (n : Int) (power : Option R)
    (S : Sigs R) (c : Int × Int) : Except PyErr (Option R) :=
  match sigSelect S name chan c.1 c.2 with
  | .error x => .error x
  | .ok v => .ok (addNan power (oldPowerOf v n))

/-- All calls of `save` up to an export, starting from `power = 0`,
`diagnosticsummary.py:126,132-133`. -/
def oldPowerSaves {R : Type} [Field R] (name : String) (chan : Option (List Int)) (n : Int) :
    List (Sigs R × (Int × Int)) → Option R → Except PyErr (Option R)
  | [], p => .ok p
  | (S, c) :: l, p =>
    match oldPowerSave name chan n p S c with
    | .error x => .error x
    | .ok q => oldPowerSaves name chan n l q

/-- `SignalPowerRatioSummary`: `save` (both sums) and `get_output`,
`diagnosticsummary.py:100-107`.  A zero denominator (`nan` or infinity) is `none`. -/
def oldRatio {R : Type} [Field R] [DecidableEq R] (num den : String) (nchan dchan : Option (List Int)) (n : Int)
    (l : List (Sigs R × (Int × Int))) : Except PyErr (Option R) :=
  match oldPowerSaves num nchan n l (some 0), oldPowerSaves den dchan n l (some 0) with
  | .error x, _ => .error x
  | _, .error x => .error x
  | .ok (some a), .ok (some b) => .ok (if b = 0 then none else some (a / b))
  | .ok _, .ok _ => .ok none

/-- `mean_near_time_idx` for one output, `diagnosticsummary.py:22-31`: the rows of
`output[..., timeIdx - 3000 : timeIdx]`, `none` being `nan`; the result is the mean of the other
values, `none` (numpy: `nan`) if there are none. -/
def meanNear {R : Type} [Field R] (output : Mat (Option R)) (timeIdx : Int) : Option R :=
  let vals := (output.map fun r => (pySlice r (timeIdx - 3000) timeIdx).filterMap id).flatten
  if vals.length = 0 then none else some (vals.sum / vals.length)

/-- `mean_near_time_idx`, `diagnosticsummary.py:22-31`: the dictionary of the means. -/
def meanNearTimeIdx {R : Type} [Field R] (outputs : List (String × Mat (Option R))) (timeIdx : Int) :
    List (String × Option R) :=
  outputs.map fun p => (p.1, meanNear p.2 timeIdx)

/-- `add_to_summary`, `diagnosticsummary.py:8-20`, on the folder: `files` gives the dictionary in
`summary_<timeIdx>.json`, if there is such a file. -/
def addToSummary {V : Type} (files : Int → Option (String → Option V)) (diag : String) (vals : V) (timeIdx : Int) :
    Int → Option (String → Option V) :=
  let old : String → Option V := (files timeIdx).getD fun _ => none
  fun t => if t = timeIdx then some (fun k => if k = diag then some vals else old k) else files t

end Verif

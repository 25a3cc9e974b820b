/-
Model of the logger and its counters, `src/aspsim/diagnostics/core.py:52-242`.
The diagnostic classes themselves (`save`, `get_processed_output`) are a
parameter here (`DiagOps`), see `Model/Diagnostics.lean` for the real ones.
-/
import Verif.Model.PyErr
import Verif.Model.PySlice
namespace Verif

/-- A `(channels, time)` array.
(`simulator.py:378-394`.) -/
abbrev Mat (R : Type) := List (List R)

/-- The dictionary inside `Signals` (`simulator.py:347-405`): name to 2-D array.
Signals of more than two dimensions are not modelled. -/
abbrev Sigs (R : Type) := String → Option (Mat R)

/-! ### IntervalCounter, `core.py:162-215` -/

/-- State of an `IntervalCounter`.  `none` is `np.inf`; `rest` is what the
iterator `self.intervals` still holds.
(`diagnostics/core.py:162-187`.) -/
structure IvCounter where
  start : Option Int
  stop : Option Int
  rest : List (Int × Int)
  savedUntil : Int
  deriving DecidableEq, Repr

/-- `next(self.intervals, (np.inf, np.inf))`.
(`diagnostics/core.py:210-217`.) -/
def IvCounter.next (rest : List (Int × Int)) (saved : Int) : IvCounter :=
  match rest with
  | [] => ⟨none, none, [], saved⟩
  | (a, b) :: r => ⟨some a, some b, r, saved⟩

/-- `IntervalCounter.__init__`, `core.py:163-185`, for intervals or an iterator
of intervals. -/
def IvCounter.init (ivs : List (Int × Int)) : IvCounter := IvCounter.next ivs 0

/-- `IntervalCounter.__init__` for a list of indices, `core.py:175-177`. -/
def IvCounter.initIdx (idxs : List Int) : IvCounter := IvCounter.init (idxs.map fun i => (i - 1, i))

/-- `progress`, `core.py:210-215`. -/
def IvCounter.progress (c : IvCounter) (u : Int) : Except PyErr IvCounter :=
  match c.stop with
  | none => .ok { c with savedUntil := u, start := some u }
  | some e =>
    if e < u then .error .assertion
    else if u = e then .ok (IvCounter.next c.rest u)
    else .ok { c with savedUntil := u, start := some u }

/-! ### IndexCounter, `core.py:220-242` -/

/-- State of an `IndexCounter`; `up = none` is `np.inf`.
(`diagnostics/core.py:220-236`.) -/
structure IxCounter where
  up : Option Int
  rest : List Int
  deriving DecidableEq, Repr

/-- `next(self.idx_selection, np.inf)`.
(`diagnostics/core.py:221-242`.) -/
def IxCounter.init : List Int → IxCounter
  | [] => ⟨none, []⟩
  | a :: r => ⟨some a, r⟩

/-- `progress`, `core.py:238-239`. -/
def IxCounter.progress (c : IxCounter) : IxCounter := IxCounter.init c.rest

/-- Python `range(a, b, s)` for `s ≥ 1`.
(`diagnostics/core.py:189-197,221-236`.) -/
def pyRange (a b : Int) (s : Nat) : List Int :=
  (List.range ((b - a + s - 1) / s).toNat).map fun (k : Nat) => a + k * s

/-- `IndexCounter.__init__` for a scalar frequency, `core.py:229-234`
(`range` with step 0 raises). -/
def IxCounter.ofFreq (f : Nat) (tot : Nat) : Except PyErr IxCounter :=
  if f = 0 then .error .value else .ok (IxCounter.init (pyRange f (tot + 1) f))

/-! ### Diagnostics and Logger -/

/-- The methods of a diagnostic class: `save(processor, sig, chunk_interval,
glob_interval)` and the data handed to the export function for a time index
(`get_processed_output`).  One export hands over one output here; preprocessing and
several export functions per diagnostic are in `Model/Plot.lean`.
(`diagnostics/core.py:319-338`.) -/
structure DiagOps (R P D O : Type) where
  save : D → Option P → Sigs R → Int × Int → Int × Int → Except PyErr D
  output : D → Int → Except PyErr O

/-- A diagnostic object: name, `save_at`, `export_at` and class data.
(`diagnostics/core.py:255-306`.) -/
structure Diag (D : Type) where
  name : String
  saveAt : IvCounter
  exportAt : IxCounter
  data : D

/-- One call of an export function: diagnostic, time index, data.
(`diagnostics/core.py:130-146`.) -/
structure Event (O : Type) where
  diag : String
  time : Int
  out : O
  deriving DecidableEq, Repr

/-- Body of the loop in `Logger.save_data`, `core.py:83-97`. -/
def saveOne {R P D O : Type} (ops : DiagOps R P D O) (proc : Option P) (sig : Sigs R)
    (idx glob : Int) (last : Bool) (d : Diag D) : Except PyErr (Diag D) :=
  match d.saveAt.start, d.saveAt.stop with
  | some s, some e =>
    if glob ≥ e then
      let endL := idx - (glob - e) - 1
      let startL := endL - (e - s)
      match ops.save d.data proc sig (startL, endL) (s, e) with
      | .error x => .error x
      | .ok data =>
        match d.saveAt.progress e with
        | .error x => .error x
        | .ok c => .ok { d with data := data, saveAt := c }
    else if last && decide (glob > s) then
      let endL := idx - 1
      let startL := idx - (glob - s) - 1
      match ops.save d.data proc sig (startL, endL) (s, glob) with
      | .error x => .error x
      | .ok data =>
        match d.saveAt.progress glob with
        | .error x => .error x
        | .ok c => .ok { d with data := data, saveAt := c }
    else .ok d
  | some s, none =>
    if last && decide (glob > s) then
      match ops.save d.data proc sig (idx - (glob - s) - 1, idx - 1) (s, glob) with
      | .error x => .error x
      | .ok data =>
        match d.saveAt.progress glob with
        | .error x => .error x
        | .ok c => .ok { d with data := data, saveAt := c }
    else .ok d
  | none, _ => .ok d

/-- `Logger.save_data`, `core.py:83-97`. -/
def saveData {R P D O : Type} (ops : DiagOps R P D O) (proc : Option P) (sig : Sigs R)
    (idx glob : Int) (last : Bool) (ds : List (Diag D)) : Except PyErr (List (Diag D)) :=
  ds.mapM (saveOne ops proc sig idx glob last)

/-- Is the diagnostic listed by `export_this_idx`, `core.py:109-115`? -/
def Diag.ready {D : Type} (d : Diag D) : Bool :=
  match d.exportAt.up with
  | none => false
  | some e => decide (e ≤ d.saveAt.savedUntil)

/-- `export_single_diag`, `core.py:130-145`, for a diagnostic listed by
`export_this_idx`; other diagnostics are left alone. -/
def exportOne {R P D O : Type} (ops : DiagOps R P D O) (d : Diag D) :
    Except PyErr (Diag D × List (Event O)) :=
  if d.ready then
    match d.exportAt.up with
    | none => .error .typeErr
    | some e =>
      match ops.output d.data e with
      | .error x => .error x
      | .ok o => .ok ({ d with exportAt := d.exportAt.progress }, [Event.mk d.name e o])
  else .ok (d, [])

/-- One round of the inner loop of `dispatch`, `core.py:156-158`: every ready
diagnostic is exported once and its `export_at` advanced. -/
def exportRound {R P D O : Type} (ops : DiagOps R P D O) :
    List (Diag D) → Except PyErr (List (Diag D) × List (Event O))
  | [] => .ok ([], [])
  | d :: ds =>
    match exportOne ops d with
    | .error x => .error x
    | .ok (d', ev) =>
      match exportRound ops ds with
      | .error x => .error x
      | .ok (ds', evs) => .ok (d' :: ds', ev ++ evs)

/-- The `while` loop of `dispatch`, `core.py:155-158`; `fuel` bounds the number
of rounds, see `dispatch`. -/
def dispatchLoop {R P D O : Type} (ops : DiagOps R P D O) :
    Nat → List (Diag D) → List (Event O) → Except PyErr (List (Diag D) × List (Event O))
  | 0, ds, log => if ds.any Diag.ready then .error .diverges else .ok (ds, log)
  | fuel + 1, ds, log =>
    if ds.any Diag.ready then
      match exportRound ops ds with
      | .error x => .error x
      | .ok (ds', evs) => dispatchLoop ops fuel ds' (log ++ evs)
    else .ok (ds, log)

/-- Number of exports a diagnostic still has in its list.
(`diagnostics/core.py:220-252`.) -/
def IxCounter.remaining (c : IxCounter) : Nat :=
  match c.up with
  | none => 0
  | some _ => c.rest.length + 1

/-- `Logger.dispatch`, `core.py:148-159`.  The fuel is the total number of
remaining exports, which every round decreases (`dispatchLoop_enough`).
`upcoming_export` (`update_next_export`) is never read and left out. -/
def dispatch {R P D O : Type} (ops : DiagOps R P D O) (plotNone : Bool) (ds : List (Diag D))
    (log : List (Event O)) : Except PyErr (List (Diag D) × List (Event O)) :=
  if plotNone then .ok (ds, log)
  else dispatchLoop ops ((ds.map fun d => d.exportAt.remaining).sum) ds log

end Verif

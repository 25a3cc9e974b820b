/-
Model of `src/aspsim/counter.py`.
-/
import Verif.Model.PyErr
namespace Verif

/-! ### PhaseCounter, `counter.py:7-87` -/

/-- Normalised phase length, `counter.py:46`: `i if i >= 0 else np.inf`.
A length is an integer or `np.inf` (`none`); the result `none` is `np.inf`. -/
def phaseLen : Option Int → Option Nat
  | none => none
  | some i => if i ≥ 0 then some i.toNat else none

/-- Addition with `np.inf`.
(`counter.py:46-55`.) -/
def addInf (a b : Option Nat) : Option Nat :=
  match a, b with
  | some x, some y => some (x + y)
  | _, _ => none

/-- `start_idxs`, `counter.py:48-50`: `0` followed by the cumulative sums.
(The last entry is paired with the name `None` or dropped, lines 52-58; the
dictionary of line 58 has the phases in order, keys are distinct.) -/
def startIdxs : Option Nat → List (Option Nat) → List (Option Nat)
  | acc, [] => [acc]
  | acc, l :: ls => acc :: startIdxs (addInf acc l) ls

/-- State of a `PhaseCounter`.  `names`/`starts` are `_phase_names` and
`_start_idxs`; a start of `none` is `np.inf`.
(`counter.py:34-64`.) -/
structure PhaseSt where
  phase : Option String
  first : Bool
  idx : Nat
  names : List String
  starts : List (Option Nat)
  deriving DecidableEq, Repr

/-- `phase_len > 0` for a normalised length.
(`counter.py:46-50`.) -/
def posLen : Option Nat → Bool
  | none => true
  | some n => n > 0

/-- `next_phase`, `counter.py:66-74`; popping from an empty list raises. -/
def PhaseSt.nextPhase (s : PhaseSt) : Except PyErr PhaseSt :=
  match s.names with
  | [] => .error .index
  | nm :: names =>
    match s.starts with
    | [] => .error .index
    | _ :: starts =>
      .ok { s with phase := some nm, names := names, first := true
                   starts := if starts.length = 0 then [none] else starts }

/-- `PhaseCounter.__init__`, `counter.py:34-64`. -/
def PhaseSt.init (lens : List (String × Option Int)) : Except PyErr PhaseSt :=
  let lens' := lens.map fun q => (q.1, phaseLen q.2)
  let starts := startIdxs (some 0) (lens'.map (·.2))
  let kept := (lens'.zip starts).filter fun q => posLen q.1.2
  PhaseSt.nextPhase
    { phase := none, first := true, idx := 0
      names := kept.map fun q => q.1.1
      starts := kept.map fun q => q.2 }

/-- `progress`, `counter.py:79-84`. -/
def PhaseSt.progress (s : PhaseSt) : Except PyErr PhaseSt :=
  let s' := { s with idx := s.idx + 1 }
  match s'.starts with
  | [] => .error .index
  | none :: _ => .ok { s' with first := false }
  | some b :: _ => if s'.idx ≥ b then s'.nextPhase else .ok { s' with first := false }

/-- `n` calls of `progress` on a fresh counter.
(`counter.py:79-84`.) -/
def phaseAfter (lens : List (String × Option Int)) : Nat → Except PyErr PhaseSt
  | 0 => PhaseSt.init lens
  | n + 1 =>
    match phaseAfter lens n with
    | .error e => .error e
    | .ok s => s.progress

/-! ### EventCounter, `counter.py:91-129` -/

/-- State of an `EventCounter`; `event_def` is an insertion-ordered dictionary
`name : (freq, offset)`.
(`counter.py:109-116`.) -/
structure EventSt where
  defs : List (String × Int × Int)
  event : List String
  idx : Int
  deriving DecidableEq, Repr

/-- Assignment to an insertion-ordered dictionary.
(`counter.py:118-119`.) -/
def dictSet {α : Type} (d : List (String × α)) (k : String) (v : α) : List (String × α) :=
  if d.any (fun q => q.1 == k) then d.map fun q => if q.1 == k then (k, v) else q
  else d ++ [(k, v)]

/-- `EventCounter.__init__`, `counter.py:109-116`. -/
def EventSt.init (defs : List (String × Int × Int)) : EventSt :=
  { defs := defs, event := [], idx := 0 }

/-- `add_event`, `counter.py:118-119`. -/
def EventSt.add (s : EventSt) (name : String) (freq offset : Int) : EventSt :=
  { s with defs := dictSet s.defs name (freq, offset) }

/-- The loop of `_check_events`, `counter.py:121-125`. -/
def checkEvents (idx : Int) : List (String × Int × Int) → List String → Except PyErr (List String)
  | [], acc => .ok acc
  | (name, freq, offset) :: rest, acc =>
    if freq = 0 then .error .zeroDivision
    else checkEvents idx rest (if (idx - offset).fmod freq = 0 then acc ++ [name] else acc)

/-- `progress`, `counter.py:127-129`. -/
def EventSt.progress (s : EventSt) : Except PyErr EventSt :=
  match checkEvents (s.idx + 1) s.defs [] with
  | .error e => .error e
  | .ok ev => .ok { s with idx := s.idx + 1, event := ev }

/-- The two mutating calls a user can make.
(`counter.py:118-129`.) -/
inductive EventOp
  | progress
  | add (name : String) (freq offset : Int)

/-- Runs a sequence of calls.
(`counter.py:118-129`.) -/
def EventSt.run : EventSt → List EventOp → Except PyErr EventSt
  | s, [] => .ok s
  | s, .progress :: ops =>
    match s.progress with
    | .error e => .error e
    | .ok s' => s'.run ops
  | s, .add n f o :: ops => (s.add n f o).run ops

end Verif

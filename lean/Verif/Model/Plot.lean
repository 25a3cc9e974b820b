/-
Model of the data handling in `src/aspsim/diagnostics/plot.py` and
`src/aspsim/diagnostics/soundfieldplot.py` (legends, audio files, sound field
images), of `src/aspsim/diagnostics/preprocessing.py` and of the export settings in
`src/aspsim/diagnostics/core.py`.  The drawing itself is not modelled.
-/
import Verif.Model.Fill
import Verif.Model.Session
namespace Verif

/-! ### Legends -/

/-- `label.replace("_", "\_")`.
(`plot.py:197`.) -/
def escapeUnderscore (label : List Char) : List Char :=
  label.flatMap fun c => if c = '_' then ['\\', '_'] else [c]

/-- The loop of `legend_without_duplicates`, `plot.py:195-198`; `shown` is the list of
the new handles and labels. -/
def legendLoop {H : Type} : List (H × List Char) → List (H × List Char) → List (H × List Char)
  | [], shown => shown
  | (h, label) :: rest, shown =>
    if label ∈ shown.map Prod.snd then legendLoop rest shown
    else legendLoop rest (shown ++ [(h, escapeUnderscore label)])

/-- `legend_without_duplicates`, `plot.py:192-200`: the handles and labels given to
`ax.legend`. -/
def legendEntries {H : Type} (entries : List (H × List Char)) : List (H × List Char) := legendLoop entries []

/-! ### Audio files -/

section
variable {F : Type} [Field F] [LinearOrder F]

/-- `np.max(np.abs(signal))`; raises without entries.
(`plot.py:345`.) -/
def peak (signal : List (List F)) : Except PyErr F :=
  match signal.flatten with
  | [] => .error .value
  | a :: l => .ok (l.foldl (fun m b => max m |b|) |a|)

/-- `ramp_length`, `plot.py:348`; the factors 0.2 and 0.1 exactly. -/
def rampLength (samplerate len : Nat) : Nat := min (samplerate / 5) (len / 10)

/-- `signal_to_write[:, :ramp_length] *= ramp` for one channel, `plot.py:351`. -/
def fadeIn (ramp : List F) (x : List F) : List F :=
  ((x.take ramp.length).zip ramp).map (fun p => p.1 * p.2) ++ x.drop ramp.length

/-- `signal_to_write[:, -ramp_length:] *= (1 - ramp)` for one channel, `plot.py:352`. -/
def fadeOut (ramp : List F) (x : List F) : List F :=
  x.take (x.length - ramp.length) ++
    ((x.drop (x.length - ramp.length)).zip ramp).map fun p => p.1 * (1 - p.2)

/-- The samples that `create_audio_files` writes for one diagnostic, `plot.py:345-354`;
`none` stands for the result `nan` of 0/0.  All channels have the same length. -/
def audioSamples (samplerate : Nat) (signal : List (List F)) : Except PyErr (List (List (Option F))) :=
  match peak signal with
  | .error x => .error x
  | .ok m =>
    let len := (signal.headD []).length
    let ramp := linspace (0 : F) 1 (rampLength samplerate len)
    if m = 0 then .ok (signal.map fun row => row.map fun _ => none)
    else
      .ok (signal.map fun row =>
        let scaled := row.map fun v => v / m
        (if 0 < rampLength samplerate len then fadeOut ramp (fadeIn ramp scaled) else scaled).map some)

end

/-! ### Sound field images -/

section
variable {F : Type} [Field F] [LinearOrder F] [FloorRing F]

/-- `np.rint`: the nearest whole number, the even one of two.
(`soundfieldplot.py:101-102,132-133`.) -/
def rint (x : F) : Int :=
  if x - ⌊x⌋ < 1 / 2 then ⌊x⌋
  else if 1 / 2 < x - ⌊x⌋ then ⌊x⌋ + 1
  else if ⌊x⌋ % 2 = 0 then ⌊x⌋ else ⌊x⌋ + 1

/-- `x.round(decimals)`.
(`soundfieldplot.py:101-102,132-133`.) -/
def roundDec (decimals : Nat) (x : F) : F := (rint (x * 10 ^ decimals) : F) / 10 ^ decimals

/-- `np.unique`: the different values in increasing order.
(`soundfieldplot.py:101-102,132-133`.) -/
def npUnique (l : List F) : List F := l.dedup.mergeSort fun a b => decide (a ≤ b)

/-- `row_indices[row_permutation]`, `soundfieldplot.py:137-139`, for the row at `y`. -/
def rowIndices (decimals : Nat) (pos : List (Pt F)) (y : F) : List Nat :=
  (((List.range pos.length).filter fun k =>
    decide (|((pos[k]?).map Pt.y).getD 0 - y| < 1 / 10 ^ decimals))).mergeSort fun a b =>
      decide (((pos[a]?).map Pt.x).getD 0 ≤ ((pos[b]?).map Pt.x).getD 0)

/-- The assignment `sort_indices[i,:] = ...`, `soundfieldplot.py:139`, to a row with
`num` entries: a single index is repeated, another number of indices raises. -/
def assignRow (num : Nat) (idx : List Nat) : Except PyErr (List Nat) :=
  if idx.length = num then .ok idx
  else
    match idx with
    | [a] => .ok (List.replicate num a)
    | _ => .error .value

/-- The loop over the rows, `soundfieldplot.py:136-139`. -/
def sortIndices (decimals : Nat) (pos : List (Pt F)) (num : Nat) : List F → Except PyErr (List (List Nat))
  | [] => .ok []
  | y :: ys =>
    match assignRow num (rowIndices decimals pos y) with
    | .error x => .error x
    | .ok r =>
      match sortIndices decimals pos num ys with
      | .error x => .error x
      | .ok rs => .ok (r :: rs)

/-- Indexing with an array of indices, `soundfieldplot.py:141,147`; an index out of
range raises. -/
def gather {V : Type} (l : List V) : List Nat → Except PyErr (List V)
  | [] => .ok []
  | k :: ks =>
    match l[k]? with
    | none => .error .index
    | some v =>
      match gather l ks with
      | .error x => .error x
      | .ok vs => .ok (v :: vs)

/-- The same with a two-dimensional array of indices, `soundfieldplot.py:141,147`. -/
def gatherRows {V : Type} (l : List V) : List (List Nat) → Except PyErr (List (List V))
  | [] => .ok []
  | r :: rs =>
    match gather l r with
    | .error x => .error x
    | .ok v =>
      match gatherRows l rs with
      | .error x => .error x
      | .ok vs => .ok (v :: vs)

/-- The check of the third coordinates, `soundfieldplot.py:128-129`; `pos` either has
two or three columns, and an empty array counts as two-dimensional. -/
def samePlane (pos : List (Pt F)) : Bool :=
  match pos with
  | [] => true
  | p :: _ =>
    match p.z with
    | none => true
    | some z0 => pos.all fun q => isClose (q.z.getD 0) z0

/-- `sort_for_imshow`, `soundfieldplot.py:108-156`; a signal value per position of any
type.  `np.argsort` is a stable sort. -/
def sortForImshow {V : Type} (decimals : Nat) (pos : List (Pt F)) (sig : List V) :
    Except PyErr (List (List (Pt F)) × List (List V)) :=
  if samePlane pos = false then .error .assertion
  else
    let numCols := (npUnique (pos.map fun p => roundDec decimals p.x)).length
    let uniqueY := npUnique (pos.map fun p => roundDec decimals p.y)
    match sortIndices decimals pos numCols uniqueY with
    | .error x => .error x
    | .ok idx =>
      match gatherRows pos idx with
      | .error x => .error x
      | .ok posSorted =>
        match gatherRows sig idx with
        | .error x => .error x
        | .ok sigRows => .ok (posSorted, sigRows.reverse)

end

/-! ### Export settings -/

/-- The argument `export_func`: one name or a list of names.
(`core.py:286-288`.) -/
inductive FuncArg (N : Type)
  | one (n : N)
  | many (l : List N)

/-- The argument `export_kwargs`: nothing, one dictionary, or a list.
(`core.py:290-295`.) -/
inductive KwArg (K : Type)
  | none
  | one (k : K)
  | many (l : List K)

/-- An entry of the list `preprocess`: a function or a list of functions.
(`core.py:301`.) -/
inductive PreItem (T : Type)
  | fn (f : T)
  | list (l : List T)

/-- The argument `preprocess`: nothing, one function, or a list.
(`core.py:297-301`.) -/
inductive PreArg (T : Type)
  | none
  | one (f : T)
  | many (l : List (PreItem T))

/-- Looking up the export functions, `core.py:288`; an unknown name raises. -/
def lookupFuncs {N Fn : Type} (table : N → Option Fn) : List N → Except PyErr (List Fn)
  | [] => .ok []
  | n :: ns =>
    match table n with
    | .none => .error .key
    | some f =>
      match lookupFuncs table ns with
      | .error x => .error x
      | .ok fs => .ok (f :: fs)

/-- The export settings of a diagnostic, `core.py:286-302`, as the list of triples
`zip(exp_funcs, exp_kwargs, preproc)` of `core.py:141`. -/
def exportSettings {N Fn K T : Type} (table : N → Option Fn) (emptyKw : K) (funcs : FuncArg N) (kws : KwArg K)
    (pre : PreArg T) : Except PyErr (List (Fn × K × List T)) :=
  let names := match funcs with | .one n => [n] | .many l => l
  match lookupFuncs table names with
  | .error x => .error x
  | .ok fs =>
    let kwargs := match kws with | .none => [emptyKw] | .one k => [k] | .many l => l
    if kwargs.length ≠ fs.length then .error .assertion
    else
      let prep := match pre with
        | .none => (List.range fs.length).map fun _ => []
        | .one f => [[f]]
        | .many l => l.map fun | .fn f => [f] | .list fl => fl
      if prep.length ≠ fs.length then .error .assertion
      else .ok (fs.zip (kwargs.zip prep))

/-- `for pp in preprocess: output = pp(output)`, `core.py:336-337,371-372,406-407`. -/
def preprocessed {O : Type} (output : O) (pre : List (O → O)) : O := pre.foldl (fun o f => f o) output

/-- One call of an export function by `export_single_diag`, `core.py:141-142`: the
function, its keyword arguments, the time index and what `get_processed_output`
returns for its preprocessing functions. -/
def exportCalls {Fn K O : Type} (settings : List (Fn × K × List (O → O))) (time : Int) (output : O) :
    List (Fn × K × Int × O) :=
  settings.map fun s => (s.1, s.2.1, time, preprocessed output s.2.2)

/-! ### Preprocessing functions -/

section
variable {F : Type} [Field F]

/-- `smooth(smooth_len)` for one channel, `preprocessing.py:47-51`: full convolution with
`smooth_len` entries `1 / smooth_len`, cut to the length of the signal. -/
def smoothRow (q : Nat) (x : List F) : List F :=
  (List.range x.length).map fun n =>
    ((List.range q).map fun k => if k ≤ n then (1 / (q : F)) * x.getD (n - k) 0 else 0).sum

/-- `clip(low_lim, high_lim)` for one channel, `preprocessing.py:41-44`; `np.clip` is
`minimum(high, maximum(x, low))`. -/
def clipRow [LinearOrder F] (lo hi : F) (x : List F) : List F := x.map fun v => min hi (max v lo)

end

/-! ### What export functions accept -/

/-- What `get_processed_output` returns: a pair of values and time indices (signal and
state diagnostics), or a plain array.
(`core.py:332-338,369-373,404-408`.) -/
inductive OutShape | pair | array
  deriving DecidableEq

/-- What the named export functions of a signal diagnostic do with what
`get_processed_output` returns (`core.py:342-348`): `plot` unpacks a pair
(`plot.py:155`), `npz`, `text` and `wav` take the first entry of a pair
(`plot.py:207-208,222-223,319-320`), `spectrum` uses the attribute `shape`
(`plot.py:367-368`), which a pair does not have. -/
def signalExport (fn : ExportFn) (s : OutShape) : Except PyErr Unit :=
  match fn, s with
  | .plot, .pair => .ok ()
  | .plot, .array => .error .value
  | .npz, _ => .ok ()
  | .text, _ => .ok ()
  | .wav, _ => .ok ()
  | .spectrum, .array => .ok ()
  | .spectrum, .pair => .error .attribute
  | _, _ => .error .key

end Verif

/-
Model of `src/aspsim/fileutilities.py` and of the file handling of
`savenpz` in `src/aspsim/diagnostics/plot.py`.

Names are lists of characters; only ASCII digits are digits (Python's
`str.isdigit` also accepts other Unicode digits, not modelled).  A folder is
the list of the names of its entries.
-/
import Verif.Model.PyErr
namespace Verif

/-- `fileutilities.py:6-110`. -/
abbrev Name := List Char

/-- `str(n)` for a non-negative integer.
(`fileutilities.py:26-54`.) -/
def pyStr (n : Nat) : Name := Nat.toDigits 10 n

/-- `s.isdigit()`: non-empty and all characters are digits.
(`fileutilities.py:86,102`.) -/
def isDigitStr (s : Name) : Bool := !s.isEmpty && s.all Char.isDigit

/-- `int(s)` for a string of digits.
(`fileutilities.py:46,87,108`.) -/
def digitVal (s : Name) : Nat := Nat.ofDigitChars 10 s 0

/-! ### unique folder names, `fileutilities.py:26-54` -/

/-- The loop `fileutilities.py:33-36`; `base` is `folder_name.name[:len-2]`,
which does not change during the loop.  `fuel` bounds the number of loop
tests. -/
def uniqueLoop (files : List Name) (base : Name) : Nat → Name → Nat → Option Name
  | 0, _, _ => none
  | fuel + 1, cur, idx =>
    if cur ∈ files then uniqueLoop files base fuel (base ++ ['_'] ++ pyStr idx) (idx + 1)
    else some cur

/-- `get_unique_folder_name`, `fileutilities.py:26-38`, for a given time
string. -/
def uniqueFolder (fuel : Nat) (pre time : Name) (files : List Name) : Option Name :=
  let fileName := pre ++ time ++ ['_', '0']
  if fileName ∈ files then
    uniqueLoop files (fileName.take (fileName.length - 2)) fuel fileName 1
  else some fileName

/-- `s.split("_")[-1]`.
(`fileutilities.py:46-47`.) -/
def lastUnderscorePart (s : Name) : Name := (s.reverse.takeWhile (· ≠ '_')).reverse

/-- `get_multiple_unique_folder_names`, `fileutilities.py:41-54`, given the
result `start` of `get_unique_folder_name`. -/
def multipleUnique (start : Name) (numNames : Nat) : List Name :=
  let part := lastUnderscorePart start
  let startIdx := digitVal part
  let baseName := start.take (start.length - part.length)
  (List.range numNames).map fun i => baseName ++ pyStr (i + startIdx)

/-! ### numbered files, `fileutilities.py:57-110` -/

/-- Digits separated by single underscores, the digit part accepted by
Python's `int(str)`.
(`fileutilities.py:46,63`.) -/
def intDigits : Name → Option Name
  | [] => none
  | [c] => if c.isDigit then some [c] else none
  | c :: '_' :: rest => if c.isDigit then (intDigits rest).map (c :: ·) else none
  | c :: rest => if c.isDigit then (intDigits rest).map (c :: ·) else none

/-- ASCII white space removed by `int(str)`.
(`fileutilities.py:46,63`.) -/
def isWs (c : Char) : Bool := c = ' ' || c = '\t' || c = '\n' || c = '\r'

/-- `int(s)`: surrounding white space, an optional sign, digits with single
underscores.  `none` is `ValueError`.
(`fileutilities.py:46,63`.) -/
def pyInt (s : Name) : Option Int :=
  let t := ((s.dropWhile isWs).reverse.dropWhile isWs).reverse
  match t with
  | '-' :: r => (intDigits r).map fun d => -(digitVal d : Int)
  | '+' :: r => (intDigits r).map fun d => (digitVal d : Int)
  | r => (intDigits r).map fun d => (digitVal d : Int)

/-- The loop of `get_highest_numbered_file`, `fileutilities.py:58-67`. -/
def highestLoop (pre suf : Name) : List Name → Int → Int
  | [], h => h
  | f :: fs, h =>
    if pre.isPrefixOf f && suf.isSuffixOf f then
      -- Python slice `[len(prefix) : len(name)-len(suffix)]`
      match pyInt ((f.take (f.length - suf.length)).drop pre.length) with
      | some i => highestLoop pre suf fs (if i > h then i else h)
      | none => highestLoop pre suf fs h
    else highestLoop pre suf fs h

/-- `get_highest_numbered_file`, `fileutilities.py:57-73`. -/
def highestNumbered (pre suf : Name) (files : List Name) : Option Name :=
  let h := highestLoop pre suf files (-1)
  if h = -1 then none else some (pre ++ pyStr h.toNat ++ suf)

/-- Position of the last `'.'`, `name.rfind(".")`.
(`fileutilities.py:86-87`.) -/
def rfindDot (f : Name) : Option Nat :=
  let r := f.reverse.takeWhile (· ≠ '.')
  if r.length < f.length then some (f.length - 1 - r.length) else none

/-- `pathlib.PurePath.stem`: the name without its last suffix.
(`fileutilities.py:86-87`.) -/
def pathStem (f : Name) : Name :=
  match rfindDot f with
  | some i => if 0 < i ∧ i < f.length - 1 then f.take i else f
  | none => f

/-- `pathlib.PurePath.suffix`.
(`fileutilities.py:76-97`.) -/
def pathSuffix (f : Name) : Name :=
  match rfindDot f with
  | some i => if 0 < i ∧ i < f.length - 1 then f.drop i else []
  | none => []

/-- The loop of `find_all_earlier_files`, `fileutilities.py:84-96`. -/
def earlierLoop (name : Name) (cur : Nat) (errorIfFuture : Bool) :
    List Name → List Name → Except PyErr (List Name)
  | [], acc => .ok acc
  | f :: fs, acc =>
    let st := pathStem f
    if name.isPrefixOf st && isDigitStr (st.drop name.length) then
      let fIdx := digitVal (st.drop name.length)
      if fIdx > cur then
        if errorIfFuture then .error .value else earlierLoop name cur errorIfFuture fs acc
      else if fIdx = cur then earlierLoop name cur errorIfFuture fs acc
      else earlierLoop name cur errorIfFuture fs (acc ++ [f])
    else earlierLoop name cur errorIfFuture fs acc

/-- `find_all_earlier_files`, `fileutilities.py:76-96`. -/
def findAllEarlier (files : List Name) (name : Name) (cur : Nat) (nameIncludesIdx errorIfFuture : Bool) :
    Except PyErr (List Name) :=
  let base := if nameIncludesIdx then name.take (name.length - (pyStr cur).length) else name ++ ['_']
  earlierLoop base cur errorIfFuture files []

/-- `find_index_in_name`, `fileutilities.py:99-110`; the outer `Except` is the
final assertion. -/
def findIndexInName (name : Name) : Except PyErr (Option Nat) :=
  let ds := name.reverse.takeWhile Char.isDigit
  if ds.length = 0 then .ok none
  else
    let idx := digitVal ds.reverse
    if (pyStr idx).isSuffixOf name then .ok (some idx) else .error .assertion

/-! ### exported files, `diagnostics/plot.py:203-218` -/

/-- The file written by `np.savez_compressed(folder/f"{name}_{time_idx}")`
(numpy appends `.npz`).
(`diagnostics/plot.py:212`.) -/
def npzName (name : Name) (t : Nat) : Name := name ++ ['_'] ++ pyStr t ++ ['.', 'n', 'p', 'z']

/-- `savenpz`, `diagnostics/plot.py:203-218`: writes the file, then with
`keep_only_last_export` deletes the earlier `.npz` files of the series.  The
folder is the list of names; contents are not modelled here. -/
def saveNpz (name : Name) (t : Nat) (keepOnlyLast : Bool) (files : List Name) :
    Except PyErr (List Name) :=
  let files' := if npzName name t ∈ files then files else files ++ [npzName name t]
  if keepOnlyLast then
    match findAllEarlier files' name t false true with
    | .error e => .error e
    | .ok earlier =>
      .ok (files'.filter fun f => !(earlier.contains f && pathSuffix f == ['.', 'n', 'p', 'z']))
  else .ok files'

/-- The export functions of signal, state and instant diagnostics
(`diagnostics/core.py:342-348,377-380,412-417`, `soundfield` of
`diagnostics/diagnostics.py`). -/
inductive ExportFn | plot | npz | text | wav | spectrum | plotIr | matshow | soundfield
  deriving DecidableEq, Repr

/-- `sim_info.plot_output` settings that write files directly into the folder
(`diagnostics/plot.py:80-110`). -/
inductive PrintMethod | pdf | svg
  deriving DecidableEq, Repr

/-- The file each export function writes for the diagnostic `name` at export
index `t`: `output_plot(print_method, folder, f"{name}_{time_idx}")`
(`diagnostics/plot.py:175,257,299,315,384`), `savenpz` (line 212), `txt`
(line 227), `create_audio_files` (lines 333-335; the "processor name" is the
diagnostic name, `diagnostics/core.py:131`). -/
def exportName (fn : ExportFn) (pm : PrintMethod) (name : Name) (t : Nat) : Name :=
  let base := name ++ ['_'] ++ pyStr t
  match fn with
  | .npz => npzName name t
  | .text => base ++ ['.', 'j', 's', 'o', 'n']
  | .wav => name ++ ['_'] ++ name ++ ['_'] ++ pyStr t ++ ['.', 'w', 'a', 'v']
  | .plot | .spectrum | .plotIr | .matshow | .soundfield =>
    match pm with
    | .pdf => base ++ ['.', 'p', 'd', 'f']
    | .svg => base ++ ['.', 's', 'v', 'g']

end Verif

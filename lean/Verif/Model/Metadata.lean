/-
The metadata files: `add_to_sim_metadata` and `write_processor_metadata`
(`src/aspsim/saveloadsession.py`), and those of the array collection (`src/aspsim/array.py`).
-/
import Verif.Model.PyErr
namespace Verif

/-- A Python dictionary with strings as keys, in insertion order; no key occurs twice.
(`saveloadsession.py:62-82`.) -/
abbrev PyDict (V : Type) := List (String × V)

/-- `d[k]`, or `none` if the key is missing.
(`saveloadsession.py:62-82`.) -/
def PyDict.get {V : Type} (d : PyDict V) (k : String) : Option V := (d.find? fun e => e.1 == k).map Prod.snd

/-- `d[k] = v`: replaces the value of an existing key, otherwise the key comes last.
(`saveloadsession.py:80`.) -/
def PyDict.put {V : Type} (d : PyDict V) (k : String) (v : V) : PyDict V :=
  if d.any (fun e => e.1 == k) then d.map fun e => if e.1 == k then (k, v) else e else d ++ [(k, v)]

/-- `{**old, **new}`.
(`saveloadsession.py:66`.) -/
def PyDict.merge {V : Type} (old new : PyDict V) : PyDict V := new.foldl (fun d e => d.put e.1 e.2) old

/-- A file that should contain a JSON object: it does not exist, it does contain one, or its text is
cut off and no JSON.  Values are those that `json.load` returns.
(`saveloadsession.py:64-70`.) -/
inductive JsonFile (J : Type)
  | missing
  | data (d : PyDict J)
  | broken

/-- `open(path, "w")` and `json.dump(d, f, indent=4)`: the file is emptied first, and a value that
JSON does not know raises after the values before it have been written, so that the text is cut
off.  `enc` gives what is read back for a value, and `none` for values that JSON does not know.
(`saveloadsession.py:69-70,81-82`, `array.py:79-80,86-87,93-94`.) -/
def dumpJson {V J : Type} (enc : V → Option J) (d : PyDict V) : JsonFile J × Option PyErr :=
  match d.mapM fun e => (enc e.2).map fun j => (e.1, j) with
  | some l => (.data l, none)
  | none => (.broken, some .typeErr)

/-- `add_to_sim_metadata`, `saveloadsession.py:62-70`: `dec` turns a value that was read into one that
can be written.  `json.load` of a text that is cut off raises a `ValueError`. -/
def addToSimMetadata {V J : Type} (enc : V → Option J) (dec : J → V) (f : JsonFile J) (new : PyDict V) :
    JsonFile J × Option PyErr :=
  match f with
  | .missing => dumpJson enc new
  | .broken => (.broken, some .value)
  | .data old => dumpJson enc (PyDict.merge (old.map fun e => (e.1, dec e.2)) new)

/-- Several calls, one after the other, until the first exception.
(`saveloadsession.py:62-70`.) -/
def addAllMetadata {V J : Type} (enc : V → Option J) (dec : J → V) : JsonFile J → List (PyDict V) → JsonFile J × Option PyErr
  | f, [] => (f, none)
  | f, d :: ds =>
    match addToSimMetadata enc dec f d with
    | (f', some e) => (f', some e)
    | (f', none) => addAllMetadata enc dec f' ds

/-- `write_processor_metadata`, `saveloadsession.py:73-82`: `procs` are the names and metadata of the
processors.  The same pattern is used for the metadata and the positions of the arrays,
`array.py:75-80,89-94`. -/
def writeProcessorMetadata {V J : Type} (enc : V → Option J) (folder : Bool) (f : JsonFile J) (procs : List (String × V)) :
    JsonFile J × Option PyErr :=
  if folder then dumpJson enc (procs.foldl (fun d p => PyDict.put d p.1 p.2) []) else (f, none)

end Verif

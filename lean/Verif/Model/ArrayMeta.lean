/-
The metadata of arrays, sources and paths, and the files `create_simulator` writes about them
(`src/aspsim/array.py`, `src/aspsim/signal/sources.py`).
-/
import Verif.Model.Metadata
namespace Verif

/-- The Python values in the metadata; `array` is a numpy array, which JSON does not know.  Numbers are
Python numbers, and not numpy integers; tuples are read back as lists.
(`signal/sources.py:24-25,101-104,139,161,193,232,407-409,441-442`, `array.py:533-538`.) -/
inductive PyVal
  | null
  | bool (b : Bool)
  | num (q : Rat)
  | str (s : String)
  | list (l : List PyVal)
  | dict (d : List (String × PyVal))
  | array (l : List Rat)

mutual
/-- Whether `json.dump` knows a value.
(`array.py:80`.) -/
def PyVal.json : PyVal → Bool
  | .array _ => false
  | .list l => PyVal.jsonAll l
  | .dict d => PyVal.jsonDict d
  | _ => true

/-- All elements are known.
(`array.py:80`.) -/
def PyVal.jsonAll : List PyVal → Bool
  | [] => true
  | v :: l => v.json && PyVal.jsonAll l

/-- All values are known.
(`array.py:80`.) -/
def PyVal.jsonDict : List (String × PyVal) → Bool
  | [] => true
  | e :: d => e.2.json && PyVal.jsonDict d
end

/-- What `json.load` returns for a value written by `json.dump`.
(`array.py:80`.) -/
def PyVal.enc (v : PyVal) : Option PyVal := if v.json then some v else none

/-- An argument that may be a number, a list or a numpy array.
(`signal/sources.py:97,122,212,399`.) -/
inductive NumArg
  | num (q : Rat)
  | list (l : List Rat)
  | array (l : List Rat)

/-- The argument itself as value, as for `frequency` and `frequency span`.
(`signal/sources.py:139,232`.) -/
def NumArg.raw : NumArg → PyVal
  | .num q => .num q
  | .list l => .list (l.map .num)
  | .array l => .array l

/-- `metadata["power"]`: an array is converted to a list.
(`signal/sources.py:101-104,135-138,228-231`.) -/
def NumArg.power : NumArg → PyVal
  | .num q => .num q
  | .list l => .list (l.map .num)
  | .array l => .list (l.map .num)

/-- The sources with the arguments that are in their metadata.  A polynomial is `None` or a list.
(`signal/sources.py:47,97,122,155,172,212,251,362,399,427`.) -/
inductive SourceInfo
  | white (ch : Nat) (power : NumArg)
  | sine (ch : Nat) (power freq : NumArg)
  | counter (start : Int)
  | multiSine (power : Rat) (freqs : List Rat)
  | band (ch : Nat) (power span : NumArg)
  | mls (order : Nat) (poly : Option (List Rat))
  | gold (ch : Nat) (power : List Rat) (order : Nat)
  | sequence (ch : Nat)
  | pulse (ch : Nat)
  | autocorr (ch : Nat)

/-- `num_channels`.
(`signal/sources.py:16`.) -/
def SourceInfo.channels : SourceInfo → Nat
  | .white ch _ | .sine ch _ _ | .band ch _ _ | .gold ch _ _ | .sequence ch | .pulse ch | .autocorr ch => ch
  | .counter _ | .multiSine _ _ | .mls _ _ => 1

/-- The attribute `metadata` of a source after its constructor.  That of `GoldSequenceSource` contains
the power as a column; `MultiSineSource` has converted its frequencies to an array.
(`signal/sources.py:23-24,101-104,135-139,161,176-193,228-232,407-409,437-442`.) -/
def SourceInfo.info (s : SourceInfo) : PyDict PyVal :=
  ("number of channels", PyVal.num s.channels) ::
    match s with
    | .white _ p => [("power", p.power)]
    | .sine _ p f => [("power", p.power), ("frequency", f.raw)]
    | .counter n => [("start number", .num n)]
    | .multiSine p f => [("power", .num p), ("frequency", .array f)]
    | .band _ p f => [("power", p.power), ("frequency span", f.raw)]
    | .mls o p => [("order", .num o), ("polynomial", match p with | none => .null | some l => .list (l.map .num)), ("start state", .null)]
    | .gold _ p o => [("power", .list (p.map fun q => .list [.num q])), ("order", .num o), ("sequence length", .num (2 ^ o - 1))]
    | .sequence _ | .pulse _ | .autocorr _ => []

/-- An array with its attribute `metadata`; `source` is `none` for arrays other than free sources.
(`array.py:489-538,615,656-659`.) -/
structure ArrObj where
  name : String
  cls : String
  num : Nat
  numGroups : Nat
  dynamic : Bool
  pos : List (List Rat)
  source : Option SourceInfo
  info : PyDict PyVal

/-- The constructors of the arrays, `array.py:489-538,592-615,655-659`; `region` is the class of the
region of a `RegionArray`. -/
def ArrObj.create (name cls : String) (pos : List (List Rat)) (numGroups : Nat) (dynamic : Bool) (region : Option String)
    (source : Option SourceInfo) : Except PyErr ArrObj :=
  let base : PyDict PyVal := [("type", .str cls), ("number", .num pos.length), ("number of groups", .num numGroups), ("dynamic", .bool dynamic)]
  let reg : PyDict PyVal := match region with
    | none => base
    | some r => base.put "region shape" (.str r)
  match source with
  | none => .ok ⟨name, cls, pos.length, numGroups, dynamic, pos, none, reg⟩
  | some s =>
    if s.channels = pos.length then
      .ok ⟨name, cls, pos.length, numGroups, dynamic, pos, some s, reg.put "source info" (.dict s.info)⟩
    else .error .assertion

/-- `set_source`, `array.py:668-670`, `simulator.py:137-152`. -/
def ArrObj.setSource (a : ArrObj) (s : SourceInfo) : Except PyErr ArrObj :=
  if s.channels = a.num then .ok { a with source := some s } else .error .assertion

/-- `set_groups`, `array.py:540-551`. -/
def ArrObj.setGroups (a : ArrObj) (groups : List (List Nat)) : ArrObj := { a with numGroups := groups.length }

/-- A pair of arrays with the type of its path and the metadata of the image-source method.
(`array.py:248-261`.) -/
structure PairInfo where
  src : String
  mic : String
  empty : Bool
  type : String
  ism : Option (PyDict PyVal)

/-- The loop of `setup_ir` that fills `path_info`, `array.py:248-261`: `path_info` of `create_path` has
the key `ism_info` for image sources (`roomimpulseresponse.py:149-150`). -/
def pathInfo (pairs : List PairInfo) : PyDict PyVal :=
  pairs.foldl (fun d p => d.put (p.src ++ "->" ++ p.mic)
    (.dict (("type", .str (if p.empty then "none" else p.type)) ::
      match p.ism with
      | none => []
      | some m => [("ism_info", .dict m)]))) []

/-- The three files of `save_metadata`.
(`array.py:75-94`.) -/
structure MetaFiles where
  arrays : JsonFile PyVal
  paths : JsonFile PyVal
  pos : JsonFile PyVal

/-- `save_metadata`, `array.py:63-94`: the names of the arrays are keys of a dictionary already.
The folder is new, so that the files do not exist before. -/
def saveMetadata (folder : Bool) (arrs : List ArrObj) (pairs : List PairInfo) : MetaFiles × Option PyErr :=
  if folder then
    match dumpJson PyVal.enc (arrs.map fun a => (a.name, PyVal.dict a.info)) with
    | (f, some e) => (⟨f, .missing, .missing⟩, some e)
    | (f, none) =>
      match dumpJson PyVal.enc (pathInfo pairs) with
      | (g, some e) => (⟨f, g, .missing⟩, some e)
      | (g, none) =>
        match dumpJson PyVal.enc (arrs.map fun a => (a.name, PyVal.list (a.pos.map fun p => .list (p.map .num)))) with
        | (h, e) => (⟨f, g, h⟩, e)
  else (⟨.missing, .missing, .missing⟩, none)

end Verif

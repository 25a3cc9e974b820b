/-
The configuration file: `SimulatorInfo.save_to_file`, `load_from_file` and `equal_audio`
(`src/aspsim/configutil.py`), with the Python values that users can put into the fields.

`yaml.dump` and `yaml.safe_load` are modelled on the level of YAML nodes: `yaml.dump` writes bool, int,
float, str, None and lists as plain nodes, and tuples and numpy values as nodes with a Python tag;
`yaml.safe_load` raises at the first node with such a tag (`ConstructorError`, here `.value`).  The text
between the two is not modelled.  Numbers are rational (no rounding, no `nan`).
-/
import Verif.Model.Metadata
import Mathlib.Data.Rat.Defs
namespace Verif

/-- The values of fields: `SimulatorInfo` does not check types.  `npNum` is a numpy scalar, `ndarray` a
numpy array with one axis.
(`configutil.py:6-33`.) -/
inductive CfgVal
  | none
  | bool (b : Bool)
  | int (n : Int)
  | float (x : ℚ)
  | str (s : String)
  | list (l : List CfgVal)
  | tuple (l : List CfgVal)
  | npNum (x : ℚ)
  | ndarray (l : List ℚ)

/-- A node of a YAML file: a plain scalar, a sequence or something with a Python tag.
(`configutil.py:43-46`.) -/
inductive YamlNode
  | scalar (v : CfgVal)
  | seq (l : List YamlNode)
  | tagged (tag : String) (l : List YamlNode)

mutual

/-- `yaml.dump` of a value, `configutil.py:46`; `dc.asdict` copies lists, tuples and other values
without changing them. -/
def CfgVal.dump : CfgVal → YamlNode
  | .list l => .seq (dumpAll l)
  | .tuple l => .tagged "python/tuple" (dumpAll l)
  | .npNum x => .tagged "python/object/apply:numpy.core.multiarray.scalar" [.scalar (.float x)]
  | .ndarray l => .tagged "python/object/apply:numpy.core.multiarray._reconstruct" (l.map fun x => .scalar (.float x))
  | .none => .scalar .none
  | .bool b => .scalar (.bool b)
  | .int n => .scalar (.int n)
  | .float x => .scalar (.float x)
  | .str s => .scalar (.str s)

/-- The entries of a list, one after the other.
(`configutil.py:46`.) -/
def dumpAll : List CfgVal → List YamlNode
  | [] => []
  | v :: vs => v.dump :: dumpAll vs

end

mutual

/-- `yaml.safe_load`, `configutil.py:53`. -/
def YamlNode.safeLoad : YamlNode → Except PyErr CfgVal
  | .scalar v => .ok v
  | .tagged _ _ => .error .value
  | .seq l =>
    match safeLoadAll l with
    | .error e => .error e
    | .ok vs => .ok (.list vs)

/-- The entries of a sequence, one after the other.
(`configutil.py:53`.) -/
def safeLoadAll : List YamlNode → Except PyErr (List CfgVal)
  | [] => .ok []
  | n :: ns =>
    match n.safeLoad with
    | .error e => .error e
    | .ok v =>
      match safeLoadAll ns with
      | .error e => .error e
      | .ok vs => .ok (v :: vs)

end

/-- The names of the fields, in order.
(`configutil.py:8-32`.) -/
def cfgFields : List String :=
  ["tot_samples", "sim_buffer", "sim_chunk_size", "start_sources_before_0", "save_source_contributions",
   "array_update_freq", "samplerate", "c", "spatial_dims", "reverb", "room_size", "room_center", "rt60",
   "max_room_ir_length", "randomized_ism", "extra_delay", "highpass_cutoff", "export_frequency", "plot_output",
   "output_smoothing", "auto_save_load"]

/-- The number of entries, `len(v)`, of lists, tuples, strings and arrays.
(`configutil.py:37-38`.) -/
def CfgVal.len : CfgVal → Except PyErr Nat
  | .list l => .ok l.length
  | .tuple l => .ok l.length
  | .ndarray l => .ok l.length
  | .str s => .ok s.length
  | _ => .error .typeErr

/-- The number that a value is equal to, `True == 1 == 1.0`.
(`configutil.py:37-40,62-77`.) -/
def CfgVal.number : CfgVal → Option ℚ
  | .bool b => some (if b then 1 else 0)
  | .int n => some n
  | .float x => some x
  | .npNum x => some x
  | _ => Option.none

/-- `SimulatorInfo.__post_init__`, `configutil.py:35-40`, for the dictionary of the fields. -/
def cfgPostInit (d : PyDict CfgVal) : Except PyErr (PyDict CfgVal) :=
  match d.get "room_size", d.get "room_center", d.get "spatial_dims", d.get "reverb" with
  | some size, some center, some dims, some reverb =>
    match size.len with
    | .error e => .error e
    | .ok n =>
      if ¬ (dims.number = some (n : ℚ)) then .error .assertion
      else
        match center.len with
        | .error e => .error e
        | .ok m =>
          if ¬ (dims.number = some (m : ℚ)) then .error .assertion
          else
            match reverb with
            | .str s => if s = "none" ∨ s = "direct" ∨ s = "ism" then .ok d else .error .assertion
            | _ => .error .assertion
  | _, _, _, _ => .error .typeErr

/-- `SimulatorInfo(**config)`: exactly the fields must be given, in any order; the object keeps them in
the order of the class.
(`configutil.py:54`.) -/
def cfgConstruct (d : PyDict CfgVal) : Except PyErr (PyDict CfgVal) :=
  if ¬ (∀ e ∈ d, e.1 ∈ cfgFields) then .error .typeErr
  else
    match cfgFields.mapM fun f => (d.get f).map fun v => (f, v) with
    | Option.none => .error .typeErr
    | some d => cfgPostInit d

/-- `save_to_file`, `configutil.py:43-46`: the contents of `config.yaml`. -/
def cfgSave (d : PyDict CfgVal) : List (String × YamlNode) := d.map fun e => (e.1, e.2.dump)

/-- The values of the fields in a file, one after the other.
(`configutil.py:52-53`.) -/
def cfgRead : List (String × YamlNode) → Except PyErr (PyDict CfgVal)
  | [] => .ok []
  | (k, n) :: rest =>
    match n.safeLoad with
    | .error e => .error e
    | .ok v =>
      match cfgRead rest with
      | .error e => .error e
      | .ok d => .ok ((k, v) :: d)

/-- `load_from_file`, `configutil.py:48-54`. -/
def cfgLoad (file : List (String × YamlNode)) : Except PyErr (PyDict CfgVal) :=
  match cfgRead file with
  | .error e => .error e
  | .ok d => cfgConstruct d

/-- What `a == b` gives: a truth value, or an array of them if one of the operands is a numpy array.
(`configutil.py:62-77`.) -/
inductive EqResult
  | bool (b : Bool)
  | array (l : List Bool)

/-- The truth value of the result of a comparison, `configutil.py:62-77`: an array of any other length
than one has none and raises. -/
def EqResult.truth : EqResult → Except PyErr Bool
  | .bool b => .ok b
  | .array [b] => .ok b
  | .array _ => .error .value

/-- The comparison of an array with the numbers of a list.
(`configutil.py:70-71`.) -/
def arrayEq (l : List ℚ) (m : List CfgVal) : Except PyErr EqResult :=
  match m.mapM CfgVal.number with
  | some ys => if l.length = ys.length then .ok (.array (List.zipWith (fun x y => decide (x = y)) l ys)) else .error .notImplemented
  | Option.none => .error .notImplemented

mutual

/-- `a == b`, `configutil.py:63-76`.  A numpy array is compared entry by entry with arrays, lists and tuples
of numbers of the same length; comparisons of arrays with anything else are left out (`.error`). -/
def CfgVal.eqv : CfgVal → CfgVal → Except PyErr EqResult
  | .ndarray l, .ndarray m => arrayEq l (m.map .float)
  | .ndarray l, .list m => arrayEq l m
  | .ndarray l, .tuple m => arrayEq l m
  | .list m, .ndarray l => arrayEq l m
  | .tuple m, .ndarray l => arrayEq l m
  | .ndarray _, _ => .error .notImplemented
  | _, .ndarray _ => .error .notImplemented
  | .list l, .list m => listEq l m
  | .tuple l, .tuple m => listEq l m
  | .str s, .str t => .ok (.bool (s == t))
  | .none, .none => .ok (.bool true)
  | a, b =>
    match a.number, b.number with
    | some x, some y => .ok (.bool (decide (x = y)))
    | _, _ => .ok (.bool false)

/-- The comparison of the entries of lists of the same length, up to the first difference.
(`configutil.py:70-71`.) -/
def listEq : List CfgVal → List CfgVal → Except PyErr EqResult
  | [], [] => .ok (.bool true)
  | a :: l, b :: m =>
    if l.length ≠ m.length then .ok (.bool false)
    else
      match a.eqv b with
      | .error e => .error e
      | .ok r =>
        match r.truth with
        | .error e => .error e
        | .ok false => .ok (.bool false)
        | .ok true => listEq l m
  | _, _ => .ok (.bool false)

end

/-- `a.f == b.f and …` for a list of fields: stops at the first one that differs.  (The truth value of the
last comparison is taken by the caller, `saveloadsession.py:55`.)
(`configutil.py:63-76`.) -/
def fieldsEq (a b : PyDict CfgVal) : List String → Except PyErr Bool
  | [] => .ok true
  | f :: fs =>
    match a.get f, b.get f with
    | some x, some y =>
      match x.eqv y with
      | .error e => .error e
      | .ok r =>
        match r.truth with
        | .error e => .error e
        | .ok false => .ok false
        | .ok true => fieldsEq a b fs
    | _, _ => .error .attribute

/-- `equal_audio`, `configutil.py:62-77`; `ism` tells whether any path is of that type. -/
def cfgEqualAudio (a b : PyDict CfgVal) (ism : Bool) : Except PyErr Bool :=
  match fieldsEq a b ["samplerate", "c", "spatial_dims", "reverb"] with
  | .error e => .error e
  | .ok false => .ok false
  | .ok true =>
    if ism then fieldsEq a b ["room_size", "room_center", "rt60", "max_room_ir_length", "randomized_ism", "extra_delay", "highpass_cutoff"]
    else .ok true

/-- `search_for_matching_session`, `saveloadsession.py:49-58`, for sessions whose arrays all match: the number
of the first session with a matching configuration, `none` if there is none. -/
def cfgSearch (info : PyDict CfgVal) (ism : Bool) : List (List (String × YamlNode)) → Except PyErr (Option Nat)
  | [] => .ok Option.none
  | f :: rest =>
    match cfgLoad f with
    | .error e => .error e
    | .ok d =>
      match cfgEqualAudio info d ism with
      | .error e => .error e
      | .ok true => .ok (some 0)
      | .ok false =>
        match cfgSearch info ism rest with
        | .error e => .error e
        | .ok o => .ok (o.map (· + 1))

/-- `create_simulator` with `auto_save_load` and a session folder, `simulator.py:190-196`: search, and save the
configuration if no session matches.  The generation of the responses is left out. -/
def cfgCreate (info : PyDict CfgVal) (ism : Bool) (folder : List (List (String × YamlNode))) :
    Except PyErr (List (List (String × YamlNode))) :=
  match cfgSearch info ism folder with
  | .error e => .error e
  | .ok (some _) => .ok folder
  | .ok Option.none => .ok (folder ++ [cfgSave info])

end Verif

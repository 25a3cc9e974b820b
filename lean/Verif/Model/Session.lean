/-
Model of `src/aspsim/configutil.py`, `src/aspsim/saveloadsession.py`,
`ArrayCollection` comparison (`src/aspsim/array.py:407-458`) and the part of
`SimulatorSetup.create_simulator` (`src/aspsim/simulator.py:166-204`) that
prepares the arrays.

A file is absent, incompletely written, or complete; reading a complete file
gives back what was written (`yaml.dump`/`yaml.safe_load`, `dill`).  Numbers are
elements of an ordered field (no rounding, no `nan`).  Figure folders, plots,
readable metadata and printing are not modelled.
-/
import Verif.Model.Array
import Verif.Model.Files
import Mathlib.Algebra.Order.Field.Basic
import Mathlib.Algebra.Order.Group.Abs
namespace Verif

/-- `SimulatorInfo`, `configutil.py:6-33`. -/
structure SimInfo (F : Type) where
  totSamples : Nat
  simBuffer : Nat
  chunk : Nat
  startBefore : Bool
  contrib : Bool
  updateFreq : Nat
  samplerate : Nat
  c : F
  dims : Nat
  reverb : String
  roomSize : List F
  roomCenter : List F
  rt60 : F
  maxIrLen : Nat
  randomized : Bool
  extraDelay : Nat
  highpass : F
  exportFreq : Nat
  plotOutput : String
  smoothing : Nat
  autoSaveLoad : Bool
deriving DecidableEq

section
variable {F : Type} [DecidableEq F]

omit [DecidableEq F] in
/-- `SimulatorInfo.__post_init__`, `configutil.py:35-40`, run whenever an object is
constructed, in particular when a configuration is read from a file. -/
def SimInfo.postInit (i : SimInfo F) : Except PyErr (SimInfo F) :=
  if i.roomSize.length ≠ i.dims then .error .assertion
  else if i.roomCenter.length ≠ i.dims then .error .assertion
  else if ¬ (i.reverb = "none" ∨ i.reverb = "direct" ∨ i.reverb = "ism") then .error .assertion
  else .ok i

/-- `equal_audio`, `configutil.py:62-77`; `types` are the values of the inner
dictionaries of `path_types`. -/
def equalAudio (i1 i2 : SimInfo F) (types : List (List String)) : Bool :=
  let same := decide (i1.samplerate = i2.samplerate) && decide (i1.c = i2.c) &&
    decide (i1.dims = i2.dims) && decide (i1.reverb = i2.reverb)
  if types.any (fun l => l.contains "ism") then
    same && decide (i1.roomSize = i2.roomSize) && decide (i1.roomCenter = i2.roomCenter) &&
      decide (i1.rt60 = i2.rt60) && decide (i1.maxIrLen = i2.maxIrLen) &&
      decide (i1.randomized = i2.randomized) && decide (i1.extraDelay = i2.extraDelay) &&
      decide (i1.highpass = i2.highpass)
  else same

end

section
variable {F : Type} [Field F] [LinearOrder F]

/-- `np.isclose(a, b)` with the default tolerances.
(`array.py:447,453`.) -/
def isClose (a b : F) : Bool := decide (|a - b| ≤ 1 / 10 ^ 8 + 1 / 10 ^ 5 * |b|)

/-- `np.allclose` on the last axis, with broadcasting: an axis of length 1 is
repeated, other different lengths raise.
(`array.py:447,453`.) -/
def allCloseRow (x y : List F) : Except PyErr Bool :=
  if x.length = y.length then .ok ((x.zip y).all fun p => isClose p.1 p.2)
  else
    match x, y with
    | [a], y => .ok (y.all fun b => isClose a b)
    | x, [b] => .ok (x.all fun a => isClose a b)
    | _, _ => .error .value

/-- `np.allclose` over rows.  All rows of an array have the same length, so the
shapes fit for one row if and only if they fit for all.
(`array.py:447,453`.) -/
def allCloseRows : List (List F × List F) → Except PyErr Bool
  | [] => .ok true
  | p :: rest =>
    match allCloseRow p.1 p.2 with
    | .error x => .error x
    | .ok b =>
      match allCloseRows rest with
      | .error x => .error x
      | .ok b' => .ok (b && b')

/-- `np.allclose` of two impulse-response arrays; the first two axes are the
numbers of sources and microphones, which have been compared before.
(`array.py:453`.) -/
def allCloseIr (h1 h2 : IrMat F) : Except PyErr Bool :=
  allCloseRows ((List.range h1.numIn).flatMap fun i =>
    (List.range h1.numOut).map fun j => (h1.ir i j, h2.ir i j))

/-- First loop of `prototype_equals`, `array.py:440-448`.  The class of an array is
its kind. -/
def sameArrays {H : Type} (init : Coll (List F) H) : List (Arr (List F)) → Except PyErr Bool
  | [] => .ok true
  | a :: rest =>
    match init.find a.name with
    | none => .error .key
    | some b =>
      if a.kind ≠ b.kind then .ok false
      else if a.num ≠ b.num then .ok false
      else
        match allCloseRows (a.pos.zip b.pos) with
        | .error x => .error x
        | .ok false => .ok false
        | .ok true => sameArrays init rest

/-- Second loop of `prototype_equals`, `array.py:451-456`. -/
def samePaths (proto init : Coll (List F) (IrMat F)) : List (String × String) → Except PyErr Bool
  | [] => .ok true
  | p :: rest =>
    match proto.types p.1 p.2 with
    | none => .error .key
    | some t =>
      match (if t = "modified" then
          match proto.paths p.1 p.2, init.paths p.1 p.2 with
          | some h1, some h2 => allCloseIr h1 h2
          | _, _ => .error .key
        else .ok true) with
      | .error x => .error x
      | .ok false => .ok false
      | .ok true =>
        match init.types p.1 p.2 with
        | none => .error .key
        | some t' => if t ≠ t' then .ok false else samePaths proto init rest

/-- `prototype_equals`, `array.py:421-458`. -/
def protoEquals (proto init : Coll (List F) (IrMat F)) : Except PyErr Bool :=
  if ¬ ((∀ a ∈ proto.arrays, a.name ∈ init.arrays.map Arr.name) ∧
      ∀ b ∈ init.arrays, b.name ∈ proto.arrays.map Arr.name) then .ok false
  else
    match sameArrays init proto.arrays with
    | .error x => .error x
    | .ok false => .ok false
    | .ok true => samePaths proto init proto.combos

end

/-- `path_type.values()`, each as the list of its values.
(`configutil.py:62-77`.) -/
def Coll.typeValues {Pt H : Type} (c : Coll Pt H) : List (List String) :=
  c.srcs.map fun s => c.mics.filterMap (c.types s)

/-- An array collection after `setup_ir`: with the sound sources of its arrays
(by name), and the configuration its path generator was made with.
(`simulator.py:184-204`.) -/
structure Built (F S : Type) where
  coll : Coll (List F) (IrMat F)
  source : String → Option S
  info : SimInfo F

/-- A file.
(`saveloadsession.py:10-60`.) -/
inductive FileC (α : Type)
  | absent
  | broken
  | full (a : α)

/-- Opening and parsing a file; a file whose writing was interrupted cannot be
parsed (the kind of exception depends on the place).
(`saveloadsession.py:19-60`.) -/
def FileC.read {α : Type} : FileC α → Except PyErr α
  | .absent => .error .fileNotFound
  | .broken => .error .value
  | .full a => .ok a

/-- A session folder: `config.yaml`, `arrays.pickle`, and whether
`metadata_sim.json` exists.
(`saveloadsession.py:10-17`.) -/
structure Folder (F S : Type) where
  config : FileC (SimInfo F)
  arrays : FileC (Built F S)
  metadata : Bool

/-- The entries of the folder of sessions in the order of `iterdir()`; `none` is
an entry that is not a directory.
(`saveloadsession.py:49-60`.) -/
abbrev Store (F S : Type) := List (Name × Option (Folder F S))

section
variable {F S G : Type}

/-- `configutil.load_from_file`, `configutil.py:48-54`. -/
def Folder.loadConfig (f : Folder F S) : Except PyErr (SimInfo F) :=
  match f.config.read with
  | .error x => .error x
  | .ok i => i.postInit

/-- `load_arrays`, `array.py:407-418`. -/
def Folder.loadArrays (f : Folder F S) : Except PyErr (Built F S) := f.arrays.read

/-- One write operation of `save_session`, `saveloadsession.py:10-17`. -/
inductive SaveOp (F S : Type)
  | mkdir
  | openArrays
  | writeArrays (b : Built F S)
  | openConfig
  | writeConfig (i : SimInfo F)

/-- `save_session`, `saveloadsession.py:10-17`, as a sequence of operations on the
new folder.  `setup_ir` returns no metadata, so that `sim_metadata` is `None` and
`metadata_sim.json` is not written. -/
def saveOps (i : SimInfo F) (b : Built F S) : List (SaveOp F S) :=
  [.mkdir, .openArrays, .writeArrays b, .openConfig, .writeConfig i]

/-- Effect of an operation on the folder (`none`: it does not exist yet).
(`saveloadsession.py:10-17`.) -/
def SaveOp.run (f : Option (Folder F S)) : SaveOp F S → Option (Folder F S)
  | .mkdir => some ⟨.absent, .absent, false⟩
  | .openArrays => f.map fun f => { f with arrays := .broken }
  | .writeArrays b => f.map fun f => { f with arrays := .full b }
  | .openConfig => f.map fun f => { f with config := .broken }
  | .writeConfig i => f.map fun f => { f with config := .full i }

/-- The folder of sessions after the first `k` operations of saving; the new entry
appears as the last one (theorems quantify over all orders).
(`saveloadsession.py:10-17`.) -/
def Store.saveUpTo (st : Store F S) (k : Nat) (nm : Name) (i : SimInfo F) (b : Built F S) : Store F S :=
  match ((saveOps i b).take k).foldl SaveOp.run none with
  | none => st
  | some f => st ++ [(nm, some f)]

/-- `save_session` without interruption; `time` is the time string of the folder
name.
(`saveloadsession.py:10-17`.) -/
def saveSession (st : Store F S) (time : Name) (i : SimInfo F) (b : Built F S) :
    Except PyErr (Store F S) :=
  match uniqueFolder (st.length + 1) "session_".toList time (st.map Prod.fst) with
  | none => .error .diverges
  | some nm => .ok (st.saveUpTo 5 nm i b)

section
variable [Field F] [LinearOrder F]

/-- `search_for_matching_session`, `saveloadsession.py:49-58`; `none` is
`MatchingSessionNotFoundError`. -/
def searchSession (info : SimInfo F) (c : Coll (List F) (IrMat F)) :
    Store F S → Except PyErr (Option (Name × Folder F S))
  | [] => .ok none
  | (_, none) :: rest => searchSession info c rest
  | (nm, some f) :: rest =>
    match f.loadConfig with
    | .error x => .error x
    | .ok i =>
      match f.loadArrays with
      | .error x => .error x
      | .ok b =>
        if equalAudio info i c.typeValues then
          match protoEquals c b.coll with
          | .error x => .error x
          | .ok true => .ok (some (nm, f))
          | .ok false => searchSession info c rest
        else searchSession info c rest

omit [Field F] [LinearOrder F] in
/-- The loop over the free sources, `saveloadsession.py:27-28`. -/
def setSources (source : String → Option S) : List String → Built F S → Except PyErr (Built F S)
  | [], b => .ok b
  | nm :: rest, b =>
    match b.coll.find nm with
    | none => .error .key
    | some _ => setSources source rest
        { b with source := fun x => if x = nm then source nm else b.source x }

/-- `load_session`, `saveloadsession.py:19-30`: the arrays are read again, and the
sound sources of the free sources replaced by the current ones. -/
def loadSession (info : SimInfo F) (c : Coll (List F) (IrMat F)) (source : String → Option S)
    (st : Store F S) : Except PyErr (Option (Built F S)) :=
  match searchSession info c st with
  | .error x => .error x
  | .ok none => .ok none
  | .ok (some (_, f)) =>
    match f.loadArrays with
    | .error x => .error x
    | .ok b =>
      match setSources source c.frees b with
      | .error x => .error x
      | .ok b => .ok (some b)

/-- The generation of impulse responses for a configuration, and what the
constructor of the path generator does to the global state
(`roomimpulseresponse.py:77,97`: the constants `c` and `frac_delay_length` of the
image-source package). -/
structure GenSys (F G : Type) where
  gen : SimInfo F → GenFn (List F) (IrMat F) G
  init : SimInfo F → G → G

omit [Field F] [LinearOrder F] in
/-- `arrays.setup_ir(sim_info)`, `array.py:234-261`. -/
def setupArrays (sys : GenSys F G) (g : G) (info : SimInfo F) (c : Coll (List F) (IrMat F))
    (source : String → Option S) : Except PyErr (G × Built F S) :=
  match { c with freq := info.updateFreq }.setupIr (sys.gen info) (sys.init info g) with
  | .error x => .error x
  | .ok (g, c) => .ok (g, ⟨c, source, info⟩)

/-- The arrays of `create_simulator`, `simulator.py:184-198`: the collection that
the simulator gets and the sessions afterwards.  `st = none`: no session folder. -/
def createArrays (sys : GenSys F G) (g : G) (info : SimInfo F) (c : Coll (List F) (IrMat F))
    (source : String → Option S) (st : Option (Store F S)) (time : Name) :
    Except PyErr (G × Built F S × Option (Store F S)) :=
  if c.arrays.isEmpty then .error .assertion
  else
    let c := c.setDefault info.reverb
    match info.autoSaveLoad, st with
    | true, some st =>
      match loadSession info c source st with
      | .error x => .error x
      | .ok (some b) => .ok (g, b, some st)
      | .ok none =>
        match setupArrays sys g info c source with
        | .error x => .error x
        | .ok (g, b) =>
          match saveSession st time info b with
          | .error x => .error x
          | .ok st => .ok (g, b, some st)
    | _, st =>
      match setupArrays sys g info c source with
      | .error x => .error x
      | .ok (g, b) => .ok (g, b, st)

end

/-- `load_from_path`, `saveloadsession.py:32-39`; `fig` tells whether there is a
figure folder.  `copy_sim_metadata` raises if `metadata_sim.json` does not
exist. -/
def loadFromPath (f : Folder F S) (fig : Bool) : Except PyErr (SimInfo F × Built F S) :=
  match f.loadArrays with
  | .error x => .error x
  | .ok b =>
    match f.loadConfig with
    | .error x => .error x
    | .ok i =>
      if fig && !f.metadata then .error .fileNotFound
      else .ok (i, b)

end
end Verif

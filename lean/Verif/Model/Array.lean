/-
Model of `src/aspsim/array.py`: `Array`, `ArrayCollection`.

A point is an element of the parameter type `Pt` (a row of a position array);
impulse responses are `IrMat R`, i.e. arrays with three axes.  The generation of
an impulse response is a parameter `gen` with a state `G` standing for the
global random generators and the image-source package
(`PathGenerator.create_path` is modelled in `Model/Rir.lean`).
Directivity, plotting, metadata and pickling are not modelled here.
-/
import Verif.Model.Fir
namespace Verif

/-- The argument `pos` of `Array.__init__`, `array.py:492-518`: a list of
position arrays, one array, or a trajectory. -/
inductive PosArg (Pt : Type)
  | groups (l : List (List Pt))
  | mat (p : List Pt)
  | traj (f : Nat → List Pt)

/-- An `Array` object (`array.py:460-564`).  `kind = none` is an array that is
neither microphone nor source; `traj` is present for dynamic arrays; `omni` tells
whether all directivity types are "omni"; `log` are `time_all` and `pos_all`. -/
structure Arr (Pt : Type) where
  name : String
  kind : Option ArrKind
  num : Nat
  pos : List Pt
  groups : Option (List (List Nat))
  numGroups : Nat
  traj : Option (Nat → List Pt)
  omni : Bool
  log : List (Nat × List Pt)

/-- `np.cumsum`.
(`array.py:494`.) -/
def cumsum : Nat → List Nat → List Nat
  | _, [] => []
  | acc, n :: l => (acc + n) :: cumsum (acc + n) l

/-- `group_idxs` for a list of position arrays, `array.py:494-495`:
`num_in_group = cumsum([0] + sizes)` and
`arange(num_in_group[i], num_in_group[i+1])` for every `i`. -/
def groupIdxs (sizes : List Nat) : List (List Nat) :=
  let c := cumsum 0 (0 :: sizes)
  (List.range (c.length - 1)).map fun i =>
    (List.range (c.getD (i + 1) 0 - c.getD i 0)).map fun k => c.getD i 0 + k

/-- `Array.__init__`, `array.py:489-538` (of the directivity only whether it is
omnidirectional); `np.concatenate` of an empty list raises. -/
def mkArr {Pt : Type} (name : String) (kind : Option ArrKind) (omni : Bool) :
    PosArg Pt → Except PyErr (Arr Pt)
  | .groups [] => .error .value
  | .groups l => .ok ⟨name, kind, l.flatten.length, l.flatten,
      some (groupIdxs (l.map List.length)), l.length, none, omni, []⟩
  | .mat p => .ok ⟨name, kind, p.length, p, none, 1, none, omni, []⟩
  | .traj f => .ok ⟨name, kind, (f 0).length, f 0, none, 1, some f, omni, []⟩

/-- `Array.dynamic`.
(`array.py:507-518`.) -/
def Arr.dynamic {Pt : Type} (a : Arr Pt) : Bool := a.traj.isSome

/-- `Array.update`, `array.py:558-564`; it returns `dynamic`. -/
def Arr.update {Pt : Type} (n : Nat) (a : Arr Pt) : Arr Pt :=
  match a.traj with
  | some f => { a with pos := f n, log := a.log ++ [(n, f n)] }
  | none => a

/-- An `ArrayCollection` object, `array.py:39-52`.  `arrays` is the dictionary in
insertion order; `paths` and `types` (`path_type`) are the two-layer
dictionaries (their outer keys are the sources); `freq` is
`sim_info.array_update_freq`, `rirs` is `_rir_dynamic_all`. -/
structure Coll (Pt H : Type) where
  arrays : List (Arr Pt)
  mics : List String
  srcs : List String
  frees : List String
  paths : String → String → Option H
  types : String → String → Option String
  freq : Nat
  rirs : List H

section
variable {Pt H G : Type}

/-- `ArrayCollection()`, `array.py:39-52`. -/
def Coll.empty (freq : Nat) : Coll Pt H :=
  ⟨[], [], [], [], fun _ _ => none, fun _ _ => none, freq, []⟩

/-- `self.arrays[name]`.
(`array.py:53-54`.) -/
def Coll.find (c : Coll Pt H) (name : String) : Option (Arr Pt) :=
  c.arrays.find? fun a => a.name == name

/-- Writing an entry of a two-layer dictionary.
(`array.py:107,200,218,259,276`.) -/
def set2 {V : Type} (f : String → String → Option V) (s m : String) (v : V) :
    String → String → Option V :=
  fun s' m' => if s' = s ∧ m' = m then some v else f s' m'

/-- `add_array`, `array.py:143-163`: the collection afterwards and the exception
if there was one. -/
def Coll.addArray (c : Coll Pt H) (a : Arr Pt) : Coll Pt H × Option PyErr :=
  if (c.find a.name).isSome then (c, some .assertion)
  else
    let c := { c with arrays := c.arrays ++ [a] }
    match a.kind with
    | some .mic => ({ c with mics := c.mics ++ [a.name] }, none)
    | some .free => ({ c with srcs := c.srcs ++ [a.name], frees := c.frees ++ [a.name] }, none)
    | some .ctrl => ({ c with srcs := c.srcs ++ [a.name] }, none)
    | none => (c, some .value)

/-- `mic_src_combos()`, `array.py:131-135`, as names. -/
def Coll.combos (c : Coll Pt H) : List (String × String) :=
  c.srcs.flatMap fun s => c.mics.map fun m => (s, m)

/-- `set_path_types` for one entry, `array.py:213-218`. -/
def Coll.setPathType (c : Coll Pt H) (s m t : String) : Except PyErr (Coll Pt H) :=
  if ¬ s ∈ c.srcs then .error .assertion
  else if ¬ m ∈ c.mics then .error .assertion
  else .ok { c with types := set2 c.types s m t }

/-- `set_default_path_type`, `array.py:97-109`. -/
def Coll.setDefault (t : String) (c : Coll Pt H) : Coll Pt H :=
  c.combos.foldl (fun c p =>
    if (c.types p.1 p.2).isNone && (c.paths p.1 p.2).isNone then
      { c with types := set2 c.types p.1 p.2 t }
    else if (c.paths p.1 p.2).isSome then { c with types := set2 c.types p.1 p.2 "modified" }
    else c) c

/-- The attributes of an array that `PathGenerator.create_path` uses.
(`roomimpulseresponse.py:104-171`.) -/
structure Geo (Pt : Type) where
  num : Nat
  pos : List Pt
  omni : Bool

/-- `roomimpulseresponse.py:104-171`. -/
def Arr.geo (a : Arr Pt) : Geo Pt := ⟨a.num, a.pos, a.omni⟩

/-- The generation of an impulse response, `PathGenerator.create_path(src, mic,
path_type)`.
(`roomimpulseresponse.py:104-171`.) -/
abbrev GenFn (Pt H G : Type) := G → Geo Pt → Geo Pt → String → Except PyErr (G × H)

/-- Body of the loop of `setup_ir`, `array.py:248-261` (metadata left out). -/
def Coll.setupOne (gen : GenFn Pt H G) (gc : G × Coll Pt H) (p : String × String) :
    Except PyErr (G × Coll Pt H) :=
  match gc.2.find p.1, gc.2.find p.2 with
  | some s, some m =>
    match (if s.num = 0 ∨ m.num = 0 then some "none" else gc.2.types p.1 p.2) with
    | none => .error .key
    | some t =>
      if t ≠ "modified" then
        match gen gc.1 s.geo m.geo t with
        | .error x => .error x
        | .ok (g, h) => .ok (g, { gc.2 with paths := set2 gc.2.paths p.1 p.2 h })
      else .ok gc
  | _, _ => .error .key

/-- `PathGenerator.calc_rir_parameters`, `roomimpulseresponse.py:65-101`, called
by the constructor of the path generator: `np.min` of the matrix of distances
raises for every pair with an array without points.  The room parameters
computed there (and `pra.inverse_sabine`, which may raise for impossible
reverberation times) are part of the parameter `gen`. -/
def Coll.calcRirParameters (c : Coll Pt H) : Except PyErr Unit :=
  if c.combos.any (fun p =>
      match c.find p.1, c.find p.2 with
      | some s, some m => s.pos.isEmpty || m.pos.isEmpty
      | _, _ => false) then .error .value
  else .ok ()

/-- `setup_ir`, `array.py:234-261`. -/
def Coll.setupIr (gen : GenFn Pt H G) (g : G) (c : Coll Pt H) : Except PyErr (G × Coll Pt H) :=
  match c.calcRirParameters with
  | .error x => .error x
  | .ok _ => c.combos.foldlM (Coll.setupOne gen) (g, c)

/-- `update_path`, `array.py:264-276`. -/
def Coll.updatePath (gen : GenFn Pt H G) (gc : G × Coll Pt H) (s m : String) :
    Except PyErr (G × Coll Pt H) :=
  match gc.2.find s, gc.2.find m, gc.2.types s m with
  | some a, some b, some t =>
    if t = "modified" then .error .assertion
    else
      match gen gc.1 a.geo b.geo t with
      | .error x => .error x
      | .ok (g, h) => .ok (g, { gc.2 with paths := set2 gc.2.paths s m h })
  | _, _, _ => .error .key

/-- Second loop of `update`, `array.py:302-317`: the changed arrays, the list
`already_updated`.  After the loop over the sources, line 309 reads the loop
variable `src`, which is unbound if there is no source. -/
def Coll.updateLoop (gen : GenFn Pt H G) :
    List String → List String → G × Coll Pt H → Except PyErr (G × Coll Pt H)
  | [], _, gc => .ok gc
  | nm :: rest, already, gc =>
    match gc.2.find nm with
    | none => .error .key
    | some a =>
      match a.kind with
      | some .mic =>
        match (gc.2.srcs.filter fun s => !already.contains s).foldlM
            (fun gc s => Coll.updatePath gen gc s nm) gc with
        | .error x => .error x
        | .ok gc =>
          match gc.2.srcs.getLast? with
          | none => .error .unbound
          | some s =>
            match gc.2.paths s nm with
            | none => .error .key
            | some h =>
              Coll.updateLoop gen rest (already ++ [nm]) (gc.1, { gc.2 with rirs := gc.2.rirs ++ [h] })
      | some _ =>
        match (gc.2.mics.filter fun m => !already.contains m).foldlM
            (fun gc m => Coll.updatePath gen gc nm m) gc with
        | .error x => .error x
        | .ok gc => Coll.updateLoop gen rest (already ++ [nm]) gc
      | none => .error .value

/-- `update`, `array.py:278-317`. -/
def Coll.update (gen : GenFn Pt H G) (gc : G × Coll Pt H) (n : Nat) :
    Except PyErr (G × Coll Pt H) :=
  if gc.2.freq = 0 then .error .zeroDivision
  else if n % gc.2.freq ≠ 0 then .ok gc
  else
    Coll.updateLoop gen ((gc.2.arrays.filter Arr.dynamic).map Arr.name) []
      (gc.1, { gc.2 with arrays := gc.2.arrays.map (Arr.update n) })

/-- The array collection as the propagator reads it: `arrays.paths[src][mic]`.
(`simulator.py:415,469`.) -/
def Coll.path (gc : G × Coll Pt H) (s m : String) : Except PyErr H :=
  match gc.2.paths s m with
  | none => .error .key
  | some h => .ok h

/-- What the simulator uses of the arrays; arrays that are neither microphone
nor source are never used.
(`simulator.py:357-361,415-418`.) -/
def Coll.infos (c : Coll Pt H) : List ArrInfo :=
  c.arrays.filterMap fun a => a.kind.map fun k => ⟨a.name, a.num, k, a.dynamic⟩

end

section
variable {Pt R : Type}

/-- `set_prop_path`, `array.py:179-200` (the path is an array with three axes). -/
def Coll.setPropPath (c : Coll Pt (IrMat R)) (h : IrMat R) (s m : String) :
    Except PyErr (Coll Pt (IrMat R)) :=
  if ¬ s ∈ c.srcs then .error .assertion
  else if ¬ m ∈ c.mics then .error .assertion
  else
    match c.find s, c.find m with
    | some a, some b =>
      if h.numIn ≠ a.num then .error .assertion
      else if h.numOut ≠ b.num then .error .assertion
      else .ok { c with paths := set2 c.paths s m h }
    | _, _ => .error .key

/-- The two loops of `set_prop_paths`, `array.py:175-177`, over the entries in the order of the
dictionary: the collection afterwards and the exception, if one is raised. -/
def Coll.setEntries : List (String × String × IrMat R) → Coll Pt (IrMat R) → Coll Pt (IrMat R) × Option PyErr
  | [], c => (c, none)
  | e :: l, c =>
    match c.setPropPath e.2.2 e.1 e.2.1 with
    | .error x => (c, some x)
    | .ok c => Coll.setEntries l c

/-- `set_prop_paths`, `array.py:166-177`; `paths` lists the items of the dictionary of dictionaries. -/
def Coll.setPropPaths (c : Coll Pt (IrMat R)) (paths : List (String × List (String × IrMat R))) :
    Coll Pt (IrMat R) × Option PyErr :=
  Coll.setEntries (paths.flatMap fun p => p.2.map fun q => (p.1, q.1, q.2)) c

end
end Verif

/-
Specification vocabulary for array collections.
-/
import Verif.Model.Array
import Verif.Spec.Run
namespace Verif

section
variable {Pt H G : Type}

/-- A sequence of `add_array` calls (exceptions are caught by the caller). -/
def Coll.addAll (c : Coll Pt H) (as : List (Arr Pt)) : Coll Pt H :=
  as.foldl (fun c a => (c.addArray a).1) c

/-- The names of the arrays with a property, in order of registration. -/
def Coll.namesOf (c : Coll Pt H) (p : Option ArrKind → Bool) : List String :=
  (c.arrays.filter fun a => p a.kind).map Arr.name

/-- Every array is known exactly once, and the name lists are the microphones,
sources and free sources, each once and in order of registration. -/
structure Coll.Consistent (c : Coll Pt H) : Prop where
  names : (c.arrays.map Arr.name).Nodup
  kinds : ∀ a ∈ c.arrays, a.kind ≠ none
  mics : c.mics = c.namesOf (· == some .mic)
  srcs : c.srcs = c.namesOf fun k => k == some .free || k == some .ctrl
  frees : c.frees = c.namesOf (· == some .free)

/-- A pair (source, microphone) of which at least one array moves. -/
def Coll.Moving (c : Coll Pt H) (s m : String) : Prop :=
  ∃ a ∈ c.arrays, a.dynamic = true ∧ (a.name = s ∨ a.name = m)

/-- Geometry of an array at time `u`. -/
def Arr.geoAt (a : Arr Pt) (u : Nat) : Geo Pt :=
  ⟨a.num, match a.traj with
    | some f => f u
    | none => a.pos, a.omni⟩

/-- Generating the impulse responses of the pairs `ps` one after the other, with
all arrays where they are at time `u`. -/
inductive Regen (gen : GenFn Pt H G) (arrays : List (Arr Pt)) (types : String → String → Option String)
    (u : Nat) : List (String × String) → G → (String → String → Option H) → G →
      (String → String → Option H) → Prop
  | nil {g p} : Regen gen arrays types u [] g p g p
  | cons {a b t g g1 g2 h ps p p2} : a ∈ arrays → b ∈ arrays → types a.name b.name = some t →
      gen g (a.geoAt u) (b.geoAt u) t = .ok (g1, h) →
      Regen gen arrays types u ps g1 (set2 p a.name b.name h) g2 p2 →
      Regen gen arrays types u ((a.name, b.name) :: ps) g p g2 p2

/-- `h` was generated for the pair `s`, `m` from the geometry at time `u`. -/
def GeneratedAt (gen : GenFn Pt H G) (c : Coll Pt H) (s m : String) (u : Nat) (h : H) : Prop :=
  ∃ a ∈ c.arrays, ∃ b ∈ c.arrays, a.name = s ∧ b.name = m ∧ ∃ t g g', c.types s m = some t ∧
    gen g (a.geoAt u) (b.geoAt u) t = .ok (g', h)

/-- The updates of the iterations `0, ..., n-1`. -/
def Coll.after (gen : GenFn Pt H G) (gc : G × Coll Pt H) : Nat → Except PyErr (G × Coll Pt H)
  | 0 => .ok gc
  | n + 1 =>
    match Coll.after gen gc n with
    | .error x => .error x
    | .ok gc' => Coll.update gen gc' n

/-- The number of objects of the array never changes. -/
def Arr.Sized (a : Arr Pt) : Prop := ∀ u, (a.geoAt u).pos.length = a.num

/-- The array has not been moved yet: it is where it is at time 0. -/
def Arr.Initial (a : Arr Pt) : Prop := ∀ f, a.traj = some f → a.pos = f 0

/-- The type of propagation used by `setup_ir`: arrays without objects get
"none". -/
def Coll.useType (c : Coll Pt H) (s m : String) : Option String :=
  if ∃ a ∈ c.arrays, (a.name = s ∨ a.name = m) ∧ a.num = 0 then some "none" else c.types s m

end

section
variable {Pt R : Type}

/-- An array of shape `(n, m, L)`. -/
def IrMat.Shaped (h : IrMat R) (n m L : Nat) : Prop :=
  h.numIn = n ∧ h.numOut = m ∧ ∀ i < n, ∀ j < m, (h.ir i j).length = L

/-- A call of `set_prop_path` or an entry of a call of `set_path_types`. -/
inductive PathOp (R : Type)
  | path (h : IrMat R) (s m : String)
  | type (s m t : String)

/-- One call; a call that raises has no effect. -/
def Coll.op (c : Coll Pt (IrMat R)) : PathOp R → Coll Pt (IrMat R)
  | .path h s m => (c.setPropPath h s m).toOption.getD c
  | .type s m t => (c.setPathType s m t).toOption.getD c

/-- The paths given by the user for the pair of the arrays `a` and `b`; arrays of
the wrong shape do not count. -/
def userPaths (a b : Arr Pt) (os : List (PathOp R)) : List (IrMat R) :=
  os.filterMap fun
    | .path h s m => if s = a.name ∧ m = b.name ∧ h.numIn = a.num ∧ h.numOut = b.num then some h else none
    | .type .. => none

/-- The path types given by the user for a pair. -/
def userTypes (a b : Arr Pt) (os : List (PathOp R)) : List String :=
  os.filterMap fun
    | .path .. => none
    | .type s m t => if s = a.name ∧ m = b.name then some t else none

/-- All paths of the collection have the shape of their arrays. -/
def Coll.PathsFit (c : Coll Pt (IrMat R)) : Prop :=
  ∀ a ∈ c.arrays, ∀ b ∈ c.arrays, ∀ h, c.paths a.name b.name = some h →
    h.numIn = a.num ∧ h.numOut = b.num

end
end Verif

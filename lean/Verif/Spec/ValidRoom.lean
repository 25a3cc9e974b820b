/-
What a room simulation without user errors is, in terms of what the user writes: arrays, calls of
`set_prop_path` and `set_path_types`, and the parameters of the room.
-/
import Verif.Spec.Room
import Verif.Spec.Rir
import Verif.Spec.Total
namespace Verif

section
variable {K R G : Type} [Field K] [LinearOrder K]

/-- A type of propagation that can be generated between two arrays. -/
def CanGenerate {Pt : Type} (dims : Nat) (a b : Arr Pt) (t : String) : Prop :=
  t = "none" ∨ t = "random" ∨ (t = "direct" ∧ a.num = b.num) ∨ (t = "ism" ∧ dims = 3 ∧ b.omni = true)

/-- The arrays `as` are added to an empty collection, then come the calls `os`; the default type of
propagation is `t`.  Distinct names, arrays of a known class with at least one channel that stay of the
same size and start where they are at time 0; for every pair of a source and a microphone either a path
of the right shape is given or a type that can be generated, and no path is given if one of them moves;
a microphone moves only if there is a source; the update interval is positive; a reverberation time
that the room can have; and external functions that keep their contract. -/
structure RoomPlan (ext : RoomExt K R G) (i : RoomInfo K) (freq : Nat) (as : List (Arr (K × K × K)))
    (os : List (PathOp R)) (t : String) : Prop where
  names : (as.map Arr.name).Nodup
  kinds : ∀ a ∈ as, a.kind ≠ none
  channels : ∀ a ∈ as, 1 ≤ a.num
  sized : ∀ a ∈ as, a.Sized
  initial : ∀ a ∈ as, a.Initial
  types : ∀ a ∈ as, ∀ b ∈ as, (a.kind = some .free ∨ a.kind = some .ctrl) → b.kind = some .mic →
    userPaths a b os = [] → CanGenerate i.dims a b (((userTypes a b os).getLast?).getD t)
  moving : ∀ a ∈ as, ∀ b ∈ as, (a.kind = some .free ∨ a.kind = some .ctrl) → b.kind = some .mic →
    a.dynamic = true ∨ b.dynamic = true → userPaths a b os = []
  sources : ∀ b ∈ as, b.kind = some .mic → b.dynamic = true → ∃ a ∈ as, a.kind = some .free ∨ a.kind = some .ctrl
  interval : 1 ≤ freq
  reverberation : 0 < i.rt60 → ∃ r, ext.inverseSabine i.rt60 i.size = .ok r
  external : ∀ par, (i.cfg ext par).Lawful

/-- The collection when the simulator is created. -/
def planned (freq : Nat) (as : List (Arr (K × K × K))) (os : List (PathOp R)) (t : String) :
    Coll (K × K × K) (IrMat R) :=
  (os.foldl Coll.op ((Coll.empty freq).addAll as)).setDefault t

/-- What the simulator knows about the arrays. -/
def infosOf (as : List (Arr (K × K × K))) : List ArrInfo :=
  as.filterMap fun a => a.kind.map fun k => ⟨a.name, a.num, k, a.dynamic⟩

/-- The parameters of the simulation together with the arrays. -/
def SimCfg.withArrays {A S P D O F : Type} (base : SimCfg R (IrMat R) F S A P D O) (as : List (Arr (K × K × K))) :
    SimCfg R (IrMat R) F S A P D O :=
  { base with arrays := infosOf as }

end
end Verif

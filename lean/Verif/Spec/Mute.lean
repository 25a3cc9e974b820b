/-
Specification vocabulary for simulations with some silent sources left out.
-/
import Verif.Spec.Hide
namespace Verif

/-- The collection of arrays without the sources `M`. -/
def Coll.withoutSrc {Pt H : Type} (M : List String) (c : Coll Pt H) : Coll Pt H :=
  { c with
    arrays := c.arrays.filter fun a => !M.contains a.name
    srcs := c.srcs.filter fun s => !M.contains s
    frees := c.frees.filter fun s => !M.contains s
    paths := fun s m => if M.contains s then none else c.paths s m
    types := fun s m => if M.contains s then none else c.types s m }

/-- The signals that exist because of the sources `M`: their own and, if contributions
are saved, those from them to every microphone. -/
def signalFrom (contrib : Bool) (arrays : List ArrInfo) (M : List String) (k : String) : Bool :=
  M.contains k || (contrib && (combosOf arrays).any fun p => M.contains p.1.name && k == contribName p.1 p.2)

/-- Nothing but zeros. -/
def Zeros {R : Type} [Zero R] (m : Mat R) : Prop := ∀ r ∈ m, ∀ x ∈ r, x = 0

/-- A source that delivers nothing but zeros now and later. -/
def Silent {R S : Type} [Zero R] (get : S → Nat → Except PyErr (S × Mat R)) (s : S) : Prop :=
  ∃ I : S → Prop, I s ∧ ∀ s n s' v, I s → get s n = .ok (s', v) → I s' ∧ Zeros v

/-- The processor writes nothing but zeros to the signals of `hid`. -/
def Proc.Mutes {R P : Type} [Zero R] (hid : String → Bool) (p : Proc R P) : Prop :=
  ∀ x S i x1 S1, (∀ k m, hid k = true → S k = some m → Zeros m) → p.process x S i = .ok (x1, S1) →
    ∀ k m, hid k = true → S1 k = some m → Zeros m

end Verif

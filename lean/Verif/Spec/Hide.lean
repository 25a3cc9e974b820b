/-
Specification vocabulary for simulations with some microphones left out.
-/
import Verif.Model.Array
import Verif.Model.Diagnostics
namespace Verif

/-- The collection of arrays without the microphones `M`. -/
def Coll.without {Pt H : Type} (M : List String) (c : Coll Pt H) : Coll Pt H :=
  { c with
    arrays := c.arrays.filter fun a => !M.contains a.name
    mics := c.mics.filter fun m => !M.contains m
    paths := fun s m => if M.contains m then none else c.paths s m
    types := fun s m => if M.contains m then none else c.types s m }

/-- The signals that exist because of the microphones `M`: their own and, if contributions
are saved, those from every source to them. -/
def signalOf (contrib : Bool) (arrays : List ArrInfo) (M : List String) (k : String) : Bool :=
  M.contains k || (contrib && (combosOf arrays).any fun p => M.contains p.2.name && k == contribName p.1 p.2)

/-- The signals a diagnostic reads. -/
def DData.reads {R P V : Type} : DData R P V → List String
  | .recSignal s _ _ => [s]
  | .recState _ _ _ _ => []
  | .power s _ _ => [s]
  | .ratio a _ b _ _ _ => [a, b]
  | .instant _ _ => []
  | .sfPower s _ _ => [s]
  | .spectrum s _ _ _ _ => [s]
  | .summary s _ _ _ => [s]

/-- The processor does not use the signals of `hid`: it creates none of them, and what it
does is the same whatever they contain. -/
def Proc.Ignores {R P : Type} (hid : String → Bool) (p : Proc R P) : Prop :=
  (∀ q ∈ p.extra, hid q.1 = false) ∧
  ∀ x S S' i x1 S1, (∀ k, hid k = false → S k = S' k) → p.process x S i = .ok (x1, S1) →
    ∃ S1', p.process x S' i = .ok (x1, S1') ∧ ∀ k, hid k = false → S1 k = S1' k

end Verif

/-
The processor contract instantiated: any processor object seen through a window
around the current index.
-/
import Verif.Spec.Tape
import Verif.Model.Processor
namespace Verif

/-- Run `process` on a signal store that holds `H` samples before the current
index and one block after it, and read off the block. -/
def Proc.view {R P : Type} [Zero R] (p : Proc R P) (H : Nat) : ProcView R P where
  H := H
  act := fun q S => (p.process q S H).map fun r =>
    (r.1, fun k c x => matVal ((r.2 k).getD []) c (H + x))

/-- The processor never changes the signal `name`. -/
def Proc.Keeps {R P : Type} (p : Proc R P) (name : String) : Prop :=
  ∀ q S i q' S', p.process q S i = .ok (q', S') → S' name = S name

end Verif

/-
The same scene with the channels of the arrays in another order (C155).
-/
import Verif.Model.Sim
import Verif.Model.Fir
namespace Verif

/-- `π` permutes the channels `0, ..., n-1`. -/
def Renumbers (π : Nat → Nat) (n : Nat) : Prop := (∀ i < n, π i < n) ∧ ∀ i < n, ∀ j < n, π i = π j → i = j

/-- The impulse responses between channels that have been renumbered: channel `i` is what
channel `π i` was. -/
def IrMat.renumber {R : Type} (h : IrMat R) (πi πo : Nat → Nat) : IrMat R :=
  ⟨h.numIn, h.numOut, fun i c => h.ir (πi i) (πo c)⟩

/-- The same scene, where channel `i` of every array `s` is what channel `π s i` was. -/
def SimCfg.renumbered {R F S A P D O : Type} (cfg : SimCfg R (IrMat R) F S A P D O) (π : String → Nat → Nat) :
    SimCfg R (IrMat R) F S A P D O :=
  { cfg with arrPath := fun a s m => (cfg.arrPath a s m).map fun h => h.renumber (π s) (π m) }

end Verif

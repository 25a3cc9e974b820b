/-
Specification vocabulary for band-limited noise: linear filters, and the powers in force
during a sequence of calls.
-/
import Verif.Model.SourcePower
import Verif.Spec.Stream
import Mathlib.Algebra.Module.LinearMap.Prod
namespace Verif

section
variable {Z : Type} [AddCommGroup Z] [Module ℝ Z]

/-- The state of a linear filter `k + 1` samples after a unit impulse. -/
def impulseState (L : Z × ℝ →ₗ[ℝ] Z × ℝ) : Nat → Z
  | 0 => (L (0, 1)).1
  | k + 1 => (L (impulseState L k, 0)).1

/-- The impulse response of a linear filter. -/
def impulse (L : Z × ℝ →ₗ[ℝ] Z × ℝ) : Nat → ℝ
  | 0 => (L (0, 1)).2
  | k + 1 => (L (impulseState L k, 0)).2

/-- The state of a linear filter left alone in the state `z`, after `k` samples. -/
def freeState (L : Z × ℝ →ₗ[ℝ] Z × ℝ) (z : Z) : Nat → Z
  | 0 => z
  | k + 1 => (L (freeState L z k, 0)).1

/-- The output number `k` of a linear filter left alone in the state `z`. -/
def transient (L : Z × ℝ →ₗ[ℝ] Z × ℝ) (z : Z) (k : Nat) : ℝ :=
  (L (freeState L z k, 0)).2

end

/-- The powers in force for the samples requested by a list of calls. -/
def powersOf : ℝ → List SrcOp → List ℝ
  | _, [] => []
  | p, .get n :: ops => List.replicate n p ++ powersOf p ops
  | _, .power (.num q) :: ops => powersOf q ops
  | p, .power (.vec _) :: ops => powersOf p ops

end Verif

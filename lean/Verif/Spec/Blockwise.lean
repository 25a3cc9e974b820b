/-
What a control filter plays, and impulse responses with an added delay.
-/
import Verif.Model.Fir
import Mathlib.Algebra.Ring.Defs
namespace Verif

variable {R : Type}

/-- The signals `x` filtered by the impulse responses `W`, the past before time 0
taken to be silent: `Σ_s Σ_{q ≤ n} W[s, l, q] * x_s(n - q)`. -/
def filtered [Semiring R] (W : IrMat R) (x : Nat → Nat → R) (l n : Nat) : R :=
  ((List.range W.numIn).map fun s =>
    ((List.range (W.ir s l).length).map fun q =>
      if q ≤ n then (W.ir s l).getD q 0 * x s (n - q) else 0).sum).sum

/-- Impulse responses with `n` zeros in front. -/
def IrMat.delayed [Zero R] (h : IrMat R) (n : Nat) : IrMat R :=
  { h with ir := fun i j => List.replicate n 0 ++ h.ir i j }

end Verif

/-
The transfer functions of C133: impulse responses as polynomials in the delay by
one sample.
-/
import Mathlib.Algebra.Polynomial.Basic
import Mathlib.Algebra.Polynomial.Eval.Coeff
import Mathlib.LinearAlgebra.Matrix.Adjugate
import Verif.Model.Fir
namespace Verif
open Polynomial

variable {R : Type} [CommRing R]

/-- The impulse response from input `i` to output `o` as a polynomial in the delay
`X` by one sample. -/
noncomputable def IrMat.tf (h : IrMat R) (i o : Nat) : R[X] :=
  ∑ n ∈ Finset.range (h.ir i o).length, monomial n ((h.ir i o).getD n 0)

/-- A signal sent through a polynomial in the delay: `Σ_n p_n u(t - n)`. -/
noncomputable def through (p : R[X]) (u : Int → R) (t : Int) : R := p.sum fun n a => a * u (t - n)

/-- What the loop does to `nr` reference microphones: itself minus what comes back
through the control filter `W`, a block of `bs` samples, `nl` loudspeakers and the
feedback paths `F`. -/
noncomputable def loopMat (W F : IrMat R) (nr nl bs : Nat) : Matrix (Fin nr) (Fin nr) R[X] :=
  (1 : Matrix (Fin nr) (Fin nr) R[X]) - Matrix.of fun (p q : Fin nr) => X ^ bs * ∑ j : Fin nl, F.tf j p * W.tf q j

/-- The transfer function of the closed loop from channel `i` of a source to
microphone `c`, times the determinant of the loop: the direct path `P`, and the way
over the reference microphones (`Q`), the control filter, a block, and the
loudspeakers (`S`). -/
noncomputable def loopTf (W F S Q P : IrMat R) (nr nl bs i c : Nat) : R[X] :=
  (loopMat W F nr nl bs).det * P.tf i c +
    X ^ bs * ∑ j : Fin nl, ∑ q : Fin nr, ∑ p : Fin nr,
      S.tf j c * W.tf q j * (loopMat W F nr nl bs).adjugate q p * Q.tf i p

end Verif

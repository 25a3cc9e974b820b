/-
`FastBlockFxLMS` adapted to louder or softer sources, for C180.
-/
import Verif.Spec.Fast
namespace Verif

/-- The parameters that fit sources that are `a` times as loud. -/
def FxPar.louderFast {R : Type} [Field R] (a : R) (q : FxPar R) : FxPar R := { q with beta := a ^ 2 * q.beta }

end Verif

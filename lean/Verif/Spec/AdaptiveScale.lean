/-
The parameters of an adaptive filter for louder or softer signals (C152).
-/
import Verif.Model.Adaptive
namespace Verif

/-- The parameters that suit signals `a` times as large: without normalization the step
size is divided by `a²`, with normalization `beta`, which is added to an energy, is
multiplied by `a²`. -/
def FxPar.louder {R : Type} [Field R] (a : R) (q : FxPar R) : FxPar R :=
  match q.norm with
  | .none => { q with mu := q.mu / a ^ 2 }
  | _ => { q with beta := a ^ 2 * q.beta }

end Verif

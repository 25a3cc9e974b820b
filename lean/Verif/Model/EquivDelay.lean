/-
Model of `equivalent_delay` in `examples/anc_processors.py:217-228`.
-/
import Mathlib.Algebra.Order.Field.Basic
namespace Verif

section
variable {R : Type} [Field R] [DecidableEq R]

/-- One pass of the loop, `anc_processors.py:224-227`, for the impulse response of one
pair: `np.sum(np.arange(len) * ir**2) / np.sum(ir**2)`; `none` stands for the `nan` that
numpy returns for 0 divided by 0. -/
def equivDelayOne (ir : List R) : Option R :=
  let num := ((List.range ir.length).map fun (k : Nat) => (k : R) * ir.getD k 0 ^ 2).sum
  let den := (ir.map (· ^ 2)).sum
  if den = 0 then none else some (num / den)

/-- `equivalent_delay`, `anc_processors.py:217-228`. -/
def equivalentDelay (ir : List (List (List R))) : List (List (Option R)) :=
  ir.map fun a => a.map equivDelayOne

end
end Verif

/-
Specification vocabulary for power diagnostics.
-/
import Verif.Spec.Run
namespace Verif

/-- `x` is the mean over the channels `rows` of the squared samples the run
produced for `sig` at time index `t`. -/
def SimCfg.PowerAt {R IR F S A P D O : Type} [Field R] (cfg : SimCfg R IR F S A P D O)
    (st0 : SimSt R F S A P D O) (sig : String) (rows : List Nat) (t : Nat) (x : R) : Prop :=
  ∃ vs, List.Forall₂ (fun c v => cfg.Produced st0 sig c t v) rows vs ∧
    x = (vs.map fun v => v * v).sum / rows.length

/-- Average of the `q` values of `g` up to and including index `t`, values
before index `s` counted as zero. -/
def avgSince {R : Type} [Field R] (q : Nat) (g : Nat → R) (s t : Nat) : R :=
  ((List.range (min q (t - s + 1))).map fun j => g (t - j) / (q : R)).sum

end Verif

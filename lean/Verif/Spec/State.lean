/-
What a diagnostic of the processor state can observe.
-/
import Verif.Spec.Run
namespace Verif

/-- `p` is the state of the processor as iteration `n` leaves it. -/
def SimCfg.StateAt {R IR F S A P D O : Type} [Zero R] [Add R] (cfg : SimCfg R IR F S A P D O)
    (st0 : SimSt R F S A P D O) (n : Nat) (p : P) : Prop :=
  cfg.proc.isSome ∧ ∃ st, cfg.steps (n + 1) st0 = .ok st ∧ st.eng.proc = p

end Verif

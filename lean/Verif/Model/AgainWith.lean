/-
A second call of `run_simulation` on a simulator with an adaptive processor.
-/
import Verif.Model.Adaptive
namespace Verif

/-- `run_simulation` called again on a simulator whose processor has a `prepare` method that does
something, `simulator.py:254-312`: as `SimCfg.runAgain`; `prepare` is called again
(`simulator.py:279-281`), nothing sets the filters and the counter of the processor back. -/
def SimCfg.runWithAgain {R IR F S A P D O : Type} [Zero R] [Add R] (cfg : SimCfg R IR F S A P D O)
    (prep : P → Sigs R → Int → Except PyErr (P × Sigs R)) (last : SimSt R F S A P D O) (f0 : F)
    (diags : List (Diag D)) : Except PyErr (SimSt R F S A P D O) :=
  cfg.runWith prep last.eng.srcs last.eng.arr last.eng.proc f0 diags

end Verif

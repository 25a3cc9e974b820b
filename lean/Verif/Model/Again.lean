/-
A second call of `run_simulation` on the same simulator.
-/
import Verif.Model.Sim
namespace Verif

/-- `run_simulation` called again, `simulator.py:284-312`: the sources, the array collection, the
processor and the diagnostics are those of the simulator, in the state in which the last run left
them; signals and filters are made anew (`simulator.py:264,275`).  The signals that are copied
from the processor are again those that it created itself: `proc.sig` now is the store of the
last run, which holds these and the signals of the arrays (`simulator.py:268-272,280`). -/
def SimCfg.runAgain {R IR F S A P D O : Type} [Zero R] [Add R] (cfg : SimCfg R IR F S A P D O) (last : SimSt R F S A P D O) (f0 : F)
    (diags : List (Diag D)) : Except PyErr (SimSt R F S A P D O) :=
  cfg.run last.eng.srcs last.eng.arr last.eng.proc f0 diags

end Verif

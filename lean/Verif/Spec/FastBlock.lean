/-
Two simulations that differ in the processor only (C147).
-/
import Verif.Model.Adaptive
import Verif.Model.Sim
namespace Verif

/-- The same simulation with another processor and other diagnostics. -/
def SimCfg.withProc {R IR F S A P D O P' D' O' : Type} (cfg : SimCfg R IR F S A P D O) (proc : Option (Proc R P'))
    (diag : DiagOps R P' D' O') : SimCfg R IR F S A P' D' O' where
  B := cfg.B
  C := cfg.C
  tot := cfg.tot
  warm := cfg.warm
  contrib := cfg.contrib
  plotNone := cfg.plotNone
  arrays := cfg.arrays
  srcGet := cfg.srcGet
  filt := cfg.filt
  arrUpdate := cfg.arrUpdate
  arrPath := cfg.arrPath
  proc := proc
  diag := diag

/-- The secondary paths with the delay of one block have no more taps than the control
filter. -/
def ShortPaths {R : Type} (q : FxPar R) (S : IrMat R) : Prop := ∀ l < q.nl, ∀ m < q.ne, q.bs + (S.ir l m).length ≤ q.L

end Verif

/-
Several runs of the same simulator with an adaptive processor.
-/
import Verif.Model.AgainWith
import Verif.Spec.Adaptive
import Verif.Spec.Fast
namespace Verif

section
variable {R IR F S A P D O : Type} [Zero R] [Add R]

/-- The sources, the array collection and the processor of a simulator after `n` completed calls of
`run_simulation`, each with diagnostics of distinct names; before the first one they are `srcs`,
`arr` and `proc`. -/
inductive SimCfg.AfterRuns (cfg : SimCfg R IR F S A P D O) (prep : P → Sigs R → Int → Except PyErr (P × Sigs R))
    (srcs : String → S) (arr : A) (proc : P) : Nat → (String → S) → A → P → Prop
  | start : cfg.AfterRuns prep srcs arr proc 0 srcs arr proc
  | again {n : Nat} {s : String → S} {a : A} {p : P} {f : F} {ds : List (Diag D)} {fin : SimSt R F S A P D O} :
    cfg.AfterRuns prep srcs arr proc n s a p → (ds.map Diag.name).Nodup → cfg.runWith prep s a p f ds = .ok fin →
    cfg.AfterRuns prep srcs arr proc (n + 1) fin.eng.srcs fin.eng.arr fin.eng.proc

/-- At every call of a run that begins when the processor has handled `K` samples the signals
reach back far enough. -/
def ReachesFrom (cfg : SimCfg R IR F S A P D O) (q : FxPar R) (look K : Nat) : Prop :=
  ∀ k < cfg.tot + q.bs, k % q.bs = q.bs - 1 → looksBack q look (K + k) ≤ cfg.indexAt k

/-- The samples a processor has handled after `n` runs: in each run whole blocks of the `tot + bs`
steps. -/
def SimCfg.handled (cfg : SimCfg R IR F S A P D O) (q : FxPar R) (n : Nat) : Nat :=
  n * ((cfg.tot + q.bs) / q.bs * q.bs)

/-- The samples a free source has delivered after `n` runs. -/
def SimCfg.delivered (cfg : SimCfg R IR F S A P D O) (n : Nat) : Nat :=
  n * ((if cfg.warm then cfg.B else 1) + cfg.tot + cfg.mbs)

end
end Verif

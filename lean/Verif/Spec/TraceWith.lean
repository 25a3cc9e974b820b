/-
Observing the calls of a processor that works during the preparation of the run.
-/
import Verif.Spec.Trace
import Verif.Model.Adaptive
namespace Verif

section
variable {R IR F S A P D O : Type}

/-- The preparation of the wrapped processor: no call of `process`, so nothing is noted. -/
def tracedPrep (prep : P → Sigs R → Int → Except PyErr (P × Sigs R)) (q : P × List (Call R)) (S : Sigs R) (i : Int) :
    Except PyErr ((P × List (Call R)) × Sigs R) :=
  match prep q.1 S i with
  | .error x => .error x
  | .ok (p', S') => .ok ((p', q.2), S')

/-- In the first `k` iterations after a preparation with `prep` the processor was called with
the arguments `l`, in this order. -/
def SimCfg.CallsWith [Zero R] [Add R] (cfg : SimCfg R IR F S A P D O) (prep : P → Sigs R → Int → Except PyErr (P × Sigs R))
    (srcs : String → S) (arr : A) (proc : P) (f0 : F) (ds0 : List (Diag D)) (k : Nat) (l : List (Call R)) : Prop :=
  ∃ st0 st, cfg.traced.initWith (tracedPrep prep) srcs arr (proc, []) f0 ds0 = .ok st0 ∧
    cfg.traced.steps k st0 = .ok st ∧ st.eng.proc.2 = l

end
end Verif

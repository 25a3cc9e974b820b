/-
A simulation in which the calls of the processor can be observed: the processor
object is wrapped in one that notes for every call of `process` the signals and
the current index it was called with.
-/
import Verif.Model.Sim
namespace Verif

/-- Arguments of one call of `process`: the signals and the current index. -/
abbrev Call (R : Type) := Sigs R × Int

section
variable {R IR F S A P D O : Type}

/-- The wrapped processor. -/
def Proc.traced (p : Proc R P) : Proc R (P × List (Call R)) where
  bs := p.bs
  extra := p.extra
  process := fun q S i =>
    match p.process q.1 S i with
    | .error x => .error x
    | .ok (p', S') => .ok ((p', q.2 ++ [(S, i)]), S')

/-- Diagnostics see the original processor. -/
def DiagOps.traced (ops : DiagOps R P D O) : DiagOps R (P × List (Call R)) D O where
  save := fun d o => ops.save d (o.map Prod.fst)
  output := ops.output

def SimCfg.traced (cfg : SimCfg R IR F S A P D O) :
    SimCfg R IR F S A (P × List (Call R)) D O where
  B := cfg.B
  C := cfg.C
  tot := cfg.tot
  warm := cfg.warm
  contrib := cfg.contrib
  plotNone := cfg.plotNone
  arrays := cfg.arrays
  srcGet := cfg.srcGet
  filt := cfg.filt
  arrUpdate := cfg.arrUpdate
  arrPath := cfg.arrPath
  proc := cfg.proc.map Proc.traced
  diag := cfg.diag.traced

def Eng.forget {Sg : Type} (e : Eng Sg F S A (P × List (Call R))) : Eng Sg F S A P where
  sig := e.sig
  srcs := e.srcs
  filts := e.filts
  arr := e.arr
  proc := e.proc.1

/-- The state without the notes. -/
def SimSt.forget (st : SimSt R F S A (P × List (Call R)) D O) : SimSt R F S A P D O where
  eng := st.eng.forget
  idx := st.idx
  n := st.n
  diags := st.diags
  log := st.log

/-- In the first `k` iterations the processor was called with the arguments
`l`, in this order. -/
def SimCfg.Calls [Zero R] [Add R] (cfg : SimCfg R IR F S A P D O) (srcs : String → S) (arr : A)
    (proc : P) (f0 : F) (ds0 : List (Diag D)) (k : Nat) (l : List (Call R)) : Prop :=
  ∃ st0 st, cfg.traced.init srcs arr (proc, []) f0 ds0 = .ok st0 ∧
    cfg.traced.steps k st0 = .ok st ∧ st.eng.proc.2 = l

end
end Verif

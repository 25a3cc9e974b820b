/-
Observable behaviour of a run, stated on the simulator itself.
-/
import Verif.Spec.Pieces
import Verif.Model.Diagnostics
namespace Verif

section
variable {R IR F S A P D O : Type}

/-- Entry `(c, i)` of a signal. -/
def Sigs.At (S : Sigs R) (name : String) (c i : Nat) (v : R) : Prop :=
  ∃ m row, S name = some m ∧ m[c]? = some row ∧ row[i]? = some v

/-- `v` is the sample of channel `c` of a signal that the simulation produces
for time index `t`: for `t = 0` the last sample generated during preparation,
for `t = n + 1` the sample at the current buffer index after the processor and
the propagator have done their work in iteration `n`. -/
def SimCfg.Produced [Zero R] [Add R] (cfg : SimCfg R IR F S A P D O) (st0 : SimSt R F S A P D O)
    (name : String) (c : Nat) : Nat → R → Prop
  | 0, v => st0.eng.sig.At name c (cfg.B - 1) v
  | n + 1, v => ∃ st e, cfg.steps n st0 = .ok st ∧ cfg.engine st.n st.idx st.eng = .ok e ∧
      0 ≤ st.idx ∧ e.sig.At name c st.idx.toNat v

/-- Sample of a source signal as the path filters see it: the produced sample
from time index 0 on, before that the history written during preparation (one
sample, which is that of time index 0, or the whole buffer), and silence before. -/
def SimCfg.Emitted [Zero R] [Add R] (cfg : SimCfg R IR F S A P D O) (st0 : SimSt R F S A P D O)
    (name : String) (c : Nat) (t : Int) (v : R) : Prop :=
  if 0 ≤ t then cfg.Produced st0 name c t.toNat v
  else if cfg.warm = true ∧ -(cfg.B : Int) < t then
    st0.eng.sig.At name c ((cfg.B : Int) - 1 + t).toNat v
  else v = 0

/-- State of the array collection after the updates of the iterations
`0, ..., n-1`. -/
def SimCfg.arrAfter (cfg : SimCfg R IR F S A P D O) (arr : A) : Nat → Except PyErr A
  | 0 => .ok arr
  | n + 1 =>
    match cfg.arrAfter arr n with
    | .error x => .error x
    | .ok a => cfg.arrUpdate a n

/-- `h` is the impulse response from `s` to `m` in force for time index `t`: the
initial one if both arrays stand still and at time index 0, otherwise the one of
the array collection as it is after the update of iteration `t-1`, in which the
sample is generated. -/
def SimCfg.IrAt (cfg : SimCfg R IR F S A P D O) (arr : A) (s m : ArrInfo) : Nat → IR → Prop
  | 0, h => cfg.arrPath arr s.name m.name = .ok h
  | n + 1, h => if s.dynamic = true ∨ m.dynamic = true then
      ∃ a, cfg.arrAfter arr (n + 1) = .ok a ∧ cfg.arrPath a s.name m.name = .ok h
    else cfg.arrPath arr s.name m.name = .ok h

/-- `t` lies in one of the intervals. -/
def Covered (ivs : List (Int × Int)) (t : Nat) : Prop := ∃ q ∈ ivs, q.1 ≤ (t : Int) ∧ (t : Int) < q.2

instance (ivs : List (Int × Int)) (t : Nat) : Decidable (Covered ivs t) :=
  inferInstanceAs (Decidable (∃ q ∈ ivs, _))

/-- The intervals meant by the argument `save_at`: the whole run by default. -/
def savedIvs (tot : Nat) : Option (List (Int × Int)) → List (Int × Int)
  | none => [(0, (tot : Int))]
  | some ivs => ivs

/-- A simulation with the real diagnostic classes that has been prepared:
admissible sizes, distinct diagnostic names (keys of a dictionary), state
`st0` after preparation. -/
structure Started {V : Type} [Field R] [DecidableEq R]
    (cfg : SimCfg R IR F S A P (DData R P V) (DOut R V)) (lp : ProcView R P)
    (srcs : String → S) (arr : A) (proc : P) (f0 : F) (ds0 : List (Diag (DData R P V)))
    (st0 : SimSt R F S A P (DData R P V) (DOut R V)) : Prop where
  sizes : Admissible cfg lp
  diag : cfg.diag = diagOps R P V
  names : (ds0.map Diag.name).Nodup
  init : cfg.init srcs arr proc f0 ds0 = .ok st0

/-- A simulation with the real diagnostic classes that ran to its end:
admissible sizes, distinct diagnostic names (keys of a dictionary), state
`st0` after preparation, final state `fin`. -/
structure CompletedRun {V : Type} [Field R] [DecidableEq R]
    (cfg : SimCfg R IR F S A P (DData R P V) (DOut R V)) (lp : ProcView R P)
    (srcs : String → S) (arr : A) (proc : P) (f0 : F) (ds0 : List (Diag (DData R P V)))
    (st0 fin : SimSt R F S A P (DData R P V) (DOut R V)) : Prop where
  sizes : Admissible cfg lp
  diag : cfg.diag = diagOps R P V
  names : (ds0.map Diag.name).Nodup
  init : cfg.init srcs arr proc f0 ds0 = .ok st0
  run : cfg.run srcs arr proc f0 ds0 = .ok fin

end
end Verif

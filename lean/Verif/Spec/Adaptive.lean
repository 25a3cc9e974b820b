/-
The filtered-x LMS algorithm on signals (C143, C144).
-/
import Mathlib.Algebra.BigOperators.Group.Finset.Basic
import Mathlib.Algebra.Field.Defs
import Verif.Model.Adaptive
import Verif.Spec.Fir
import Verif.Spec.Fxlms
import Verif.Spec.Run
namespace Verif

section
variable {R : Type} [Field R]

/-- The weight of the sample at time `t` of a block that begins at time `t0`:
`X` are the filtered references of all reference microphones, loudspeakers and
error microphones. -/
def lmsWeight (norm : FxNorm) (β : R) (nr nl ne L ub : Nat) (X : Nat → Nat → Nat → Int → R) (t0 t : Int) : R :=
  match norm with
  | .none => 1
  | .sample => 1 / ((∑ r ∈ Finset.range nr, ∑ l ∈ Finset.range nl, ∑ m ∈ Finset.range ne,
      ∑ k ∈ Finset.range L, X r l m (t - k) * X r l m (t - k)) + β)
  | .block => 1 / ((∑ r ∈ Finset.range nr, ∑ l ∈ Finset.range nl, ∑ m ∈ Finset.range ne,
      ∑ i ∈ Finset.range ub, X r l m (t0 + i) * X r l m (t0 + i)) + β)

/-- The gradient over the block of `ub` samples that begins at time `t0`, for tap `q`
between reference microphone `r` and loudspeaker `l`: correlation of the filtered
references with the errors `e`. -/
def lmsGrad (norm : FxNorm) (β : R) (nr nl ne L ub : Nat) (X : Nat → Nat → Nat → Int → R) (e : Nat → Int → R)
    (t0 : Int) (r l q : Nat) : R :=
  ∑ i ∈ Finset.range ub, (∑ m ∈ Finset.range ne, X r l m (t0 + i - q) * e m (t0 + i)) *
    lmsWeight norm β nr nl ne L ub X t0 (t0 + i)

/-- The taps after `j` updates, the first over the block that begins at time `a`. -/
def lmsTaps (norm : FxNorm) (β μ : R) (nr nl ne L ub a : Nat) (X : Nat → Nat → Nat → Int → R) (e : Nat → Int → R) :
    Nat → Nat → Nat → Nat → R
  | 0, _, _, _ => 0
  | j + 1, r, l, q => lmsTaps norm β μ nr nl ne L ub a X e j r l q -
      lmsGrad norm β nr nl ne L ub X e ((a + j * ub : Nat) : Int) r l q * μ

end

section
variable {R IR F S A P D O : Type}

/-- `v` is the sample of a signal for time index `t`: as produced from time index 0 on,
before that what the preparation has left in the buffer, and 0 before the buffer. -/
def SimCfg.Recorded [Zero R] [Add R] (cfg : SimCfg R IR F S A P D O) (st0 : SimSt R F S A P D O)
    (name : String) (c : Nat) (t : Int) (v : R) : Prop :=
  if 0 ≤ t then cfg.Produced st0 name c t.toNat v
  else if -(cfg.B : Int) < t then st0.eng.sig.At name c ((cfg.B : Int) - 1 + t).toNat v
  else v = 0

/-- A simulation with the processor `FxLMS`: one reference and one error microphone
array and one loudspeaker array of the sizes the processor was made for, sizes as the
constructor asks for and signals that hold as many samples as the control filter has taps.  No array has
the name the processor uses for its own signal.  With normalization the step is never
divided by zero, as for a positive `beta` over the reals. -/
structure FxScene [Field R] (cfg : SimCfg R IR F S A (FxSt R) D O) (q : FxPar R) : Prop where
  proc : cfg.proc = some (fxProc q)
  ref : ∃ a ∈ cfg.arrays, a.name = "ref" ∧ a.kind = .mic ∧ a.num = q.nr
  err : ∃ a ∈ cfg.arrays, a.name = "error" ∧ a.kind = .mic ∧ a.num = q.ne
  ls : ∃ a ∈ cfg.arrays, a.name = "loudspeaker" ∧ a.kind = .ctrl ∧ a.num = q.nl
  own : ∀ a ∈ cfg.arrays, a.name ≠ "xf"
  nr : 0 < q.nr
  nl : 0 < q.nl
  ne : 0 < q.ne
  L : 0 < q.L
  bs : 0 < q.bs
  ub : 0 < q.ub ∧ q.bs ∣ q.ub
  chunk : 1 ≤ cfg.C ∧ (2 ≤ cfg.C ∨ q.bs ≤ cfg.C)
  buffer : q.bs + 1 ≤ cfg.B ∧ q.L ≤ cfg.B + cfg.C
  regular : q.norm = .none ∨ ∀ l : List R, (l.map fun x => x * x).sum + q.beta ≠ 0

/-- The index into the signals at step `k`, for blocks not longer than a chunk: the signals
hold `B + C` samples, and are moved back by `C` when the next block would not fit. -/
def SimCfg.indexAt (cfg : SimCfg R IR F S A P D O) (k : Nat) : Nat := cfg.B + 1 - cfg.mbs + (k + cfg.mbs - 1) % cfg.C

/-- How many samples the processor looks back when it is called at step `k`: one block, and
`look` samples for an update, after every `ub` samples. -/
def looksBack (q : FxPar R) (look k : Nat) : Nat :=
  if 0 < k + 1 - q.bs ∧ q.ub ∣ k + 1 - q.bs then look else q.bs

/-- At every call during the first `N` steps the signals reach back far enough. -/
def Reaches (cfg : SimCfg R IR F S A P D O) (q : FxPar R) (look N : Nat) : Prop :=
  ∀ k < N, k % q.bs = q.bs - 1 → looksBack q look k ≤ cfg.indexAt k

/-- The signals hold what the processor looks at: by a buffer that is large enough
wherever the updates fall, or by where the updates of this simulation fall. -/
def Holds (cfg : SimCfg R IR F S A P D O) (q : FxPar R) (look N : Nat) : Prop :=
  look + q.bs ≤ cfg.B + 1 ∨ q.bs ≤ cfg.C ∧ Reaches cfg q look N

/-- The control filter has one impulse response of `L` taps from every reference microphone
to every loudspeaker. -/
def FxShape (q : FxPar R) (p : FxSt R) : Prop :=
  p.ctrl.mat.numIn = q.nr ∧ p.ctrl.mat.numOut = q.nl ∧
    ∀ r < q.nr, ∀ l < q.nl, (p.ctrl.mat.ir r l).length = q.L

/-- What passes the model of the secondary paths in the processor: for a block size
above 1 the reference samples of the times `1, ..., bs-1` are left out. -/
def skipped [Zero R] (bs : Nat) (ρ : Nat → Int → R) : Nat → Int → R :=
  fun c t => if t ≤ 0 then ρ c t else ρ c (t + (bs - 1))

/-- The filtered reference as the processor stores it. -/
def storedRef [CommRing R] (S : IrMat R) (bs : Nat) (ρ : Nat → Int → R) (r l m : Nat) (t : Int) : R :=
  if t ≤ 0 then filteredRef S bs (skipped bs ρ) r l m t
  else if t < bs then 0
  else filteredRef S bs (skipped bs ρ) r l m (t - (bs - 1))

/-- The loudspeaker signal of the adaptive filter: silence for one block, then the
reference from time 0 on, one block late, through the taps `W j` after the `j` updates
made so far: one after every `ub` samples, the first after the second block. -/
def adaptiveOut [CommRing R] (bs ub nr L : Nat) (W : Nat → Nat → Nat → Nat → R) (ρ : Nat → Int → R) (l t : Nat) : R :=
  if t < bs then 0 else ∑ r ∈ Finset.range nr, ∑ q ∈ Finset.range L,
    W ((t / bs - 2) * bs / ub) r l q * (if (t : Int) - bs - q < 0 then 0 else ρ r ((t : Int) - bs - q))

/-- What the sources of a simulation with a processor play at time index `t`: the
processor's loudspeakers its output `y` from time index 0 on, every other source what
it plays without processors. -/
def SimCfg.playedWith [Zero R] (cfg : SimCfg R IR F S A P D O) (x : String → Nat → Nat → R) (y : Nat → Nat → R)
    (s : String) (i : Nat) (t : Int) : R :=
  if s = "loudspeaker" then (if t < 0 then 0 else y i t.toNat) else cfg.played x s i t

/-- A simulation with `FxLMS` and the real diagnostic classes that ran to its end:
distinct diagnostic names, state `st0` after preparation, final state `fin`. -/
structure FxRun {V : Type} [Field R] [DecidableEq R] (cfg : SimCfg R IR F S A (FxSt R) (DData R (FxSt R) V) (DOut R V))
    (q : FxPar R) (Sp : IrMat R) (srcs : String → S) (arr : A) (f0 : F) (ds0 : List (Diag (DData R (FxSt R) V)))
    (st0 fin : SimSt R F S A (FxSt R) (DData R (FxSt R) V) (DOut R V)) : Prop where
  scene : FxScene cfg q
  diag : cfg.diag = diagOps R (FxSt R) V
  names : (ds0.map Diag.name).Nodup
  init : cfg.initWith fxPrepare srcs arr (fxInit q Sp) f0 ds0 = .ok st0
  run : cfg.runWith fxPrepare srcs arr (fxInit q Sp) f0 ds0 = .ok fin

end
end Verif

/-
What the active noise control example with measured responses needs in order to run (C176, C177).
-/
import Verif.Model.AncReal
import Verif.Spec.Anc
import Verif.Spec.Fast
namespace Verif

section
variable {K R G S V : Type} [Field K] [LinearOrder K] [Field R] [DecidableEq R]

/-- The parameters of a simulation with arrays `as` and the processor. -/
def SimCfg.withFast {A D O F : Type} (base : SimCfg R (IrMat R) F S A (FastSt R) D O) (as : List (Arr (K × K × K)))
    (q : FxPar R) : SimCfg R (IrMat R) F S A (FastSt R) D O :=
  { base.withArrays as with proc := some (fastProc q) }

/-- A room without user errors with arrays "ref", "error" and "loudspeaker" of the right kinds, noise
sources that can deliver any number of samples, and a processor `FastBlockFxLMS` and signals of sizes
that fit together.  The step is never divided by zero. -/
structure RealScene (base : SimCfg R (IrMat R) (Fir R) S (G × Coll (K × K × K) (IrMat R)) (FastSt R) (DData R (FastSt R) V) (DOut R V))
    (ext : RoomExt K R G) (i : RoomInfo K) (freq : Nat) (as : List (Arr (K × K × K))) (os : List (PathOp R)) (t : String)
    (srcs : String → S) (q : FxPar R) : Prop where
  plan : RoomPlan ext i freq as os t
  diag : base.diag = diagOps R (FastSt R) V
  filt : base.filt = firOps R
  ref : ∃ a ∈ as, a.name = "ref" ∧ a.kind = some .mic ∧ a.num = q.nr
  err : ∃ a ∈ as, a.name = "error" ∧ a.kind = some .mic ∧ a.num = q.ne
  ls : ∃ a ∈ as, a.name = "loudspeaker" ∧ a.kind = some .ctrl ∧ a.num = q.nl
  own : ∀ a ∈ as, a.name ≠ "xf"
  names : ((base.withFast as q).signalList.map (·.1)).Nodup
  streams : ∀ a ∈ as, a.kind = some .free → ∃ x, IsStream base.srcGet (srcs a.name) a.num x
  L : 0 < q.L
  bs : 0 < q.bs
  ub : q.ub = q.L ∧ q.bs ∣ q.L
  norm : q.norm = .block
  chunk : 1 ≤ base.C ∧ (2 ≤ base.C ∨ q.bs ≤ base.C)
  buffer : q.bs + 1 ≤ base.B ∧ 2 * q.L ≤ base.B + base.C
  regular : ∀ l : List R, (l.map fun x => x * x).sum + q.beta ≠ 0

/-- A simulation with `FastBlockFxLMS` and the real diagnostic classes that ran to its end: distinct
diagnostic names, state `st0` after preparation, final state `fin`. -/
structure FastRun {IR F A : Type} (cfg : SimCfg R IR F S A (FastSt R) (DData R (FastSt R) V) (DOut R V))
    (q : FxPar R) (Sp : IrMat R) (srcs : String → S) (arr : A) (f0 : F) (ds0 : List (Diag (DData R (FastSt R) V)))
    (st0 fin : SimSt R F S A (FastSt R) (DData R (FastSt R) V) (DOut R V)) : Prop where
  scene : FastScene cfg q
  diag : cfg.diag = diagOps R (FastSt R) V
  names : (ds0.map Diag.name).Nodup
  init : cfg.initWith (fastPrepare q) srcs arr (fastInit q Sp) f0 ds0 = .ok st0
  run : cfg.runWith (fastPrepare q) srcs arr (fastInit q Sp) f0 ds0 = .ok fin

/-- A source with the samples `x` that has begun at time index `-(prep - 1)`, and is silent before. -/
def streamFrom (prep : Nat) (x : Nat → Nat → R) (i : Nat) (t : Int) : R :=
  if -(prep : Int) < t then x i (t + prep - 1).toNat else 0

end
end Verif

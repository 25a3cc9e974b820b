/-
Two simulations with the adaptive filter, the sources of the second one start later (C156).
-/
import Verif.Spec.Adaptive
import Verif.Spec.Stream
namespace Verif

/-- Two simulations with `FxLMS` and arrays that stand still, with `start_sources_before_0 = False`.  In
the second one every source plays zeros for `n > 0` update blocks first; it runs for as many more
steps. -/
structure LaterRuns {R S A D O : Type} [Field R] (cfg : SimCfg R (IrMat R) (Fir R) S A (FxSt R) D O) (q : FxPar R) (Sp : IrMat R)
    (srcs srcs' : String → S) (arr : A) (f0 : Fir R) (ds ds' : List (Diag D)) (k n : Nat)
    (st0 st st0' st' : SimSt R (Fir R) S A (FxSt R) D O) : Prop where
  scene : FxScene cfg q
  init : cfg.initWith fxPrepare srcs arr (fxInit q Sp) f0 ds = .ok st0
  init' : cfg.initWith fxPrepare srcs' arr (fxInit q Sp) f0 ds' = .ok st0'
  steps : cfg.steps k st0 = .ok st
  later : 0 < n
  steps' : cfg.steps (k + n * q.ub) st0' = .ok st'
  filt : cfg.filt = firOps R
  pos : ∀ a ∈ cfg.arrays, 0 < a.num
  shape : cfg.PathShape arr
  still : ∀ a ∈ cfg.arrays, a.dynamic = false
  cold : cfg.warm = false
  streams : ∃ x : String → Nat → Nat → R, ∀ b ∈ cfg.arrays, b.kind = .free →
    IsStream cfg.srcGet (srcs b.name) b.num (x b.name) ∧
    IsStream cfg.srcGet (srcs' b.name) b.num fun c j => if j < n * q.ub then 0 else x b.name c (j - n * q.ub)

end Verif

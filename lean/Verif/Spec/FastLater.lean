/-
Two simulations with the adaptive filter `FastBlockFxLMS`, the sources of the second one start later (C181).
-/
import Verif.Spec.Fast
import Verif.Spec.Stream
namespace Verif

/-- Two simulations with `FastBlockFxLMS` and arrays that stand still, with `start_sources_before_0 = False`.  In
the second one every source plays zeros for `n > 0` times the filter length first; it runs for as many more
steps. -/
structure LaterFast {R S A D O : Type} [Field R] (cfg : SimCfg R (IrMat R) (Fir R) S A (FastSt R) D O) (q : FxPar R) (Sp : IrMat R)
    (srcs srcs' : String → S) (arr : A) (f0 : Fir R) (ds ds' : List (Diag D)) (k n : Nat)
    (st0 st st0' st' : SimSt R (Fir R) S A (FastSt R) D O) : Prop where
  scene : FastScene cfg q
  init : cfg.initWith (fastPrepare q) srcs arr (fastInit q Sp) f0 ds = .ok st0
  init' : cfg.initWith (fastPrepare q) srcs' arr (fastInit q Sp) f0 ds' = .ok st0'
  steps : cfg.steps k st0 = .ok st
  later : 0 < n
  steps' : cfg.steps (k + n * q.L) st0' = .ok st'
  filt : cfg.filt = firOps R
  pos : ∀ a ∈ cfg.arrays, 0 < a.num
  shape : cfg.PathShape arr
  still : ∀ a ∈ cfg.arrays, a.dynamic = false
  cold : cfg.warm = false
  streams : ∃ x : String → Nat → Nat → R, ∀ b ∈ cfg.arrays, b.kind = .free →
    IsStream cfg.srcGet (srcs b.name) b.num (x b.name) ∧
    IsStream cfg.srcGet (srcs' b.name) b.num fun c j => if j < n * q.L then 0 else x b.name c (j - n * q.L)

end Verif

/-
What a microphone array hears of the noise (C200).
-/
import Verif.Spec.Adaptive
namespace Verif

section
variable {R S A P D O S' A' P' D' O' : Type} [Semiring R]

/-- `v` is what channel `c` of the microphone array `m` hears of the free sources at time
index `t`: their streams through the impulse responses in force, before time index 0 the
initial ones. -/
def SimCfg.NoiseAt (cfg : SimCfg R (IrMat R) (Fir R) S A P D O) (arr : A) (x : String → Nat → Nat → R) (m : ArrInfo)
    (c : Nat) (t : Int) (v : R) : Prop :=
  ∃ ir : String → IrMat R, (∀ s ∈ cfg.arrays, s.kind = .free → cfg.IrAt arr s m t.toNat (ir s.name)) ∧
    v = convSum (cfg.arrays.filter fun s => s.kind == .free) ir (cfg.played x) c t

/-- In two simulations a microphone array hears, up to time index `k`, the same of the free
sources and has the same impulse responses from the loudspeakers of the processor. -/
structure SameHeard (cfg : SimCfg R (IrMat R) (Fir R) S A P D O) (arr : A) (x : String → Nat → Nat → R)
    (cfg' : SimCfg R (IrMat R) (Fir R) S' A' P' D' O') (arr' : A') (x' : String → Nat → Nat → R)
    (m m' : ArrInfo) (k : Nat) : Prop where
  num : m'.num = m.num
  noise : ∀ t ≤ (k : Int), ∀ c < m.num, ∃ v, cfg.NoiseAt arr x m c t v ∧ cfg'.NoiseAt arr' x' m' c t v
  path : ∀ l ∈ cfg.arrays, ∀ l' ∈ cfg'.arrays, l.name = "loudspeaker" → l'.name = "loudspeaker" →
    ∀ t ≤ k, ∃ ir, cfg.IrAt arr l m t ir ∧ cfg'.IrAt arr' l' m' t ir

end
end Verif

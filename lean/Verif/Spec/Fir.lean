/-
Convolution formulas for the microphone signals.
-/
import Verif.Model.Fir
import Verif.Spec.Run
namespace Verif

section
variable {R S A P D O : Type}

/-- Shape contract of the paths of the array collection, from its initial state
on: one output channel per microphone. -/
def SimCfg.PathShape (cfg : SimCfg R (IrMat R) (Fir R) S A P D O) (arr : A) : Prop :=
  ∀ n a, cfg.arrAfter arr n = .ok a → ∀ s m h, s ∈ cfg.arrays → m ∈ cfg.arrays →
    cfg.arrPath a s.name m.name = .ok h → h.numOut = m.num

/-- `Σ_s Σ_i Σ_k h_s[i, c, k] * u_{s,i}(t-k)`: all sources `s`, all their
channels `i`, all taps `k`. -/
def convSum [Semiring R] (sources : List ArrInfo) (h : String → IrMat R)
    (u : String → Nat → Int → R) (c : Nat) (t : Int) : R :=
  (sources.map fun s => ((List.range s.num).map fun i =>
    ((List.range ((h s.name).ir i c).length).map fun k =>
      ((h s.name).ir i c).getD k 0 * u s.name i (t - k)).sum).sum).sum

/-- What a source plays at time index `t` when nothing drives the loudspeakers: a
free source its next sample, starting with the first one at time index 0 (or
`sim_buffer - 1` samples earlier with `start_sources_before_0`); everything else
is silence. -/
def SimCfg.played {IR F : Type} [Zero R] (cfg : SimCfg R IR F S A P D O) (x : String → Nat → Nat → R)
    (s : String) (i : Nat) (t : Int) : R :=
  if (∃ a ∈ cfg.arrays, a.name = s ∧ a.kind = .free) ∧ -((if cfg.warm then cfg.B else 1 : Nat) : Int) < t then
    x s i (t + (if cfg.warm then cfg.B else 1 : Nat) - 1).toNat
  else 0

end
end Verif

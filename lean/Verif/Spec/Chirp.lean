/-
What a linear chirp is.
-/
import Mathlib.Algebra.BigOperators.Group.Finset.Basic
import Mathlib.Algebra.BigOperators.Group.Finset.Defs
import Mathlib.Algebra.Field.Defs
namespace Verif

section
variable {K : Type} [Field K]

/-- The frequency at the beginning of sample `j`: it goes from `f0` to `f1` in `S` samples, back in the next `S`, and so on. -/
def sweepFreq (f0 f1 : K) (S j : Nat) : K :=
  if (j / S) % 2 = 0 then f0 + (f1 - f0) * ((j % S : Nat) : K) / S else f1 - (f1 - f0) * ((j % S : Nat) : K) / S

/-- The phase at sample `j`, in turns: the frequency is linear within a sample, so that its integral is the mean of
the frequencies at the beginning and at the end. -/
def sweepPhase (f0 f1 samplerate phase0 : K) (S j : Nat) : K :=
  phase0 + ∑ i ∈ Finset.range j, (sweepFreq f0 f1 S i + sweepFreq f0 f1 S (i + 1)) / 2 / samplerate

/-- The requests `ns` from position `pos` on are such that none goes over more ends of sweeps than
it has whole sweeps. -/
def FitSweeps (S : Nat) : Nat → List Nat → Prop
  | _, [] => True
  | pos, n :: ns => pos % S + n % S ≤ S ∧ FitSweeps S (pos + n) ns

end
end Verif

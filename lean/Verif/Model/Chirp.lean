/-
Model of `LinearChirpSource` in `src/aspsim/signal/sources.py`.
-/
import Mathlib.Algebra.Order.Floor.Ring
import Mathlib.Algebra.Field.Defs
import Verif.Model.PyErr
namespace Verif

section
variable {K : Type} [Field K] [LinearOrder K] [FloorRing K]

/-- What does not change in a `LinearChirpSource`: the attributes `amp`, `samplerate` and `samplesToSweep`
(`signal/sources.py:497-501`), and `wave x` for `np.cos(2 * np.pi * x)` (line 521).  No rounding; a
`samplerate` of 0 is left out. -/
structure ChirpPar (K : Type) where
  amp : K
  samplerate : K
  sweep : Nat
  wave : K → K

/-- What changes: `deltaFreq`, `freq`, `freqCounter` and `phase`, `signal/sources.py:502-505`. -/
structure ChirpSt (K : Type) where
  delta : K
  freq : K
  count : Nat
  phase : K

/-- `LinearChirpSource.__init__`, `signal/sources.py:493-505`: the first statement raises. -/
def chirpCreate (_numChannels : Nat) (_amp : K) (_freqRange : List K) (_sweep : Nat) (_samplerate : K) :
    Except PyErr (ChirpPar K × ChirpSt K) :=
  .error .notImplemented

/-- What the statements of the constructor after the first one set, `signal/sources.py:496-505`, for frequencies from `f0` to
`f1` and the drawn phase (`super.__init__` in line 496 would raise as well, and is left out). -/
def chirpStart (p : ChirpPar K) (f0 f1 phase : K) : ChirpSt K :=
  ⟨(f1 - f0) / p.sweep, f0, 0, phase⟩

/-- `nextPhase`, `signal/sources.py:507-512`. -/
def chirpNextPhase (p : ChirpPar K) (s : ChirpSt K) : ChirpSt K :=
  { s with
    phase := Int.fract (s.phase + (s.freq / p.samplerate + s.delta / (2 * p.samplerate)))
    freq := s.freq + s.delta }

/-- One sample, `signal/sources.py:520-532`: the sample is taken, then the phase, the frequency and the counter go on. -/
def chirpStep (p : ChirpPar K) (s : ChirpSt K) : ChirpSt K :=
  let s := chirpNextPhase p s
  let s := { s with count := s.count + 1 }
  if p.sweep ≤ s.count then { s with delta := -s.delta, count := 0 } else s

/-- The inner loop, `signal/sources.py:520-532`. -/
def chirpBlock (p : ChirpPar K) : Nat → ChirpSt K → ChirpSt K × List K
  | 0, s => (s, [])
  | n + 1, s =>
    let r := chirpBlock p n (chirpStep p s)
    (r.1, p.wave s.phase :: r.2)

/-- The outer loop, `signal/sources.py:518-533`: the samples written to the beginning of `noise`. -/
def chirpLoop (p : ChirpPar K) : Nat → Nat → ChirpSt K → ChirpSt K × List K
  | 0, _, s => (s, [])
  | b + 1, left, s =>
    let n := min left (p.sweep - s.count)
    let r := chirpBlock p n s
    let r' := chirpLoop p b (left - n) r.1
    (r'.1, r.2 ++ r'.2)

/-- `get_samples`, `signal/sources.py:514-536`.  There is one row whatever the number of channels. -/
def chirpGet (p : ChirpPar K) (s : ChirpSt K) (n : Nat) : Except PyErr (ChirpSt K × List (List K)) :=
  if p.sweep = 0 then .error .zeroDivision
  else
    let r := chirpLoop p (1 + n / p.sweep) n s
    .ok (r.1, [(r.2 ++ List.replicate (n - r.2.length) 0).map (· * p.amp)])

end
end Verif

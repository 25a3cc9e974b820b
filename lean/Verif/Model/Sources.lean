/-
Model of the sources in `src/aspsim/signal/sources.py`.  Every source is a
state record and a function `get : state → num_samples → state × samples`
(the method `get_samples`).  Samples are elements of an abstract ring (or `ℝ`
for the sine sources, `ℚ` for the pulse positions); no rounding.
-/
import Mathlib.Algebra.Ring.Defs
import Mathlib.Data.Rat.Floor
import Mathlib.Analysis.SpecialFunctions.Trigonometric.Basic
import Mathlib.Analysis.SpecialFunctions.Pow.NNReal
import Verif.Model.PyErr
import Verif.Model.PySlice
import Verif.Model.Blocks
namespace Verif

/-- Scalar multiple of a `(channels, time)` array, e.g. `sig * self.amp_factor`
(`signal/sources.py:93`). -/
def scale2 {R : Type} [Mul R] (m : List (List R)) (a : R) : List (List R) :=
  m.map fun r => r.map fun x => x * a

/-- `np.zeros((ch, n))`.
(`signal/sources.py:73-94`.) -/
def zeros2 (R : Type) [Zero R] (ch n : Nat) : List (List R) :=
  List.replicate ch (List.replicate n 0)

/-! ### Sequence, `signal/sources.py:46-93` -/

/-- The `end_mode` strings; `other` stands for any other string.
(`signal/sources.py:46-94`.) -/
inductive EndMode | repeat | zeros | raise | other
  deriving DecidableEq, Repr

/-- State of `Sequence` (`signal/sources.py:67-71`).  `audio` is the 2-D array
as a list of rows; `totSamples` its second dimension. -/
structure SeqSt (R : Type) where
  audio : List (List R)
  totSamples : Nat
  amp : R
  mode : EndMode
  cur : Nat

/-- The loop over block lengths, `signal/sources.py:77-81` (also
`GoldSequenceSource.get_samples`, `signal/sources.py:467-473`):
`sig[:,i:i+b] = audio[:,cur:cur+b]; cur = (cur+b) % tot; i += b`. -/
def seqLoop {R : Type} (audio : List (List R)) (tot : Nat) :
    List Int → List (List R) → Int → Int → Except PyErr (List (List R) × Int)
  | [], sig, _, cur => .ok (sig, cur)
  | b :: bs, sig, i, cur =>
    match pyAssign2 sig i (i + b) (pySlice2 audio cur (cur + b)) with
    | none => .error .value
    | some sig' => seqLoop audio tot bs sig' (i + b) ((cur + b) % (tot : Int))

/-- `Sequence.get_samples`, `signal/sources.py:73-93`.  The block-size loop is
run with fuel `n+1`, enough whenever `tot > 0` (`C38_calc_block_sizes`); for
`tot = 0` it never ends (`C38_zero_size_hangs`). -/
def SeqSt.get {R : Type} [Mul R] [Zero R] (s : SeqSt R) (n : Nat) :
    Except PyErr (SeqSt R × List (List R)) :=
  match s.mode with
  | .repeat =>
    match calcBlockSizes (n + 1) n s.cur s.totSamples with
    | none => .error .diverges
    | some bs =>
      match seqLoop s.audio s.totSamples bs (zeros2 R s.audio.length n) 0 s.cur with
      | .error e => .error e
      | .ok (sig, cur) => .ok ({ s with cur := cur.toNat }, scale2 sig s.amp)
  | .zeros => .error .notImplemented
  | .raise =>
    if s.cur + n ≥ s.totSamples then .error .stopIteration
    else .ok ({ s with cur := s.cur + n }, pySlice2 s.audio s.cur (s.cur + n))
  | .other => .error .value

/-! ### Random generators -/

/-- numpy generator: an infinite sequence of standard normal draws and the
number of draws used so far.
(`signal/sources.py:15-26`.) -/
structure Rng (R : Type) where
  z : Nat → R
  pos : Nat

/-- `rng.normal(size=(rows, cols))`: draws are used in row-major order.
(`signal/sources.py:106-109,234-237,384`.) -/
def Rng.normal {R : Type} (g : Rng R) (rows cols : Nat) : Rng R × List (List R) :=
  ({ g with pos := g.pos + rows * cols },
   (List.range rows).map fun i => (List.range cols).map fun j => g.z (g.pos + i * cols + j))

/-- `m.T` for an array with `cols` columns.
(`signal/sources.py:106-109`.) -/
def transposeT {R : Type} (cols : Nat) (m : List (List R)) : List (List R) :=
  (List.range cols).map fun c => m.filterMap fun row => row[c]?

/-! ### WhiteNoiseSource, `signal/sources.py:96-118` -/

/-- State of `WhiteNoiseSource`; `std c` is the standard deviation of channel
`c` (scalar or array `stdDev`, `signal/sources.py:111-118`). -/
structure WhiteSt (R : Type) where
  ch : Nat
  std : Nat → R
  rng : Rng R

/-- `WhiteNoiseSource.get_samples`, `signal/sources.py:106-109`:
`rng.normal(loc=0, scale=stdDev, size=(n, ch)).T`. -/
def WhiteSt.get {R : Type} [Mul R] (s : WhiteSt R) (n : Nat) :
    Except PyErr (WhiteSt R × List (List R)) :=
  let (g, draws) := s.rng.normal n s.ch
  let scaled := draws.map fun row => row.zipIdx.map fun (x, c) => s.std c * x
  .ok ({ s with rng := g }, transposeT s.ch scaled)

/-! ### SineSource, `signal/sources.py:121-147` -/

/-- Python/numpy `%` on floats (result has the sign of the divisor).
(`signal/sources.py:141-148,195-208`.) -/
noncomputable def realMod (x m : ℝ) : ℝ := x - m * ⌊x / m⌋

/-- State of `SineSource`; one phase per channel.
(`signal/sources.py:121-139`.) -/
structure SineSt where
  amplitude : ℝ
  pps : ℝ
  phase : List ℝ

/-- `SineSource.__init__`, `signal/sources.py:122-133`, with the drawn phases
given (scalar power). -/
noncomputable def SineSt.init (power freq samplerate : ℝ) (phase : List ℝ) : SineSt :=
  { amplitude := Real.sqrt (2 * power), pps := 2 * Real.pi * freq / samplerate, phase := phase }

/-- `SineSource.get_samples`, `signal/sources.py:141-147`. -/
noncomputable def SineSt.get (s : SineSt) (n : Nat) : Except PyErr (SineSt × List (List ℝ)) :=
  .ok ({ s with phase := s.phase.map fun p => realMod (p + n * s.pps) (2 * Real.pi) },
    s.phase.map fun p => (List.range n).map fun (i : Nat) =>
      s.amplitude * Real.cos (s.pps * i + p))

/-! ### Counter, `signal/sources.py:150-166` -/

/-- `Counter.__init__`, `signal/sources.py:155-159`. -/
def counterInit (numChannels : Nat) (start : Int) : Except PyErr Int :=
  if numChannels > 1 then .error .notImplemented else .ok start

/-- `Counter.get_samples`, `signal/sources.py:163-166`.  The code returns a
1-D array, written here as its single row. -/
def counterGet (cur : Int) (n : Nat) : Except PyErr (Int × List (List Int)) :=
  .ok (cur + n, [(List.range n).map fun (i : Nat) => cur + i])

/-! ### MultiSineSource, `signal/sources.py:171-207` -/

/-- State of `MultiSineSource`: phase and phase increment of every sine.
(`signal/sources.py:171-193`.) -/
structure MultiSineSt where
  amplitude : ℝ
  sines : List (ℝ × ℝ)

/-- `MultiSineSource.__init__`, `signal/sources.py:172-187`; `sines` holds
(frequency, drawn phase) pairs. -/
noncomputable def MultiSineSt.init (power samplerate : ℝ) (sines : List (ℝ × ℝ)) : MultiSineSt :=
  { amplitude := Real.sqrt (2 * power / sines.length)
    sines := sines.map fun (f, p) => (2 * Real.pi * f / samplerate, p) }

/-- The loop of `MultiSineSource.get_samples`, `signal/sources.py:197-206`:
accumulates the signal and the updated phases. -/
noncomputable def multiSineLoop (a : ℝ) (n : Nat) :
    List (ℝ × ℝ) → List ℝ → List ℝ × List (ℝ × ℝ)
  | [], noise => (noise, [])
  | (w, p) :: rest, noise =>
    let noise' := List.zipWith (· + ·) noise
      ((List.range n).map fun (i : Nat) => a * Real.cos (i * w + p))
    let (out, ph) := multiSineLoop a n rest noise'
    (out, (w, realMod (p + n * w) (2 * Real.pi)) :: ph)

/-- `MultiSineSource.get_samples`, `signal/sources.py:195-207`. -/
noncomputable def MultiSineSt.get (s : MultiSineSt) (n : Nat) :
    Except PyErr (MultiSineSt × List (List ℝ)) :=
  let (out, ph) := multiSineLoop s.amplitude n s.sines (List.replicate n 0)
  .ok ({ s with sines := ph }, [out])

/-! ### BandlimitedNoiseSource and AutocorrSource -/

/-- Runs a filter, given as a step function, over a row
(`scipy.signal.sosfilt(..., zi=...)` on one channel).
(`signal/sources.py:234-237,384`.) -/
def filtRow {R Z : Type} (step : Z → R → Z × R) : Z → List R → Z × List R
  | z, [] => (z, [])
  | z, x :: xs =>
    let (z', y) := step z x
    let (z'', ys) := filtRow step z' xs
    (z'', y :: ys)

/-- State of a filtered-noise source: `scale c` is the amplitude of channel
`c`, `step c` its filter, `zi` the filter states.
(`signal/sources.py:211-247,350-385`.) -/
structure FiltNoiseSt (R Z : Type) where
  scale : Nat → R
  step : Nat → Z → R → Z × R
  zi : List Z
  rng : Rng R

/-- `BandlimitedNoiseSource.get_samples`, `signal/sources.py:234-237`, and
`AutocorrSource.get_samples`, `signal/sources.py:383-384`: a `(ch, n)` array of
draws (row-major, i.e. channel by channel), scaled and filtered per channel.
The filters (`scipy.signal.sosfilt`, `aspcore` `IIRFilter`) are arbitrary
step functions with retained state. -/
def FiltNoiseSt.get {R Z : Type} [Mul R] (s : FiltNoiseSt R Z) (n : Nat) :
    Except PyErr (FiltNoiseSt R Z × List (List R)) :=
  let (g, draws) := s.rng.normal s.zi.length n
  let res := (s.zi.zip draws).zipIdx.map fun ((z, row), c) =>
    filtRow (s.step c) z (row.map fun x => s.scale c * x)
  .ok ({ s with zi := res.map (·.1), rng := g }, res.map (·.2))

/-! ### PulseTrain, `signal/sources.py:250-282` -/

/-- numpy `%` on exactly representable numbers.
(`signal/sources.py:275-285`.) -/
def ratMod (x m : ℚ) : ℚ := x - m * ⌊x / m⌋

/-- Per-channel data of `PulseTrain`: `(amplitude, period_len, idx)`, where
`idx` starts at `-delay` (`signal/sources.py:272-273`). -/
structure PulseSt (R : Type) where
  chans : List (R × ℚ × ℚ)

/-- `PulseTrain.__init__` after broadcasting of scalars,
`signal/sources.py:251-273`; entries `(amplitude, period, delay)`. -/
def PulseSt.init {R : Type} (chans : List (R × ℚ × ℚ)) : PulseSt R :=
  { chans := chans.map fun (a, p, d) => (a, p, 0 - d) }

/-- The sample loop `signal/sources.py:278-281`; builds column `i` of `sig`. -/
def pulseLoop {R : Type} [Zero R] : Nat → PulseSt R → PulseSt R × List (List R)
  | 0, s => (s, [])
  | n + 1, s =>
    let col := s.chans.map fun (a, p, i) => if ratMod i p = 0 then a else 0
    let (s', cols) := pulseLoop n { chans := s.chans.map fun (a, p, i) => (a, p, i + 1) }
    (s', col :: cols)

/-- `PulseTrain.get_samples`, `signal/sources.py:275-282`. -/
def PulseSt.get {R : Type} [Zero R] (s : PulseSt R) (n : Nat) :
    Except PyErr (PulseSt R × List (List R)) :=
  let (s', cols) := pulseLoop n s
  .ok (s', transposeT s.chans.length cols)

/-! ### MLS and Gold sequences -/

/-- `scipy.signal._max_len_seq_inner`, called by `MLS.get_samples`
(`signal/sources.py:411-415`): one output bit.  `state` is the shift register,
`idx` the read position, `taps` the feedback positions.  External code,
reproduced from its documentation; `false/true` are the bits 0/1. -/
def lfsrStep (taps : List Nat) (nbits : Nat) (state : List Bool) (idx : Nat) :
    List Bool × Nat × Bool :=
  let out := state.getD idx false
  let fb := taps.foldl (fun f t => Bool.xor f (state.getD ((t + idx) % nbits) false)) out
  (state.set idx fb, (idx + 1) % nbits, out)

/-- `n` steps of the shift register, then `np.roll(state, -idx)`.
(`signal/sources.py:411-416`.) -/
def lfsrRun (taps : List Nat) (nbits : Nat) : Nat → List Bool → Nat → List Bool × List Bool
  | 0, state, idx => (state.rotate idx, [])
  | n + 1, state, idx =>
    let (st, i, b) := lfsrStep taps nbits state idx
    let (st', bs) := lfsrRun taps nbits n st i
    (st', b :: bs)

/-- State of `MLS` (`signal/sources.py:399-409`): the `state` argument of the
constructor is ignored, the register starts as all ones (scipy default). -/
structure MlsSt where
  taps : List Nat
  state : List Bool

/-- `MLS.__init__` for a given order, list of taps and start state, which is not used:
line 405 sets `self.state = None`.  (`signal/sources.py:399-409`; one channel.) -/
def MlsSt.init (order : Nat) (taps : List Nat) (_state : Option (List Bool) := none) : MlsSt :=
  { taps := taps, state := List.replicate order true }

/-- `MLS.get_samples`, `signal/sources.py:411-415`: `seq * 2 - 1`.  (1-D array,
written as its single row.  scipy returns unsigned bytes only up to the final
arithmetic; numpy promotes `seq * 2 - 1` on `int8` without overflow.) -/
def MlsSt.get (s : MlsSt) (n : Nat) : Except PyErr (MlsSt × List (List Int)) :=
  let (st, bits) := lfsrRun s.taps s.state.length n s.state 0
  .ok ({ s with state := st }, [bits.map fun b => (if b then 1 else 0) * 2 - 1])

/-- `GoldSequenceSource.preferredSequences`, `signal/sources.py:419-427`. -/
def preferredSequences : Nat → Option (List Nat × List Nat)
  | 5 => some ([2], [1, 2, 3])
  | 6 => some ([5], [1, 4, 5])
  | 7 => some ([4], [4, 5, 6])
  | 8 => some ([1, 2, 3, 6, 7], [1, 2, 7])
  | 9 => some ([5], [3, 5, 6])
  | 10 => some ([2, 5, 9], [3, 4, 6, 8, 9])
  | 11 => some ([9], [3, 6, 9])
  | _ => none

/-- State of `GoldSequenceSource`.
(`signal/sources.py:418-462`.) -/
structure GoldSt where
  sequences : List (List ℝ)
  seqLength : Nat
  amplitude : ℝ
  idx : Nat

/-- `np.roll(seq, i)`: cyclic shift to the right.
(`signal/sources.py:461`.) -/
def pyRoll {α : Type} (l : List α) (i : Nat) : List α :=
  l.rotate (l.length - i % l.length)

/-- `GoldSequenceSource.__init__`, `signal/sources.py:429-462`, scalar power.
Orders outside 5..11 fail: below 5 the name `seq1` is unbound where it is used for
the first channel; above 11 the
assertion on odd orders or the missing `util.getSmallestCoprime`. -/
noncomputable def GoldSt.init (numChannels : Nat) (power : ℝ) (order : Nat) :
    Except PyErr GoldSt :=
  if ¬ (numChannels : Int) ≤ 2 ^ order - 1 then .error .assertion
  else if 5 ≤ order ∧ order ≤ 11 then
    match preferredSequences order with
    | none => .error .key
    | some (t1, t2) =>
      match (MlsSt.init order t1).get (2 ^ order - 1), (MlsSt.init order t2).get (2 ^ order - 1) with
      | .ok (_, [seq1]), .ok (_, [seq2]) =>
        .ok { sequences := (List.range numChannels).map fun i =>
                (List.zipWith (· * ·) seq1 (pyRoll seq2 i)).map fun x => ((-x : Int) : ℝ)
              seqLength := 2 ^ order - 1
              amplitude := Real.sqrt power
              idx := 0 }
      | _, _ => .error .value
  else if order > 11 then
    if order % 2 = 1 then .error .attribute else .error .assertion
  else if numChannels = 0 then
    .ok { sequences := [], seqLength := 2 ^ order - 1, amplitude := Real.sqrt power, idx := 0 }
  else .error .unbound

/-- `GoldSequenceSource.get_samples`, `signal/sources.py:464-474`. -/
noncomputable def GoldSt.get (s : GoldSt) (n : Nat) : Except PyErr (GoldSt × List (List ℝ)) :=
  match calcBlockSizes (n + 1) n s.idx s.seqLength with
  | none => .error .diverges
  | some bs =>
    match seqLoop s.sequences s.seqLength bs (zeros2 ℝ s.sequences.length n) 0 s.idx with
    | .error e => .error e
    | .ok (sig, i) => .ok ({ s with idx := i.toNat }, scale2 sig s.amplitude)

end Verif

/-
The power of sources: `set_power`, powers per channel, and the generators that sources
use (`src/aspsim/signal/sources.py`).
-/
import Verif.Model.Sources
import Verif.Model.Region
namespace Verif

/-- The argument `power`: a number, or a one-dimensional array (other arrays are left out).
(`signal/sources.py:97-118,122-139,212-247,429-438,476-487`.) -/
inductive PowerArg
  | num (p : ℝ)
  | vec (l : List ℝ)

/-- `Source.__init__`, `signal/sources.py:15-22`: without a generator the source makes its
own, always from the seed 123456.  `seeded s` are the draws of `np.random.default_rng(s)`.
A generator that is passed to several sources, and then shared by them, is left out. -/
def sourceRng {R : Type} (seeded : Nat → Nat → R) : Option (Rng R) → Rng R
  | none => ⟨seeded 123456, 0⟩
  | some g => g

/-! ### WhiteNoiseSource -/

/-- A `WhiteNoiseSource` with its attribute `power` (`stdDev` is its square root).
(`signal/sources.py:96-118`.) -/
structure WhiteObj where
  ch : Nat
  power : PowerArg
  rng : Rng ℝ

/-- Broadcasting `stdDev` over the last axis of `size=(num_samples, num_channels)`;
`none` if the shapes do not match.
(`signal/sources.py:106-109`.) -/
noncomputable def whiteStd (ch : Nat) : PowerArg → Option (Nat → ℝ)
  | .num p => some fun _ => Real.sqrt p
  | .vec [p] => some fun _ => Real.sqrt p
  | .vec l => if l.length = ch then some fun c => Real.sqrt (l.getD c 0) else none

/-- `WhiteNoiseSource.get_samples`, `signal/sources.py:106-109`. -/
noncomputable def WhiteObj.get (o : WhiteObj) (n : Nat) : Except PyErr (WhiteObj × List (List ℝ)) :=
  match whiteStd o.ch o.power with
  | none => .error .value
  | some std =>
    match WhiteSt.get ⟨o.ch, std, o.rng⟩ n with
    | .error e => .error e
    | .ok (s, b) => .ok ({ o with rng := s.rng }, b)

/-- `WhiteNoiseSource.set_power`, `signal/sources.py:111-118`: the attributes are assigned
before the assertions. -/
def WhiteObj.setPower (o : WhiteObj) (p : PowerArg) : WhiteObj × Option PyErr :=
  ({ o with power := p },
    match p with
    | .num _ => none
    | .vec l => if l.length = o.ch ∨ l.length = 1 then none else some .assertion)

/-- `WhiteNoiseSource.__init__`, `signal/sources.py:97-99`. -/
def WhiteObj.create (seeded : Nat → Nat → ℝ) (ch : Nat) (power : PowerArg) (rng : Option (Rng ℝ)) :
    Except PyErr WhiteObj :=
  match (WhiteObj.mk ch power (sourceRng seeded rng)).setPower power with
  | (_, some e) => .error e
  | (o, none) => .ok o

/-! ### Calls of `get_samples` and `set_power` -/

/-- A call on a source.
(`signal/sources.py:106-118,234-247,464-487`.) -/
inductive SrcOp
  | get (n : Nat)
  | power (p : PowerArg)

/-- A list of calls; returns the blocks, or the first exception.
(`signal/sources.py:106-118,234-247,464-487`.) -/
def runOps {σ : Type} (get : σ → Nat → Except PyErr (σ × List (List ℝ))) (setPower : σ → PowerArg → σ × Option PyErr) :
    σ → List SrcOp → Except PyErr (σ × List (List (List ℝ)))
  | s, [] => .ok (s, [])
  | s, .get n :: ops =>
    match get s n with
    | .error e => .error e
    | .ok (s', b) =>
      match runOps get setPower s' ops with
      | .error e => .error e
      | .ok (s'', bs) => .ok (s'', b :: bs)
  | s, .power p :: ops =>
    match setPower s p with
    | (_, some e) => .error e
    | (s', none) => runOps get setPower s' ops

/-! ### SineSource and BandlimitedNoiseSource -/

/-- `amplitude * m` for a one-dimensional `amplitude` and an `m` of shape (channels, n):
numpy matches the last axes.  `none` if the shapes do not match.
(`signal/sources.py:141-146,234-235`.) -/
def scaleLast (amp : List ℝ) (n : Nat) (m : List (List ℝ)) : Option (List (List ℝ)) :=
  match amp with
  | [a] => some (m.map fun row => row.map fun x => a * x)
  | _ =>
    if amp.length = n then some (m.map fun row => List.zipWith (· * ·) amp row)
    else if n = 1 then some (m.map fun row => amp.map fun a => a * row.headD 0)
    else none

/-- `amplitude * m` for the amplitude that belongs to a power.
(`signal/sources.py:141-146,234-235`.) -/
noncomputable def scalePower (f : ℝ → ℝ) (power : PowerArg) (n : Nat) (m : List (List ℝ)) : Option (List (List ℝ)) :=
  match power with
  | .num p => some (m.map fun row => row.map fun x => f p * x)
  | .vec l => scaleLast (l.map f) n m

/-- A `SineSource` with its attribute `power`.
(`signal/sources.py:121-139`.) -/
structure SineObj where
  power : PowerArg
  pps : ℝ
  phase : List ℝ

/-- `SineSource.__init__`, `signal/sources.py:122-139`; `u` are the draws of the generator
from [0,1). -/
noncomputable def SineObj.create (ch : Nat) (power : PowerArg) (freq samplerate : ℝ) (u : Nat → ℝ) : SineObj :=
  { power := power, pps := 2 * Real.pi * freq / samplerate
    phase := (List.range ch).map fun c => uniform 0 (2 * Real.pi) (u c) }

/-- `SineSource.get_samples`, `signal/sources.py:141-147`. -/
noncomputable def SineObj.get (s : SineObj) (n : Nat) : Except PyErr (SineObj × List (List ℝ)) :=
  match scalePower (fun p => Real.sqrt (2 * p)) s.power n
      (s.phase.map fun p => (List.range n).map fun (i : Nat) => Real.cos (s.pps * i + p)) with
  | none => .error .value
  | some b => .ok ({ s with phase := s.phase.map fun p => realMod (p + n * s.pps) (2 * Real.pi) }, b)

/-- `MultiSineSource.__init__`, `signal/sources.py:172-187`; `u` are the draws of the
generator from [0,1), one phase per frequency.  Powers that are arrays and more than one channel raise
and are left out. -/
noncomputable def MultiSineSt.create (power samplerate : ℝ) (freqs : List ℝ) (u : Nat → ℝ) : MultiSineSt :=
  MultiSineSt.init power samplerate (freqs.zipIdx.map fun q => (q.1, uniform 0 (2 * Real.pi) (u q.2)))

/-- A `BandlimitedNoiseSource` with its attribute `power`; `testPow` is the power of the
filtered test signal, `step` the filter of a channel.
(`signal/sources.py:211-232`.) -/
structure BandObj (Z : Type) where
  power : PowerArg
  testPow : ℝ
  step : Z → ℝ → Z × ℝ
  zi : List Z
  rng : Rng ℝ

/-- `BandlimitedNoiseSource.get_samples`, `signal/sources.py:234-237`. -/
noncomputable def BandObj.get {Z : Type} (o : BandObj Z) (n : Nat) : Except PyErr (BandObj Z × List (List ℝ)) :=
  let (g, draws) := o.rng.normal o.zi.length n
  match scalePower (fun p => Real.sqrt (p / o.testPow)) o.power n draws with
  | none => .error .value
  | some noise =>
    let res := (o.zi.zip noise).map fun (z, row) => filtRow o.step z row
    .ok ({ o with zi := res.map (·.1), rng := g }, res.map (·.2))

/-- `BandlimitedNoiseSource.set_power`, `signal/sources.py:239-247`. -/
def BandObj.setPower {Z : Type} (o : BandObj Z) (p : PowerArg) : BandObj Z × Option PyErr :=
  ({ o with power := p }, none)

/-! ### GoldSequenceSource -/

/-- A `GoldSequenceSource` with its attribute `power`, a column of values; the other
attributes are those of a source of power 1, whose samples are the sequences themselves.
(`signal/sources.py:429-462`.) -/
structure GoldObj where
  st : GoldSt
  power : List ℝ

/-- The column of powers that `set_power` makes of its argument.
(`signal/sources.py:477-480`.) -/
def powerColumn : PowerArg → List ℝ
  | .num p => [p]
  | .vec l => l

/-- `GoldSequenceSource.set_power`, `signal/sources.py:476-487`. -/
def GoldObj.setPower (o : GoldObj) (p : PowerArg) : GoldObj × Option PyErr :=
  ({ o with power := powerColumn p }, none)

/-- `GoldSequenceSource.__init__`, `signal/sources.py:429-462`. -/
noncomputable def GoldObj.create (ch : Nat) (power : PowerArg) (order : Nat) : Except PyErr GoldObj :=
  match GoldSt.init ch 1 order with
  | .error e => .error e
  | .ok st => .ok ((GoldObj.mk st []).setPower power).1

/-- `sig * amplitude` for a column `amplitude`; `none` if the shapes do not match.
(`signal/sources.py:474`.) -/
def scaleRows (sig : List (List ℝ)) (amp : List ℝ) : Option (List (List ℝ)) :=
  match amp with
  | [a] => some (scale2 sig a)
  | _ =>
    if amp.length = sig.length then some (List.zipWith (fun row a => row.map (· * a)) sig amp)
    else
      match sig with
      | [row] => some (amp.map fun a => row.map (· * a))
      | _ => none

/-- `GoldSequenceSource.get_samples`, `signal/sources.py:464-474`. -/
noncomputable def GoldObj.get (o : GoldObj) (n : Nat) : Except PyErr (GoldObj × List (List ℝ)) :=
  match o.st.get n with
  | .error e => .error e
  | .ok (st, sig) =>
    match scaleRows sig (o.power.map Real.sqrt) with
    | none => .error .value
    | some b => .ok ({ o with st := st }, b)

end Verif

/-
The constructor of `BandlimitedNoiseSource` (`src/aspsim/signal/sources.py`).
-/
import Verif.Model.SourcePower
namespace Verif

/-- `np.mean(x ** 2)` over a two-dimensional array (0 instead of `nan` for an empty one).
(`signal/sources.py:222`.) -/
noncomputable def meanSquare (m : List (List ℝ)) : ℝ :=
  (m.flatten.map fun x => x ^ 2).sum / (m.flatten.length : ℝ)

/-- `BandlimitedNoiseSource.__init__`, `signal/sources.py:212-227`, for a pair of
frequencies: `step` is the filter that `scipy.signal.butter` makes of them, `rest` its state
without `zi`, `zi` the result of `sosfilt_zi`.  The test signal takes the first draws of the
generator. -/
noncomputable def BandObj.create {Z : Type} (ch : Nat) (power : PowerArg) (freqLim : ℝ × ℝ) (step : Z → ℝ → Z × ℝ)
    (rest zi : Z) (rng : Rng ℝ) : Except PyErr (BandObj Z) :=
  open Classical in
  if ¬ freqLim.1 < freqLim.2 then .error .assertion
  else
    let (g, draws) := rng.normal ch 10000
    let testSig := draws.map fun row => (filtRow step rest row).2
    .ok { power := power, testPow := meanSquare testSig, step := step, zi := List.replicate ch zi, rng := g }

end Verif

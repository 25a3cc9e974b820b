/-
Model of the scalings in `src/aspsim/diagnostics/preprocessing.py`.  Exact real arithmetic.
-/
import Mathlib.Analysis.SpecialFunctions.Log.Base
import Verif.Model.Plot
namespace Verif

/-- An entry of an array: a number, `-inf`, or `nan`.  `inf` does not occur, as the logarithm of a number is not `inf`.
(`preprocessing.py:7-17,41-44`.) -/
inductive LevelVal
  | val (x : ℝ)
  | negInf
  | nan

noncomputable section

open Classical in
/-- A numpy logarithm: `-inf` for 0, `nan` for negative arguments and for `nan`.
(`preprocessing.py:11,14,17`.) -/
def npLog (log : ℝ → ℝ) : LevelVal → LevelVal
  | .val x => if 0 < x then .val (log x) else if x = 0 then .negInf else .nan
  | .negInf => .nan
  | .nan => .nan

/-- A positive number times an entry.
(`preprocessing.py:11,14`.) -/
def LevelVal.times (a : ℝ) : LevelVal → LevelVal
  | .val x => .val (a * x)
  | .negInf => .negInf
  | .nan => .nan

/-- `linear`, `preprocessing.py:7-8`. -/
def linearRow (l : List LevelVal) : List LevelVal := l

/-- `db_power`, `preprocessing.py:10-11`. -/
def dbPowerRow (l : List LevelVal) : List LevelVal := l.map fun v => (npLog (Real.logb 10) v).times 10

/-- `db_amplitude`, `preprocessing.py:13-14`. -/
def dbAmplitudeRow (l : List LevelVal) : List LevelVal := l.map fun v => (npLog (Real.logb 10) v).times 20

/-- `natural_log`, `preprocessing.py:16-17`. -/
def naturalLogRow (l : List LevelVal) : List LevelVal := l.map (npLog Real.log)

/-- `clip(low_lim, high_lim)` of entries, `preprocessing.py:41-44`: `np.clip` is `minimum(high, maximum(x, low))`, and keeps
`nan`. -/
def clipLevels (lo hi : ℝ) (l : List LevelVal) : List LevelVal := l.map fun
  | .val x => .val (min hi (max x lo))
  | .negInf => .val (min hi lo)
  | .nan => .nan

/-- `smooth(smooth_len)` of numbers, `preprocessing.py:47-51`, as entries.  The convolution with `-inf` or `nan` is left
out. -/
def smoothLevels (q : Nat) (x : List ℝ) : List LevelVal := (smoothRow q x).map .val

end
end Verif

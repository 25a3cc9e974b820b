/-
C115: reading an audio file.
-/
import Verif.Model.SourceArray
import Mathlib.Algebra.Order.Group.Nat
namespace Verif

section
variable {R : Type} (resample : Nat → Nat → List R → List R) (simplify : Nat → Nat → Nat × Nat)

/-- **C115 (partial)** A file with at least two channels, at the sample rate it has: exactly the first
`n` channels, or all of them, unchanged.  Missing: files with one channel, calls without a sample rate. -/
theorem C115_same_rate_partial (file : AudioFile R) (h2 : 2 ≤ file.chans.length) :
    loadAudioFile resample simplify file (some file.sr) none = .ok file.chans ∧
    ∀ n, n ≤ file.chans.length → ∃ out, loadAudioFile resample simplify file (some file.sr) (some n) = .ok out ∧
      out.length = n ∧ ∀ c, c < n → out[c]? = file.chans[c]? := by
  have h1 : ¬ file.chans.length = 1 := by omega
  refine ⟨by simp [loadAudioFile, h1], fun n hn => ⟨file.chans.take n, by simp [loadAudioFile, h1], ?_, ?_⟩⟩
  · simp; omega
  · intro c hc
    simp [List.getElem?_take, hc]

/-- **C115 (partial)** A lower sample rate `d`, and the number of channels is given: each of the first `n`
channels is resampled by factors whose ratio is exactly that of the sample rates.  `simplify` keeps the ratio
of its arguments.  Missing: calls without the number of channels. -/
theorem C115_lower_rate_partial (hs : ∀ a b, (simplify a b).1 * b = (simplify a b).2 * a)
    (file : AudioFile R) (h2 : 2 ≤ file.chans.length) {d n : Nat} (hd0 : 0 < d) (hd : d < file.sr)
    (hn0 : 0 < n) (hn : n ≤ file.chans.length) :
    ∃ up down out, loadAudioFile resample simplify file (some d) (some n) = .ok out ∧
      up * file.sr = down * d ∧ out.length = n ∧
      ∀ c, c < n → out[c]? = file.chans[c]?.map (resample up down) := by
  have h1 : ¬ file.chans.length = 1 := by omega
  have h3 : ¬ (some d = some file.sr) := by simp; omega
  refine ⟨(resampleFactors simplify d file.sr).1, (resampleFactors simplify d file.sr).2,
    (file.chans.take n).map (resample (resampleFactors simplify d file.sr).1 (resampleFactors simplify d file.sr).2),
    ?_, ?_, ?_, ?_⟩
  · unfold loadAudioFile
    rw [if_neg h1]
    dsimp only
    rw [if_neg h3, if_neg (by omega), if_neg (by omega), if_neg (by simp; omega), if_neg (by omega), List.take_take,
      Nat.min_self]
  · unfold resampleFactors
    split
    · rename_i h
      rw [Nat.one_mul]
      exact (Nat.div_mul_cancel (Nat.dvd_of_mod_eq_zero h)).symm
    · exact hs d file.sr
  · simp; omega
  · intro c hc
    simp [List.getElem?_take, hc]

/-- **C115** A higher sample rate is refused. -/
theorem C115_higher_rate (file : AudioFile R) {d : Nat} (hd : file.sr < d) (numCh : Option Nat) :
    loadAudioFile resample simplify file (some d) numCh = .error .assertion := by
  unfold loadAudioFile
  split
  · rfl
  · dsimp only
    rw [if_neg (by simp; omega), if_pos (by omega)]

/-- **C115 (the code violates it)** Without a sample rate, the default, no file at all can be read. -/
theorem C115_violated_default (file : AudioFile R) (numCh : Option Nat) :
    ∃ e, loadAudioFile resample simplify file none numCh = .error e := by
  unfold loadAudioFile
  split
  · exact ⟨_, rfl⟩
  · dsimp only
    rw [if_neg (by simp)]
    exact ⟨_, rfl⟩

/-- **C115 (the code violates it)** A file with one channel cannot be read, with any arguments. -/
theorem C115_violated_mono (file : AudioFile R) (h : file.chans.length = 1) (desired numCh : Option Nat) :
    loadAudioFile resample simplify file desired numCh = .error .assertion := by
  unfold loadAudioFile
  rw [if_pos h]

/-- **C115 (the code violates it)** Without the number of channels, the default, no file is converted to a
lower sample rate. -/
theorem C115_violated_channels (file : AudioFile R) {d : Nat} (hd : d < file.sr) :
    ∃ e, loadAudioFile resample simplify file (some d) none = .error e := by
  unfold loadAudioFile
  split
  · exact ⟨_, rfl⟩
  · dsimp only
    rw [if_neg (by simp; omega), if_neg (by omega)]
    split <;> exact ⟨_, rfl⟩

/-- **C115 (the code violates it)** More channels than the file has: at the sample rate of the file fewer
than requested are returned, and at a lower one the call raises. -/
theorem C115_violated_missing (file : AudioFile R) (h2 : 2 ≤ file.chans.length) {n : Nat} (hn : file.chans.length < n) :
    (∃ out, loadAudioFile resample simplify file (some file.sr) (some n) = .ok out ∧ out.length < n) ∧
    ∀ d, 0 < d → d < file.sr → loadAudioFile resample simplify file (some d) (some n) = .error .index := by
  have h1 : ¬ file.chans.length = 1 := by omega
  refine ⟨⟨file.chans.take n, by simp [loadAudioFile, h1], by simp; omega⟩, fun d hd0 hd => ?_⟩
  unfold loadAudioFile
  rw [if_neg h1]
  dsimp only
  rw [if_neg (by simp; omega), if_neg (by omega), if_neg (by omega), if_pos (by simp; omega)]

end

/-! ### Examples: a file with three channels at 48 kHz; the resampling keeps every `down`-th sample. -/

/-- Every `down`-th of the samples repeated `up` times. -/
def exResample (up down : Nat) (x : List Int) : List Int :=
  (List.range (x.length * up / down)).map fun (i : Nat) => x.getD (i * down / up) 0

/-- The ratio in lowest terms. -/
def exSimplify (a b : Nat) : Nat × Nat := (a / Nat.gcd a b, b / Nat.gcd a b)

/-- The file. -/
def exFile : AudioFile Int := ⟨48000, [[1, 2, 3, 4, 5, 6], [7, 8, 9, 10, 11, 12], [0, 0, 1, 0, 0, 1]]⟩

theorem exSimplify_ratio (a b : Nat) : (exSimplify a b).1 * b = (exSimplify a b).2 * a := by
  unfold exSimplify
  dsimp only
  rw [Nat.div_mul_right_comm (Nat.gcd_dvd_left a b), Nat.div_mul_right_comm (Nat.gcd_dvd_right a b), Nat.mul_comm]

example : loadAudioFile exResample exSimplify exFile (some 24000) (some 2) = .ok [[1, 3, 5], [7, 9, 11]] := rfl

example : loadAudioFile exResample exSimplify exFile (some 32000) (some 2) = .ok [[1, 2, 4, 5], [7, 8, 10, 11]] := by rfl

example : ∃ up down out, loadAudioFile exResample exSimplify exFile (some 32000) (some 2) = .ok out ∧
    up * exFile.sr = down * 32000 ∧ out.length = 2 ∧ ∀ c, c < 2 → out[c]? = exFile.chans[c]?.map (exResample up down) :=
  C115_lower_rate_partial exResample exSimplify exSimplify_ratio exFile (by decide) (by decide) (by decide) (by decide) (by decide)

example : ∃ out, loadAudioFile exResample exSimplify exFile (some 48000) (some 5) = .ok out ∧ out.length < 5 :=
  (C115_violated_missing exResample exSimplify exFile (by decide) (by decide)).1

example : loadAudioFile exResample exSimplify exFile (some 48000) none = .ok exFile.chans :=
  (C115_same_rate_partial exResample exSimplify exFile (by decide)).1

example : loadAudioFile exResample exSimplify exFile (some 96000) (some 2) = .error .assertion :=
  C115_higher_rate exResample exSimplify exFile (by decide) _

example : loadAudioFile exResample exSimplify ⟨48000, [[1, 2]]⟩ (some 48000) (some 1) = .error .assertion :=
  C115_violated_mono exResample exSimplify _ rfl _ _

example : ∃ e, loadAudioFile exResample exSimplify exFile (some 24000) none = .error e :=
  C115_violated_channels exResample exSimplify exFile (by decide)

end Verif

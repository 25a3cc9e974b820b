/-
C201: the end mode 'zeros' of sequences, and end modes that do not exist.
-/
import Verif.Model.Sources
import Verif.Spec.Stream
namespace Verif

section
variable {R : Type} [Mul R] [Zero R]

/-- The audio once, times the amplitude factor, and then silence. -/
def onceThenSilence (audio : List (List R)) (tot : Nat) (amp : R) (c k : Nat) : R :=
  if k < tot then (audio.getD c []).getD k 0 * amp else 0

/-- C201 is violated: a sequence with the end mode 'zeros' raises `NotImplementedError` at the first request, whatever its
size, even while the audio lasts. -/
theorem C201_violated_raises (s : SeqSt R) (hm : s.mode = .zeros) (n : Nat) (ns : List Nat) :
    runRequests SeqSt.get s (n :: ns) = .error .notImplemented := by
  simp [runRequests, SeqSt.get, hm]

/-- C201 is violated: for no audio and no amplitude does the source play the audio once and then silence. -/
theorem C201_violated (audio : List (List R)) (tot : Nat) (amp : R) :
    ¬ IsStream SeqSt.get { audio := audio, totSamples := tot, amp := amp, mode := .zeros, cur := 0 } audio.length
      (onceThenSilence audio tot amp) := by
  intro h
  obtain ⟨s', h⟩ := h [1]
  rw [C201_violated_raises _ rfl] at h
  cases h

/-- C201. What remains: an end mode that does not exist is rejected at every request, and the constructed source does not
play anything else.  Missing: the mode 'zeros', see `C201_violated`. -/
theorem C201_invalid_partial (s : SeqSt R) (hm : s.mode = .other) (n : Nat) (ns : List Nat) :
    runRequests SeqSt.get s (n :: ns) = .error .value := by
  simp [runRequests, SeqSt.get, hm]

end

/-- One sample of audio of three. -/
example : runRequests SeqSt.get ({ audio := [[1, 2, 3]], totSamples := 3, amp := 2, mode := .zeros, cur := 0 } : SeqSt Int) [1] =
    .error .notImplemented := C201_violated_raises _ rfl 1 []

/-- What it should have played. -/
example : (List.range 5).map (onceThenSilence [[1, 2, 3]] 3 (2 : Int) 0) = [2, 4, 6, 0, 0] := by decide

example : runRequests SeqSt.get ({ audio := [[1, 2, 3]], totSamples := 3, amp := 2, mode := .other, cur := 0 } : SeqSt Int) [1, 4] =
    .error .value := C201_invalid_partial _ rfl 1 [4]

end Verif

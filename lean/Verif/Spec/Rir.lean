/-
Specification of the room impulse responses.
-/
import Verif.Model.Rir
import Verif.Spec.Array
namespace Verif

section
variable {R Pt G : Type}

/-- Contract of the external functions: the image-source package returns one
response for every source at every microphone, the high-pass filter keeps the
number of samples, the sampling rate is positive. -/
structure RirCfg.Lawful (c : RirCfg R Pt G) : Prop where
  receivers : ∀ g ss ms, (c.roomRir g ss ms).2.length = ms.length
  sources : ∀ g ss ms, ∀ x ∈ (c.roomRir g ss ms).2, x.length = ss.length
  sos : ∀ r, (c.sos r).length = r.length
  pad : 1 ≤ c.pad

/-- The microphones of the `b`-th batch. -/
def micBatch (ms : List Pt) (b : Nat) : List Pt := (ms.drop (500 * b)).take 500

/-- State of the random generators before the `b`-th batch. -/
def RirCfg.stateBefore (c : RirCfg R Pt G) (g : G) (ss ms : List Pt) : Nat → G
  | 0 => g
  | b + 1 => (c.roomRir (c.stateBefore g ss ms b) ss (micBatch ms b)).1

/-- The response simulated for source `f` and microphone `t`: that of the
receiver `t % 500` of batch `t / 500`. -/
def RirCfg.simulated (c : RirCfg R Pt G) (g : G) (ss ms : List Pt) (f t : Nat) : Option (List R) :=
  ((c.roomRir (c.stateBefore g ss ms (t / 500)) ss (micBatch ms (t / 500))).2[t % 500]?).bind (·[f]?)

/-- `r` without its first `d` samples, cut at `n` samples before that, and
padded with zeros to `n` samples. -/
def Fitted [Zero R] (d n : Nat) (r x : List R) : Prop :=
  x.length = n ∧ ∀ i < n, x[i]? = some (if i + d < min r.length n then r.getD (i + d) 0 else 0)

end
end Verif

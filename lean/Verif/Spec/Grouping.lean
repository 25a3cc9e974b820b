/-
Specification vocabulary for the single loudspeakers of a simulation.
-/
import Verif.Spec.Array
import Verif.Spec.Rir
namespace Verif

section
variable {Pt H R G : Type}

/-- The loudspeakers that play by themselves, one by one, whatever array they belong to: the type of the path to the
microphone array `mic`, the place at every time, and the samples it plays. -/
def Coll.speakers (c : Coll Pt H) (mic : String) (x : String → Nat → Nat → R) :
    List (Option String × (Nat → Option Pt) × (Nat → R)) :=
  (c.arrays.filter fun a => decide (a.kind = some .free)).flatMap fun s =>
    (List.range s.num).map fun i => (c.types s.name mic, (fun u => (s.geoAt u).pos[i]?), x s.name i)

/-- The response `r` truncated or continued by zeros to `n` samples. -/
def fitted [Zero R] (n : Nat) (r : List R) : List R := (List.range n).map fun i => r.getD i 0

/-- The response between two places: that of the image-source method for type "ism", silence for type "none", passed
through the high-pass filter if there is one. -/
def RirCfg.between [Zero R] (rc : RirCfg R Pt G) (resp : Pt → Pt → List R) (ty : Option String) (s m : Option Pt) : List R :=
  let r := match ty, s, m with
    | some "ism", some s, some m => fitted rc.irLen (resp s m)
    | _, _, _ => [0]
  if rc.highpass then filterRow rc.pad rc.sos r else r

/-- What is heard at time `t` of a loudspeaker that plays `x` through the response `h`, if its first sample is
played at time `1 - d`. -/
def heard [Semiring R] (d : Nat) (h : List R) (x : Nat → R) (t : Int) : R :=
  ((List.range h.length).map fun (k : Nat) =>
    h.getD k 0 * if -(d : Int) < t - k then x (t - k + d - 1).toNat else 0).sum

end
end Verif

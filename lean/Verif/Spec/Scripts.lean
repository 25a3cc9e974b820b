/-
What the recordings of the short example scripts are expected to hold (C170, C171, C172).
-/
import Verif.Spec.ValidRoom
import Verif.Spec.Array
namespace Verif

section
variable {K R G : Type} [Field K] [LinearOrder K] [Field R]

/-- The response `x` from the source `s` to the microphone `m` for the sample at time index `n`: the last
one that the user gave or, if none was given, one that is generated with the last type that the user
gave (or the default `t`) from the places at the last update, which for time index 0 is the setup and
for a later one the last multiple of the update interval `freq` before it. -/
def ExpectedIr (rc : RirCfg R (K × K × K) G) (freq : Nat) (os : List (PathOp R)) (t : String) (s m : Arr (K × K × K)) (n : Nat)
    (x : IrMat R) : Prop :=
  match (userPaths s m os).getLast? with
  | some y => x = y
  | none => ∃ g g', createPath rc g (s.geoAt (freq * ((n - 1) / freq))) (m.geoAt (freq * ((n - 1) / freq)))
      (((userTypes s m os).getLast?).getD t) = .ok (g', x)

end
end Verif

/-
The signals an adaptive noise control filter works with (C134, C135).
-/
import Mathlib.Algebra.BigOperators.Group.Finset.Basic
import Mathlib.Order.Interval.Finset.Nat
import Verif.Model.Fir
namespace Verif

variable {R : Type} [CommRing R]

/-- The reference microphone `r` as the error microphone `m` would hear it from
loudspeaker `l`: through the path `S`, a block of `bs` samples late. -/
def filteredRef (S : IrMat R) (bs : Nat) (ρ : Nat → Int → R) (r l m : Nat) (t : Int) : R :=
  ∑ q ∈ Finset.range (S.ir l m).length, (S.ir l m).getD q 0 * ρ r (t - bs - q)

/-- The rows of the buffers hold the signals `x` and `e`, with time index 0 at buffer
index `o`. -/
structure FxBuf (xf : Nat → Nat → Nat → List R) (err : Nat → List R) (x : Nat → Nat → Nat → Int → R) (e : Nat → Int → R)
    (o : Int) (len nr nl ne : Nat) : Prop where
  xfLen : ∀ r < nr, ∀ l < nl, ∀ m < ne, (xf r l m).length = len
  errLen : ∀ m < ne, (err m).length = len
  xfVal : ∀ r < nr, ∀ l < nl, ∀ m < ne, ∀ i < len, (xf r l m)[i]? = some (x r l m ((i : Int) - o))
  errVal : ∀ m < ne, ∀ i < len, (err m)[i]? = some (e m ((i : Int) - o))

/-- Energy of the signals `e` of `ne` microphones between the buffer indices `start`
and `stop`. -/
def energyOf (e : Nat → Int → R) (o : Int) (ne start stop : Nat) : R :=
  ∑ m ∈ Finset.range ne, ∑ n ∈ Finset.Ico start stop, e m ((n : Int) - o) ^ 2

end Verif

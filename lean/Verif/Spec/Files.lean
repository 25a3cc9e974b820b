/-
Specification vocabulary for numbered file series.
-/
import Verif.Model.Files
namespace Verif

/-- `d` is a decimal numeral with value `k`. -/
def IsNumeral (d : Name) (k : Nat) : Prop :=
  d ≠ [] ∧ (∀ c ∈ d, c.isDigit = true) ∧ digitVal d = k

/-- The file `f` carries number `k` in the series with the given base name: its
stem is the base followed by a decimal numeral of value `k`. -/
def InSeries (base : Name) (f : Name) (k : Nat) : Prop :=
  ∃ d, pathStem f = base ++ d ∧ IsNumeral d k

end Verif

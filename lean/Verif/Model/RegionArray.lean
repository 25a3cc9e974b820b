/-
Model of `RegionArray`, `src/aspsim/array.py:582-615`.
-/
import Verif.Model.Array
import Verif.Model.Region
namespace Verif

/-- The argument `region` of `RegionArray`: a region (possibly a combined one) or a list of
regions.
(`array.py:600-609`.) -/
inductive RegionArg (F : Type)
  | one (r : RegionView F)
  | many (l : List (RegionView F))

/-- `region_segments`, `array.py:601-609`. -/
def RegionArg.segments {F : Type} : RegionArg F → List (RegionView F)
  | .one r => [r]
  | .many l => l

/-- `RegionArray.__init__`, `array.py:600-615` (metadata left out): `CombinedRegion` is
constructed for more than one region, `region[0]` is read for a list with at most one. -/
def mkRegionArr {F : Type} [Field F] (name : String) (omni : Bool) (reg : RegionArg F)
    (pos : Option (PosArg (Pt F))) : Except PyErr (Arr (Pt F)) :=
  let checked : Except PyErr Unit :=
    match reg with
    | .one _ => .ok ()
    | .many [] => .error .index
    | .many [_] => .ok ()
    | .many l => (combinedVolume l).map fun _ => ()
  match checked with
  | .error x => .error x
  | .ok _ =>
    match pos with
    | some p => mkArr name (some .mic) omni p
    | none =>
      match reg.segments.mapM fun r => r.grid with
      | .error x => .error x
      | .ok l => mkArr name (some .mic) omni (.groups l)

end Verif

/-
Specification vocabulary for arrays with groups and arrays of regions.
-/
import Verif.Model.RegionArray
namespace Verif

/-- The array with all its objects in one group. -/
def Arr.ungroup {Pt : Type} (a : Arr Pt) : Arr Pt := { a with groups := none, numGroups := 1 }

/-- The collection with all objects of each array in one group. -/
def Coll.ungroup {Pt H : Type} (c : Coll Pt H) : Coll Pt H := { c with arrays := c.arrays.map Arr.ungroup }

/-- `equally_spaced_points()` of the region a `RegionArray` stands for: a list of several regions is the combined region. -/
def RegionArg.grid {F : Type} : RegionArg F → Except PyErr (List (Pt F))
  | .one r => r.grid
  | .many [r] => r.grid
  | .many l => combinedGrid (l.map RegionView.grid)

end Verif

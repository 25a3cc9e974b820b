/-
Model of `SimulatorSetup.add_arrays`, `src/aspsim/simulator.py:59-68`.
-/
import Verif.Model.Array
namespace Verif

section
variable {Pt H : Type}

/-- The loop over the added arrays, `simulator.py:66-67`: it stops at the first
exception. -/
def Coll.addLoop : List (Arr Pt) → Coll Pt H → Coll Pt H × Option PyErr
  | [], c => (c, none)
  | a :: as, c =>
    match c.addArray a with
    | (c', none) => Coll.addLoop as c'
    | (c', some x) => (c', some x)

/-- `set_path_types(path_types)`, `array.py:202-218`, for the dictionary `path_type` of a
collection, whose entries belong to pairs of a source and a microphone of that collection
(`array.py:105-109,213-218`).  The entries are visited in the order of the pairs and not in
the order in which they were inserted, which makes no difference unless an assertion
fails. -/
def Coll.typeLoop (types : String → String → Option String) :
    List (String × String) → Coll Pt H → Coll Pt H × Option PyErr
  | [], c => (c, none)
  | p :: ps, c =>
    match types p.1 p.2 with
    | none => Coll.typeLoop types ps c
    | some t =>
      match c.setPathType p.1 p.2 t with
      | .error x => (c, some x)
      | .ok c' => Coll.typeLoop types ps c'

/-- `add_arrays(array_collection)`, `simulator.py:59-68`: the arrays of the setup
afterwards and the exception if there was one. -/
def Coll.addArrays (c o : Coll Pt H) : Coll Pt H × Option PyErr :=
  match Coll.addLoop o.arrays c with
  | (c', some x) => (c', some x)
  | (c', none) => Coll.typeLoop o.types o.combos c'

end
end Verif

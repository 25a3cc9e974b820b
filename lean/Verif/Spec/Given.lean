/-
Specification vocabulary for simulations that are given the impulse responses of another one.
-/
import Verif.Model.Array
namespace Verif

/-- Setting the propagation paths of the pairs `Q` to those of `P`, one after the other. -/
def Coll.give {Pt R : Type} (P : String → String → Option (IrMat R)) :
    List (String × String) → Coll Pt (IrMat R) → Except PyErr (Coll Pt (IrMat R))
  | [], c => .ok c
  | q :: Q, c =>
    match P q.1 q.2 with
    | none => .error .key
    | some h =>
      match c.setPropPath h q.1 q.2 with
      | .error x => .error x
      | .ok c => Coll.give P Q c

end Verif

/-
Model of `attritemgetter`, `src/aspsim/diagnostics/core.py:458-483`, and of
`set_unique_processor_names`, `src/aspsim/simulator.py:332-341`.
-/
import Verif.Model.Files
namespace Verif

/-- `s.split(c)` for a single character.
(`diagnostics/core.py:468-469`.) -/
def pySplit (c : Char) : Name → List Name
  | [] => [[]]
  | x :: xs =>
    if x = c then [] :: pySplit c xs
    else
      match pySplit c xs with
      | [] => [[x]]
      | w :: ws => (x :: w) :: ws

/-- The operations of Python objects used by the getter: attribute access and
item access with a string and with an integer.
(`diagnostics/core.py:471-486`.) -/
structure ObjOps (O : Type) where
  attr : O → Name → Except PyErr O
  key : O → Name → Except PyErr O
  idx : O → Int → Except PyErr O

section
variable {O : Type} (ops : ObjOps O)

/-- Body of the inner loop of the getter, `core.py:474-481`; `item[0]` raises for
an empty item. -/
def getItem (o : O) (item : Name) : Except PyErr O :=
  match item with
  | [] => .error .index
  | ch :: rest =>
    if ch = '\'' then
      if (ch :: rest).getLast? ≠ some '\'' then .error .value
      else ops.key o ((ch :: rest).filter (· ≠ '\''))
    else
      match pyInt (ch :: rest) with
      | none => .error .value
      | some i => ops.idx o i

/-- Body of the outer loop, `core.py:472-481`: `getattr` with the first part, the
other parts are items. -/
def getAttrItems (o : O) (parts : List Name) : Except PyErr O :=
  match parts with
  | [] => .error .index
  | a :: items =>
    match ops.attr o a with
    | .error x => .error x
    | .ok o => items.foldlM (getItem ops) o

/-- `attritemgetter(name)(obj)`, `core.py:458-483`. -/
def attrItemGet (name : Name) (o : O) : Except PyErr O :=
  match name with
  | [] => .error .index
  | ch :: rest =>
    if ch = '[' then .error .assertion
    else
      ((pySplit '.' ((ch :: rest).filter (· ≠ ']'))).map (pySplit '[')).foldlM (getAttrItems ops) o

end

/-- The `while` loop of `set_unique_processor_names`, `simulator.py:337-339`;
`fuel` bounds the number of tests. -/
def uniqueProcLoop (names : List Name) (name : Name) : Nat → Name → Nat → Except PyErr Name
  | 0, _, _ => .error .diverges
  | fuel + 1, new, i =>
    if new ∈ names then uniqueProcLoop names name fuel (name ++ [' '] ++ pyStr i) (i + 1)
    else .ok new

/-- `set_unique_processor_names`, `simulator.py:332-341`: the new names. -/
def uniqueProcNames (fuel : Nat) (procs : List Name) : Except PyErr (List Name) :=
  procs.foldlM (fun names name =>
    match uniqueProcLoop names name fuel name 1 with
    | .error x => .error x
    | .ok new => .ok (names ++ [new])) []

end Verif

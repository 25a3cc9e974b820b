/-
What a written access path means.
-/
import Verif.Model.Access
namespace Verif

/-- An item access. -/
inductive Item
  | key (k : Name)
  | idx (i : Int)

/-- Decimal notation of an integer. -/
def intStr : Int → Name
  | .ofNat n => pyStr n
  | .negSucc n => '-' :: pyStr (n + 1)

/-- `['k']` and `[i]`. -/
def Item.written : Item → Name
  | .key k => ['[', '\''] ++ k ++ ['\'', ']']
  | .idx i => ['['] ++ intStr i ++ [']']

/-- An attribute with items: `name[...][...]`. -/
structure Access where
  attr : Name
  items : List Item

def Access.written (a : Access) : Name := a.attr ++ a.items.flatMap Item.written

/-- `a.b['k'].c[3]`. -/
def pathWritten : List Access → Name
  | [] => []
  | [a] => a.written
  | a :: b :: l => a.written ++ ['.'] ++ pathWritten (b :: l)

section
variable {O : Type} (ops : ObjOps O)

/-- The effect of one item access. -/
def Item.apply (o : O) : Item → Except PyErr O
  | .key k => ops.key o k
  | .idx i => ops.idx o i

/-- The accesses of one attribute with items, in order. -/
def Access.apply (o : O) (a : Access) : Except PyErr O := do
  a.items.foldlM (Item.apply ops) (← ops.attr o a.attr)

/-- All accesses in order. -/
def pathApply (o : O) (l : List Access) : Except PyErr O := l.foldlM (Access.apply ops) o

end

/-- A name without the characters that structure a path. -/
def Plain (s : Name) : Prop := '.' ∉ s ∧ '[' ∉ s ∧ ']' ∉ s ∧ '\'' ∉ s

/-- Attribute names are not empty, and all names are plain. -/
def Access.Proper (a : Access) : Prop :=
  a.attr ≠ [] ∧ Plain a.attr ∧ ∀ it ∈ a.items, ∀ k, it = .key k → Plain k

end Verif

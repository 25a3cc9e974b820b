/-
Specification vocabulary for configuration files.
-/
import Verif.Model.Config
namespace Verif

/-- Values without tuples and numpy values at any depth. -/
inductive CfgVal.Plain : CfgVal → Prop
  | none : Plain .none
  | bool (b : Bool) : Plain (.bool b)
  | int (n : Int) : Plain (.int n)
  | float (x : ℚ) : Plain (.float x)
  | str (s : String) : Plain (.str s)
  | list (l : List CfgVal) (h : ∀ v ∈ l, Plain v) : Plain (.list l)

/-- A complete configuration that the class accepts: every field once, in the order of the class, a room with
as many coordinates as the space has dimensions and one of the three default types. -/
structure ValidConfig (d : PyDict CfgVal) : Prop where
  fields : d.map Prod.fst = cfgFields
  room : ∃ size center : List CfgVal, d.get "room_size" = some (.list size) ∧ d.get "room_center" = some (.list center) ∧
    d.get "spatial_dims" = some (.int size.length) ∧ center.length = size.length
  reverb : ∃ s, d.get "reverb" = some (.str s) ∧ s ∈ ["none", "direct", "ism"]

/-- `n` is the length of the value. -/
inductive CfgVal.HasLen : CfgVal → Nat → Prop
  | list (l : List CfgVal) : HasLen (.list l) l.length
  | tuple (l : List CfgVal) : HasLen (.tuple l) l.length
  | ndarray (l : List ℚ) : HasLen (.ndarray l) l.length
  | str (s : String) : HasLen (.str s) s.length

/-- What every configuration that was read from a file fulfils: every field once, in the order of the class, a room
of the dimension of the space and one of the three default types. -/
structure AcceptedConfig (d : PyDict CfgVal) : Prop where
  fields : d.map Prod.fst = cfgFields
  room : ∃ (n : Nat) (size center dims : CfgVal), d.get "room_size" = some size ∧ d.get "room_center" = some center ∧
    d.get "spatial_dims" = some dims ∧ size.HasLen n ∧ center.HasLen n ∧ dims.number = some (n : ℚ)
  reverb : ∃ s, d.get "reverb" = some (.str s) ∧ s ∈ ["none", "direct", "ism"]

/-- The same value: the same number, text or `None`, or lists of the same values. -/
inductive CfgVal.Same : CfgVal → CfgVal → Prop
  | number {a b : CfgVal} (x : ℚ) (ha : a.number = some x) (hb : b.number = some x) : Same a b
  | str (s : String) : Same (.str s) (.str s)
  | none : Same .none .none
  | nil : Same (.list []) (.list [])
  | cons {a b : CfgVal} {l m : List CfgVal} (h : Same a b) (t : Same (.list l) (.list m)) : Same (.list (a :: l)) (.list (b :: m))

end Verif

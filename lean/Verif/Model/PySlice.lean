/-
Python / numpy slice semantics used throughout the simulator code.

Not tied to one file: these are the meaning of `a[i:j]`, `a[i:j] = v` and
`a[i:j] += v` for the last (time) axis of a numpy array, as they occur e.g. in
`src/aspsim/simulator.py:435,440,465,473-476`.  An array of shape
`(channels, time)` is a list of rows.  `none` means that numpy raises.
-/
namespace Verif

/-- Normalisation of one slice bound against an axis of length `len`:
negative bounds count from the end, everything is clamped to `[0, len]`.
(numpy slicing as in `simulator.py:400,435-442,465-476`.) -/
def pyClamp (len : Nat) (i : Int) : Nat :=
  if i < 0 then (i + len).toNat else min i.toNat len

/-- `row[i:j]`.
(numpy slicing as in `simulator.py:400,435-442,465-476`.) -/
def pySlice {α : Type} (row : List α) (i j : Int) : List α :=
  (row.take (pyClamp row.length j)).drop (pyClamp row.length i)

/-- `row[i:]`.
(numpy slicing as in `simulator.py:400,435-442,465-476`.) -/
def pySliceFrom {α : Type} (row : List α) (i : Int) : List α :=
  row.drop (pyClamp row.length i)

/-- numpy broadcasting of a value row of length `v.length` to a target of
length `n`: equal lengths, or a single value repeated.
(numpy slicing as in `simulator.py:400,435-442,465-476`.) -/
def broadcastRow {α : Type} (v : List α) (n : Nat) : Option (List α) :=
  if v.length = n then some v
  else match v with
    | [x] => some (List.replicate n x)
    | _ => none

/-- `row[i:j] = v`.
(numpy slicing as in `simulator.py:400,435-442,465-476`.) -/
def pyAssign {α : Type} (row : List α) (i j : Int) (v : List α) : Option (List α) :=
  let a := pyClamp row.length i
  let b := max a (pyClamp row.length j)
  (broadcastRow v (b - a)).map fun w => row.take a ++ w ++ row.drop b

/-- `row[i:j] += v`.
(numpy slicing as in `simulator.py:400,435-442,465-476`.) -/
def pyAddAssign {α : Type} [Add α] (row : List α) (i j : Int) (v : List α) :
    Option (List α) :=
  let a := pyClamp row.length i
  let b := max a (pyClamp row.length j)
  (broadcastRow v (b - a)).map fun w =>
    row.take a ++ List.zipWith (· + ·) ((row.take b).drop a) w ++ row.drop b

/-- Broadcasting along the channel axis: as many value rows as target rows, or
a single value row used for every target row.
(numpy slicing as in `simulator.py:400,435-442,465-476`.) -/
def broadcastChan {α : Type} (v : List (List α)) (n : Nat) : Option (List (List α)) :=
  if v.length = n then some v
  else match v with
    | [r] => some (List.replicate n r)
    | _ => none

/-- Applies an in-place row operation to all rows of a `(channels, time)` array.
(numpy slicing as in `simulator.py:400,435-442,465-476`.) -/
def pyRows {α : Type} (f : List α → List α → Option (List α))
    (m v : List (List α)) : Option (List (List α)) :=
  (broadcastChan v m.length).bind fun w =>
    (List.zip m w).mapM fun p => f p.1 p.2

/-- `m[..., i:j]` for a `(channels, time)` array.
(numpy slicing as in `simulator.py:400,435-442,465-476`.) -/
def pySlice2 {α : Type} (m : List (List α)) (i j : Int) : List (List α) :=
  m.map fun r => pySlice r i j

/-- `m[..., i:j] = v`.
(numpy slicing as in `simulator.py:400,435-442,465-476`.) -/
def pyAssign2 {α : Type} (m : List (List α)) (i j : Int) (v : List (List α)) :
    Option (List (List α)) :=
  pyRows (fun r x => pyAssign r i j x) m v

/-- `m[..., i:j] += v`.
(numpy slicing as in `simulator.py:400,435-442,465-476`.) -/
def pyAddAssign2 {α : Type} [Add α] (m : List (List α)) (i j : Int) (v : List (List α)) :
    Option (List (List α)) :=
  pyRows (fun r x => pyAddAssign r i j x) m v

end Verif

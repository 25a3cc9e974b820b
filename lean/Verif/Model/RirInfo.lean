/-
Model of the metadata of the image-source paths,
`src/aspsim/room/roomimpulseresponse.py:336-361,476-503`.

Levels in dB are `Db`: a number, `-inf` or `nan`.  The logarithm to base 10 and the
measurement of the reverberation time (`room.measure_rt60`) are parameters.
-/
import Verif.Model.Rir
import Mathlib.Algebra.Order.Field.Basic
import Mathlib.Algebra.Order.AbsoluteValue.Basic
namespace Verif

/-- A level: the result of `10 * np.log10(x)`, or `-np.inf`, or `nan`.
(`roomimpulseresponse.py:476-503`.) -/
inductive Db (R : Type)
  | nan
  | negInf
  | fin (x : R)

section
variable {R Pt G : Type} [Field R] [LinearOrder R]

/-- `np.max((a, b))`: `nan` wins.
(`roomimpulseresponse.py:334-335,485-486`.) -/
def Db.max : Db R → Db R → Db R
  | .nan, _ => .nan
  | _, .nan => .nan
  | .negInf, y => y
  | x, .negInf => x
  | .fin a, .fin b => .fin (if a ≤ b then b else a)

/-- `np.sum(x ** 2)`.
(`roomimpulseresponse.py:490-491`.) -/
def energy (l : List R) : R := (l.map fun x => x ^ 2).sum

/-- `np.max(np.abs(x))` of an array that is not empty.
(`roomimpulseresponse.py:501-502`.) -/
def maxAbs (l : List R) : R := l.foldl (fun m x => if m ≤ |x| then |x| else m) 0

/-- `calc_truncation_error`, `roomimpulseresponse.py:489-495`; `0 / 0` is `nan`, which
is not equal to 0 and stays `nan`. -/
def truncError (lg : R → R) (rir : List R) (len : Nat) : Db R :=
  let tot := energy rir
  let lost := energy (rir.drop len)
  if tot = 0 then .nan
  else if lost / tot = 0 then .negInf
  else .fin (10 * lg (lost / tot))

/-- `calc_truncation_value`, `roomimpulseresponse.py:498-503`; the logarithm of 0 is
`-inf` and `0 / 0` is `nan`. -/
def truncValue (lg : R → R) (rir : List R) (len : Nat) : Db R :=
  if rir.length ≤ len then .negInf
  else
    let a := maxAbs (rir.drop len)
    let b := maxAbs rir
    if b = 0 then .nan
    else if a / b = 0 then .negInf
    else .fin (20 * lg (a / b))

/-- The two loops of `calc_truncation_info`, `roomimpulseresponse.py:477-487`. -/
def truncInfo (lg : R → R) (len : Nat) (rirs : List (List (List R))) : Db R × Db R :=
  rirs.foldl (fun acc receiver => receiver.foldl (fun acc rir =>
    let n := min rir.length len
    (acc.1.max (truncError lg rir n), acc.2.max (truncValue lg rir n))) acc) (.negInf, .negInf)

/-- The `while` loop of `ir_room_image_source_3d` as far as the metadata is concerned,
`roomimpulseresponse.py:283-335`: the two maxima, and `room.rir` of the last `room`. -/
def ismMetaLoop (c : RirCfg R Pt G) (lg : R → R) (src mic : Geo Pt) :
    Nat → Nat → G → Db R × Db R → Option (List (List (List R))) →
    Except PyErr ((Db R × Db R) × Option (List (List (List R))))
  | fuel, done, g, acc, room =>
    if mic.pos.length ≤ done then .ok (acc, room)
    else
      match fuel with
      | 0 => .error .diverges
      | fuel + 1 =>
        if mic.omni = false then .error .notImplemented
        else
          let block := min 500 (mic.pos.length - done)
          let r := c.roomRir g src.pos ((mic.pos.drop done).take block)
          let t := truncInfo lg c.irLen r.2
          ismMetaLoop c lg src mic fuel (done + block) r.1 (acc.1.max t.1, acc.2.max t.2) (some r.2)

/-- The entries "Measured RT60 (min/median/mean/max)", `roomimpulseresponse.py:340-356`:
0, the text "failed", or the statistics of the values measured. -/
inductive Rt60 (R : Type)
  | zero
  | failed
  | measured (l : List R)

/-- The dictionary `metadata`, `roomimpulseresponse.py:337-359`. -/
structure IsmMeta (R : Type) where
  truncError : Db R
  truncValue : Db R
  rt60 : Rt60 R

/-- `metadata` of `ir_room_image_source_3d`, `roomimpulseresponse.py:283-360`; without
microphones the variable `room` of line 342 is unbound. -/
def ismMeta (c : RirCfg R Pt G) (lg : R → R) (measure : List (List (List R)) → Except PyErr (List R))
    (maxOrder : Nat) (g : G) (src mic : Geo Pt) : Except PyErr (IsmMeta R) :=
  match ismMetaLoop c lg src mic mic.pos.length 0 g (.negInf, .negInf) none with
  | .error x => .error x
  | .ok (acc, room) =>
    if maxOrder = 0 then .ok ⟨acc.1, acc.2, .zero⟩
    else
      match room with
      | none => .error .unbound
      | some r =>
        match measure r with
        | .ok l => .ok ⟨acc.1, acc.2, .measured l⟩
        | .error .value => .ok ⟨acc.1, acc.2, .failed⟩
        | .error x => .error x

end
end Verif

/-
Model of `ir_room_image_source_3d_orig`, the earlier image-source function,
`src/aspsim/room/roomimpulseresponse.py:364-473`.

It takes the reverberation time instead of absorption and order, sets the constants of the
package itself and knows only microphones without directivity.  Its arguments are those of
`RoomInfo` (`dims` and `cutoff` are not used).  The image-source package is a parameter, as in
`Model/Room.lean`.  Printing is not modelled.
-/
import Verif.Model.Room
import Verif.Model.RirInfo
namespace Verif

section
variable {F R G : Type} [Field F] [LinearOrder F]

/-- `e_absorbtion, max_order`, `roomimpulseresponse.py:387-392`. -/
def origParameters (ext : RoomExt F R G) (i : RoomInfo F) : Except PyErr (F × Nat) :=
  if 0 < i.rt60 then
    match ext.inverseSabine i.rt60 i.size with
    | .error x => .error x
    | .ok (a, n) => .ok (a, n + 8)
  else .ok (9 / 10, 0)

/-- `room.rir` of one batch with the constants `c` and `frac_delay_length`,
`roomimpulseresponse.py:385,396,400-402,412-440`; `min_dly` is 0. -/
def origRoom (ext : RoomExt F R G) (i : RoomInfo F) (par : F × Nat) (g : G) (src mics : List (F × F × F)) :
    G × List (List (List R)) :=
  ext.rir ⟨i.size, par.1, par.2, i.samplerate, i.randomized, i.speed, 2 * (0 + i.extraDelay) + 1⟩ g
    (src.map fun p => offsetBy (posOffset i.size i.center) p)
    (mics.map fun p => offsetBy (posOffset i.size i.center) p)

/-- One assignment `ir[from_idx, num_computed + to_idx, :L] = single_rir[:L]` with
`L = min(len(single_rir), ir_len)`, `roomimpulseresponse.py:443-446`; `min_dly` is 0. -/
def origAssign [Zero R] (irLen : Nat) (row rir : List R) : List R :=
  let len := min rir.length irLen
  rir.take len ++ row.drop len

/-- The loop over the sources of one receiver, `roomimpulseresponse.py:442-446`. -/
def origReceiver [Zero R] (irLen numFrom q : Nat) :
    Nat → List (List R) → (Nat → Nat → List R) → Except PyErr (Nat → Nat → List R)
  | _, [], ir => .ok ir
  | f, rir :: rest, ir =>
    if numFrom ≤ f then .error .index
    else origReceiver irLen numFrom q (f + 1) rest
      fun a b => if a = f ∧ b = q then origAssign irLen (ir f q) rir else ir a b

/-- The loop over the receivers of one batch, `roomimpulseresponse.py:441-446`. -/
def origBatch [Zero R] (irLen numFrom numTo : Nat) :
    Nat → List (List (List R)) → (Nat → Nat → List R) → Except PyErr (Nat → Nat → List R)
  | _, [], ir => .ok ir
  | q, receiver :: rest, ir =>
    if numTo ≤ q ∧ receiver ≠ [] then .error .index
    else
      match origReceiver irLen numFrom q 0 receiver ir with
      | .error x => .error x
      | .ok ir => origBatch irLen numFrom numTo (q + 1) rest ir

/-- The `while` loop, `roomimpulseresponse.py:407-447`; the first argument bounds the number of
iterations. -/
def origLoop [Zero R] (ext : RoomExt F R G) (i : RoomInfo F) (par : F × Nat) (src mic : List (F × F × F)) :
    Nat → Nat → G → (Nat → Nat → List R) → Except PyErr (G × (Nat → Nat → List R))
  | fuel, done, g, ir =>
    if mic.length ≤ done then .ok (g, ir)
    else
      match fuel with
      | 0 => .error .diverges
      | fuel + 1 =>
        let block := min 500 (mic.length - done)
        let r := origRoom ext i par g src ((mic.drop done).take block)
        match origBatch i.irLen src.length mic.length done r.2 ir with
        | .error x => .error x
        | .ok ir => origLoop ext i par src mic fuel (done + block) r.1 ir

/-- `ir_room_image_source_3d_orig` without metadata, `roomimpulseresponse.py:364-447,473`.  The
smallest distance (line 398) of an empty table of distances raises `ValueError`. -/
def origPath [Zero R] (ext : RoomExt F R G) (i : RoomInfo F) (g : G) (src mic : List (F × F × F)) :
    Except PyErr (G × IrMat R) :=
  match origParameters ext i with
  | .error x => .error x
  | .ok par =>
    if src = [] ∨ mic = [] then .error .value
    else
      match origLoop ext i par src mic mic.length 0 g fun _ _ => List.replicate i.irLen 0 with
      | .error x => .error x
      | .ok (g, ir) => .ok (g, ⟨src.length, mic.length, ir⟩)

/-- The `while` loop as far as the metadata is concerned, `roomimpulseresponse.py:404-452`. -/
def origMetaLoop [Field R] [LinearOrder R] (ext : RoomExt F R G) (i : RoomInfo F) (par : F × Nat) (lg : R → R)
    (src mic : List (F × F × F)) :
    Nat → Nat → G → Db R × Db R → Option (List (List (List R))) →
    Except PyErr ((Db R × Db R) × Option (List (List (List R))))
  | fuel, done, g, acc, room =>
    if mic.length ≤ done then .ok (acc, room)
    else
      match fuel with
      | 0 => .error .diverges
      | fuel + 1 =>
        let block := min 500 (mic.length - done)
        let r := origRoom ext i par g src ((mic.drop done).take block)
        let t := truncInfo lg i.irLen r.2
        origMetaLoop ext i par lg src mic fuel (done + block) r.1 (acc.1.max t.1, acc.2.max t.2) (some r.2)

/-- The dictionary `metadata`, `roomimpulseresponse.py:454-472`.  "Measured RT60 (min)" and
"(max)" are read off the values measured; `measure_rt60` is called twice with the same result. -/
def origMeta [Field R] [LinearOrder R] (ext : RoomExt F R G) (i : RoomInfo F) (lg : R → R)
    (measure : List (List (List R)) → Except PyErr (List R)) (g : G) (src mic : List (F × F × F)) :
    Except PyErr (IsmMeta R × (F × Nat)) :=
  match origParameters ext i with
  | .error x => .error x
  | .ok par =>
    if src = [] ∨ mic = [] then .error .value
    else
      match origMetaLoop ext i par lg src mic mic.length 0 g (.negInf, .negInf) none with
      | .error x => .error x
      | .ok (acc, room) =>
        if 0 < i.rt60 then
          match room with
          | none => .error .unbound
          | some r =>
            match measure r with
            | .ok l => .ok (⟨acc.1, acc.2, .measured l⟩, par)
            | .error .value => .ok (⟨acc.1, acc.2, .failed⟩, par)
            | .error x => .error x
        else .ok (⟨acc.1, acc.2, .zero⟩, par)

end
end Verif

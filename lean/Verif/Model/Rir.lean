/-
Model of the generation of impulse responses,
`src/aspsim/room/roomimpulseresponse.py`.

The state `G` stands for the random generators.  The image-source package
(`pyroomacoustics`), the normal distribution and the high-pass filter
(`scipy.signal.sosfiltfilt`) are parameters.  The metadata are in
`Model/RirInfo.lean`; printing is not modelled.
-/
import Verif.Model.Array
namespace Verif

section
variable {R Pt G : Type} [Zero R]

/-- The parameters of `create_path`: `sim_info.max_room_ir_length`,
`sim_info.spatial_dims`, `sim_info.highpass_cutoff > 0`, `sim_info.samplerate`
(the number of padding samples of `filter_rirs`), `self.min_dly`, and the
external functions: `normal(size)`, `room.rir` after `compute_rir` for given
sources and microphones (receiver by receiver, the responses of all sources),
and `sosfiltfilt` on one row.
(`roomimpulseresponse.py:104-171`.) -/
structure RirCfg (R Pt G : Type) where
  irLen : Nat
  dims : Nat
  highpass : Bool
  pad : Nat
  minDly : Nat
  normal : G → Nat → Nat → Nat → G × (Nat → Nat → Nat → R)
  roomRir : G → List Pt → List Pt → G × List (List (List R))
  sos : List R → List R

/-- `ir[from, to, :L] = rir[min_dly : L + min_dly]` with
`L = min(len(rir), ir_len) - min_dly`, `roomimpulseresponse.py:326-329`, on one row
of `ir`.  For negative `L` the right side is empty, which fits only an empty
left side. -/
def assignRir (irLen minDly : Nat) (row rir : List R) : Except PyErr (List R) :=
  let mn := min rir.length irLen
  if minDly ≤ mn then .ok ((rir.drop minDly).take (mn - minDly) ++ row.drop (mn - minDly))
  else if irLen + mn ≤ minDly then .ok row
  else .error .value

/-- Inner loop, `roomimpulseresponse.py:325-329`: one receiver, the sources from
`from_idx` on. -/
def fillReceiver (irLen minDly numFrom to : Nat) :
    Nat → List (List R) → (Nat → Nat → List R) → Except PyErr (Nat → Nat → List R)
  | _, [], ir => .ok ir
  | f, rir :: rest, ir =>
    if numFrom ≤ f then .error .index
    else
      match assignRir irLen minDly (ir f to) rir with
      | .error x => .error x
      | .ok row => fillReceiver irLen minDly numFrom to (f + 1) rest
          fun i j => if i = f ∧ j = to then row else ir i j

/-- Outer loop over the receivers of one batch, `roomimpulseresponse.py:324-329`. -/
def fillBatch (irLen minDly numFrom numTo : Nat) :
    Nat → List (List (List R)) → (Nat → Nat → List R) → Except PyErr (Nat → Nat → List R)
  | _, [], ir => .ok ir
  | to, receiver :: rest, ir =>
    if numTo ≤ to ∧ receiver ≠ [] then .error .index
    else
      match fillReceiver irLen minDly numFrom to 0 receiver ir with
      | .error x => .error x
      | .ok ir => fillBatch irLen minDly numFrom numTo (to + 1) rest ir

/-- The `while` loop of `ir_room_image_source_3d`, `roomimpulseresponse.py:286-330`,
with `num_computed`; the first argument bounds the number of iterations.  The
positions are passed on as they are; the offset of `pos_offset` is part of `c.roomRir`
(`RoomInfo.cfg` in Model/Room.lean). -/
def ismLoop (c : RirCfg R Pt G) (src mic : Geo Pt) :
    Nat → Nat → G → (Nat → Nat → List R) → Except PyErr (G × (Nat → Nat → List R))
  | fuel, done, g, ir =>
    if mic.pos.length ≤ done then .ok (g, ir)
    else
      match fuel with
      | 0 => .error .diverges
      | fuel + 1 =>
        if mic.omni = false then .error .notImplemented
        else
          let block := min 500 (mic.pos.length - done)
          let r := c.roomRir g src.pos ((mic.pos.drop done).take block)
          match fillBatch c.irLen c.minDly src.pos.length mic.pos.length done r.2 ir with
          | .error x => .error x
          | .ok ir => ismLoop c src mic fuel (done + block) r.1 ir

/-- `ir_room_image_source_3d`, `roomimpulseresponse.py:215-361`. -/
def ismPath (c : RirCfg R Pt G) (g : G) (src mic : Geo Pt) : Except PyErr (G × IrMat R) :=
  match ismLoop c src mic mic.pos.length 0 g fun _ _ => List.replicate c.irLen 0 with
  | .error x => .error x
  | .ok (g, ir) => .ok (g, ⟨src.pos.length, mic.pos.length, ir⟩)

/-- `filter_rirs`, `roomimpulseresponse.py:174-180`, on one row: padding with
`pad` zeros, filtering, and the slice `[pad:-pad]` (empty for `pad = 0`). -/
def filterRow (pad : Nat) (sos : List R → List R) (r : List R) : List R :=
  let y := sos (List.replicate pad 0 ++ r ++ List.replicate pad 0)
  if pad = 0 then [] else (y.take (y.length - pad)).drop pad

/-- `PathGenerator.create_path`, `roomimpulseresponse.py:104-171`. -/
def createPath [One R] (c : RirCfg R Pt G) : GenFn Pt (IrMat R) G := fun g src mic reverb =>
  let post := fun (gh : G × IrMat R) =>
    if c.highpass then
      (gh.1, { gh.2 with ir := fun i j => filterRow c.pad c.sos (gh.2.ir i j) })
    else gh
  if reverb = "none" then .ok (post (g, ⟨src.num, mic.num, fun _ _ => [0]⟩))
  else if reverb = "direct" then
    if src.num ≠ mic.num then .error .assertion
    else .ok (post (g, ⟨src.num, mic.num, fun i j => [if i = j then 1 else 0]⟩))
  else if reverb = "random" then
    let r := c.normal g src.num mic.num c.irLen
    .ok (post (r.1, ⟨src.num, mic.num, fun i j => (List.range c.irLen).map (r.2 i j)⟩))
  else if reverb = "ism" then
    if c.dims = 3 then
      match ismPath c g src mic with
      | .error x => .error x
      | .ok gh => .ok (post gh)
    else .error .value
  else .error .value

end
end Verif

/-
The room of the image-source simulation: `PathGenerator.calc_rir_parameters` and the
coordinates handed to the image-source package
(`src/aspsim/room/roomimpulseresponse.py`).

Coordinates are elements of an ordered field, without rounding.
-/
import Verif.Model.Rir
import Mathlib.Algebra.Order.Field.Basic
namespace Verif

/-- The attributes of `sim_info` that the generation of impulse responses reads.
(`roomimpulseresponse.py:77-98,124-171`.) -/
structure RoomInfo (F : Type) where
  size : F × F × F
  center : F × F × F
  rt60 : F
  speed : F
  extraDelay : Nat
  samplerate : Nat
  irLen : Nat
  dims : Nat
  randomized : Bool
  cutoff : F

/-- The arguments of `pra.ShoeBox` and the constants of the package.
(`roomimpulseresponse.py:77,96,287-294`.) -/
structure ShoeBox (F : Type) where
  size : F × F × F
  absorption : F
  maxOrder : Nat
  fs : Nat
  randomized : Bool
  speed : F
  fracLen : Nat

/-- The external functions: `pra.inverse_sabine`, `np.random.normal`, `room.rir` of a shoe
box with given sources and microphones (every call in its own batch), and `sosfiltfilt`
with the Butterworth filter of a cutoff frequency and a sampling rate.
(`roomimpulseresponse.py:83,134,174-178,287-322`.) -/
structure RoomExt (F R G : Type) where
  inverseSabine : F → F × F × F → Except PyErr (F × Nat)
  normal : G → Nat → Nat → Nat → G × (Nat → Nat → Nat → R)
  rir : ShoeBox F → G → List (F × F × F) → List (F × F × F) → G × List (List (List R))
  sos : F → Nat → List R → List R

section
variable {F R G : Type} [Field F] [LinearOrder F]

/-- `e_absorbtion` and `max_order`, `roomimpulseresponse.py:82-88`. -/
def RoomInfo.parameters (ext : RoomExt F R G) (i : RoomInfo F) : Except PyErr (F × Nat) :=
  if 0 < i.rt60 then
    match ext.inverseSabine i.rt60 i.size with
    | .error x => .error x
    | .ok (a, n) => .ok (a, n + 8)
  else .ok (9 / 10, 0)

omit [LinearOrder F] in
/-- `pos_offset`, `roomimpulseresponse.py:280`. -/
def posOffset (size center : F × F × F) : F × F × F :=
  (size.1 / 2 - center.1, size.2.1 / 2 - center.2.1, size.2.2 / 2 - center.2.2)

omit [LinearOrder F] in
/-- `pos + pos_offset` for one row, `roomimpulseresponse.py:297,311`. -/
def offsetBy (o p : F × F × F) : F × F × F := (p.1 + o.1, p.2.1 + o.2.1, p.2.2 + o.2.2)

/-- The path generator of a room (`min_dly` is 0), `roomimpulseresponse.py:82-98,124-171,
278-322`. -/
def RoomInfo.cfg (ext : RoomExt F R G) (i : RoomInfo F) (par : F × Nat) : RirCfg R (F × F × F) G :=
  let box : ShoeBox F :=
    ⟨i.size, par.1, par.2, i.samplerate, i.randomized, i.speed, 2 * (0 + i.extraDelay) + 1⟩
  { irLen := i.irLen, dims := i.dims, highpass := decide (0 < i.cutoff), pad := i.samplerate, minDly := 0
    normal := ext.normal
    roomRir := fun g ss ms => ext.rir box g (ss.map (offsetBy (posOffset i.size i.center)))
      (ms.map (offsetBy (posOffset i.size i.center)))
    sos := ext.sos i.cutoff i.samplerate }

/-- `ArrayCollection.setup_ir(sim_info)` with the constructor of the path generator,
`array.py:234-261`, `roomimpulseresponse.py:56-98`; returns also the parameters, which
stay the same afterwards. -/
def roomSetup [Zero R] [One R] (ext : RoomExt F R G) (i : RoomInfo F) (g : G)
    (c : Coll (F × F × F) (IrMat R)) : Except PyErr ((F × Nat) × G × Coll (F × F × F) (IrMat R)) :=
  match i.parameters ext with
  | .error x => .error x
  | .ok par =>
    match c.setupIr (createPath (i.cfg ext par)) g with
    | .error x => .error x
    | .ok gc => .ok (par, gc)

end
end Verif

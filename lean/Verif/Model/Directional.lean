/-
Directional microphones: the arguments `directivity_type` and `directivity_dir` of arrays
(`src/aspsim/array.py`), their conversion for the image-source package
(`src/aspsim/room/roomimpulseresponse.py`), and the cardioid made of two omnidirectional
microphones (`src/aspsim/room/directional.py`).  Exact real arithmetic.
-/
import Verif.Model.Points
import Verif.Model.PySlice
import Mathlib.Analysis.SpecialFunctions.Trigonometric.Basic
import Mathlib.Algebra.BigOperators.Group.List.Basic
namespace Verif

/-- The types that arrays accept.
(`array.py:528`.) -/
def directivityTypes : List String := ["omni", "cardioid", "hypercardioid", "supercardioid", "bidirectional"]

open Classical in
/-- `directivity_type` and `directivity_dir` of an array with `num` elements, `array.py:521-531`;
`np.allclose(x, 1)` is `|x - 1| ≤ 1e-8 + 1e-5`.  Directions are points of the space; other
dimensions are left out. -/
noncomputable def arrayDirectivity (num : Nat) : Option (List String) → Option (List (ℝ × ℝ × ℝ)) →
    Except PyErr (List String × Option (List (ℝ × ℝ × ℝ)))
  | none, none => .ok (List.replicate num "omni", none)
  | some types, some dirs =>
    if types.length = num ∧ dirs.length = num ∧ (∀ t ∈ types, t ∈ directivityTypes) ∧
        (∀ d ∈ dirs, |√(d.1 ^ 2 + d.2.1 ^ 2 + d.2.2 ^ 2) - 1| ≤ 1e-8 + 1e-5) then .ok (types, some dirs)
    else .error .assertion
  | _, _ => .error .assertion

/-- The condition under which `ir_room_image_source_3d` takes its omnidirectional branch; it is
the field `omni` of `Arr` and `Geo`.
(`roomimpulseresponse.py:301`.) -/
def allOmni (types : List String) : Bool := types.all (· == "omni")

/-- `_cardoid_to_pyroomacoustics`, `roomimpulseresponse.py:182-191`: azimuth and colatitude of
the orientation. -/
noncomputable def cardioidAngles (d : ℝ × ℝ × ℝ) : ℝ × ℝ := (cart2sphericalRow d).2

/-- `_directionality_arg_to_pyroomacoustics`, `roomimpulseresponse.py:193-212`; `none` stands for
no directivity, otherwise the angles of each microphone are returned.  Nothing calls this
function at the pinned commit. -/
noncomputable def directionalityArg : Option (List String) → Option (List (ℝ × ℝ × ℝ)) →
    Except PyErr (Option (List (ℝ × ℝ)))
  | none, some _ => .error .assertion
  | none, none => .ok none
  | some types, dirs =>
    if 1 < types.length then
      if types.all (· == "omni") then .ok none
      else if types.all (· == "cardioid") then
        match dirs with
        | none => .error .typeErr
        | some ds => if types.length ≤ ds.length then .ok (some ((ds.take types.length).map cardioidAngles)) else .error .index
      else .error .notImplemented
    else
      match types with
      | [] => .error .index
      | t :: _ =>
        if t = "cardioid" then
          match dirs with
          | none => .error .attribute
          | some [] => .error .index
          | some (d :: _) => .ok (some [cardioidAngles d])
        else if t = "omni" then .ok none
        else .error .notImplemented

/-! ### Two omnidirectional microphones -/

/-- The wave numbers, `directional.py:45-46,60-61`. -/
noncomputable def waveNum (c f : ℝ) : ℝ :=
  let k := 2 * Real.pi * f / c
  if k = 0 then 1e-10 else k

/-- `both_mic_factor` before its first entry is set to 0, `directional.py:47,63`. -/
noncomputable def bothMicFactor (c d f : ℝ) : ℂ :=
  1 / (1 - Complex.exp (-Complex.I * 2 * (waveNum c f : ℂ) * (d : ℂ)))

open Classical in
/-- `l[:m] *= np.linspace(0, 1, m) ** 4` where `m` is the number of frequencies up to
`filter_below`, `directional.py:51-54,67-70`. -/
noncomputable def scaleBelow (below : Option ℝ) (fs : List ℝ) (l : List ℂ) : List ℂ :=
  match below with
  | none => l
  | some b =>
    let m := fs.countP fun f => decide (f ≤ b)
    l.mapIdx fun i a => if i < m then a * ((if m = 1 then 0 else (i : ℝ) / ((m : ℝ) - 1)) ^ 4 : ℝ) else a

/-- `freq_response_main_mic`, `directional.py:44-55`, for at least one frequency. -/
noncomputable def mainResponse (c d : ℝ) (below : Option ℝ) (fs : List ℝ) : List ℂ :=
  scaleBelow below fs (((fs.map (bothMicFactor c d)).set 0 0).map (starRingEnd ℂ))

/-- `freq_response_secondary_mic`, `directional.py:57-71`, for at least one frequency. -/
noncomputable def secondaryResponse (c d : ℝ) (below : Option ℝ) (fs : List ℝ) : List ℂ :=
  scaleBelow below fs (List.zipWith
    (fun a f => -(starRingEnd ℂ) (a * Complex.exp (-Complex.I * (waveNum c f : ℂ) * (d : ℂ))))
    ((fs.map (bothMicFactor c d)).set 0 0) fs)

/-- `np.convolve(h, x, mode="full")`, entry `n`.
(`directional.py:81-82`.) -/
def fullConv {R : Type} [Zero R] [Add R] [Mul R] (h x : List R) : List R :=
  (List.range (h.length + x.length - 1)).map fun n =>
    ((List.range h.length).map fun k => if k ≤ n then h.getD k 0 * x.getD (n - k) 0 else 0).sum

/-- The end of `differential_cardioid_microphone`, `directional.py:81-86`, for one microphone:
the two signals are filtered by the responses `h1`, `h2` that the package `aspcore` designs from
the functions above, added, and cut.  `fftconvolve` of a signal without samples and the
broadcasting of a single sample are left out. -/
def cardioidSignal {R : Type} [Zero R] [Add R] [Mul R] (order : Nat) (h1 h2 main sec : List R) : Except PyErr (List R) :=
  if (fullConv h1 main).length ≠ (fullConv h2 sec).length then .error .value
  else .ok (((List.zipWith (· + ·) (fullConv h1 main) (fullConv h2 sec)).drop order).take main.length)

end Verif

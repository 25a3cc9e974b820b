/-
Properties C106 and C107: coordinates matter only relative to the room, and only for the
image-source method.
-/
import Verif.Lemmas.Room
import Verif.Model.Region
import Mathlib.Tactic.Linarith
import Mathlib.Algebra.Order.Field.Rat
import Verif.Props.Array
namespace Verif

section
variable {F K R S P D O G : Type} [Field K] [LinearOrder K] [Zero R] [One R]

omit [Zero R] [One R] in
theorem cfg_shift (ext : RoomExt K R G) (i : RoomInfo K) (d : K × K × K) (par : K × Nat) (g : G)
    (ss ms : List (K × K × K)) :
    (({ i with center := shift d i.center } : RoomInfo K).cfg ext par).roomRir g (ss.map (shift d)) (ms.map (shift d)) =
      (i.cfg ext par).roomRir g ss ms := by
  have h : (offsetBy (posOffset i.size (shift d i.center)) ∘ shift d) = offsetBy (posOffset i.size i.center) := by
    funext p
    simp only [Function.comp, offsetBy, posOffset, shift, Prod.fst_add, Prod.snd_add]
    refine Prod.ext ?_ (Prod.ext ?_ ?_) <;> dsimp only <;> ring
  unfold RoomInfo.cfg
  dsimp only
  rw [List.map_map, List.map_map, h]

/-- C106: moving the room, the sources and the microphones by the same vector leaves every
impulse response unchanged, of every type and including the state of the generators. -/
theorem C106_path (ext : RoomExt K R G) (i : RoomInfo K) (d : K × K × K) (par : K × Nat) (g : G)
    (src mic : Geo (K × K × K)) (t : String) :
    createPath (({ i with center := shift d i.center } : RoomInfo K).cfg ext par) g
      ⟨src.num, src.pos.map (shift d), src.omni⟩ ⟨mic.num, mic.pos.map (shift d), mic.omni⟩ t =
    createPath (i.cfg ext par) g src mic t :=
  createPath_mapPos (c := i.cfg ext par) (c' := ({ i with center := shift d i.center } : RoomInfo K).cfg ext par)
    (f := shift d) rfl rfl rfl rfl rfl t (fun _ => ⟨rfl, rfl, fun g ss ms => cfg_shift ext i d par g ss ms⟩) g src mic

/-- C106: moving the room and all arrays, with their trajectories, by the same vector
leaves every simulation unchanged: signals, exported diagnostics, impulse responses and
exceptions are the same. -/
theorem C106_run [Add R] (base : SimCfg R (IrMat R) F S (G × Coll (K × K × K) (IrMat R)) P D O)
    (ext : RoomExt K R G) (i : RoomInfo K) (d : K × K × K) (g : G) (c : Coll (K × K × K) (IrMat R))
    (srcs : String → S) (proc : P) (f0 : F) (ds : List (Diag D)) :
    (simulate base ext { i with center := shift d i.center } g (c.mapPos (shift d)) srcs proc f0 ds).map observe =
      (simulate base ext i g c srcs proc f0 ds).map observe := by
  rw [simulate_observe, simulate_observe]
  have hp : ({ i with center := shift d i.center } : RoomInfo K).parameters ext = i.parameters ext := rfl
  rw [hp]
  cases i.parameters ext with
  | error x => rfl
  | ok par =>
    exact outcome_mapPos (T := fun _ => True) _ (fun g a b t _ => C106_path ext i d par g a b t) trivial g c
      (fun _ _ _ _ => trivial) srcs proc f0 ds

/-- C106: the image-source method gets coordinates between 0 and the size of the room
exactly for the points that lie in the cuboid with the size and the centre of the room, and
the vectors between points are kept. -/
theorem C106_walls {K : Type} [Field K] [LinearOrder K] [IsStrictOrderedRing K] (size center p q sp : K × K × K) :
    let z := offsetBy (posOffset size center) p
    ((0 ≤ z.1 ∧ z.1 ≤ size.1 ∧ 0 ≤ z.2.1 ∧ z.2.1 ≤ size.2.1 ∧ 0 ≤ z.2.2 ∧ z.2.2 ≤ size.2.2) ↔
      (⟨size, center, sp⟩ : Cuboid K).isIn [⟨p.1, p.2.1, some p.2.2⟩] (0, 0, 0) = .ok (.each [true])) ∧
    z - offsetBy (posOffset size center) q = p - q := by
  refine ⟨?_, ?_⟩
  · have : (⟨size, center, sp⟩ : Cuboid K).isIn [⟨p.1, p.2.1, some p.2.2⟩] (0, 0, 0) = .ok (.each [
        (decide (center.1 - size.1 / 2 - 0 ≤ p.1) && decide (p.1 ≤ center.1 + size.1 / 2 + 0)) &&
        (decide (center.2.1 - size.2.1 / 2 - 0 ≤ p.2.1) && decide (p.2.1 ≤ center.2.1 + size.2.1 / 2 + 0)) &&
        (decide (center.2.2 - size.2.2 / 2 - 0 ≤ p.2.2) && decide (p.2.2 ≤ center.2.2 + size.2.2 / 2 + 0))]) := rfl
    rw [this]
    simp only [Except.ok.injEq, InReg.each.injEq, List.cons.injEq, and_true, Bool.and_eq_true, decide_eq_true_eq]
    simp only [offsetBy, posOffset]
    constructor
    · rintro ⟨h1, h2, h3, h4, h5, h6⟩
      refine ⟨⟨⟨?_, ?_⟩, ?_, ?_⟩, ?_, ?_⟩ <;> linarith
    · rintro ⟨⟨⟨h1, h2⟩, h3, h4⟩, h5, h6⟩
      refine ⟨?_, ?_, ?_, ?_, ?_, ?_⟩ <;> linarith
  · simp only [offsetBy]
    refine Prod.ext ?_ (Prod.ext ?_ ?_) <;> simp

omit [LinearOrder K] in
/-- The offset makes the centre of the room the middle of the shoe box. -/
theorem C106_center (size center : K × K × K) :
    offsetBy (posOffset size center) center = (size.1 / 2, size.2.1 / 2, size.2.2 / 2) := by
  simp only [offsetBy, posOffset]
  refine Prod.ext ?_ (Prod.ext ?_ ?_) <;> simp

/-- C107: without paths of type "ism", a simulation does not depend on the coordinates of
its arrays, nor on the room: two simulations whose arrays differ only in coordinates, in
rooms of possibly different size, centre, reverberation and speed of sound, give the same
signals, exported diagnostics, impulse responses and exceptions, if both rooms can be set up. -/
theorem C107_run [Add R] (base : SimCfg R (IrMat R) F S (G × Coll (K × K × K) (IrMat R)) P D O)
    (ext : RoomExt K R G) (i i' : RoomInfo K) (par par' : K × Nat) (hp : i.parameters ext = .ok par)
    (hp' : i'.parameters ext = .ok par') (h1 : i'.irLen = i.irLen) (h2 : i'.cutoff = i.cutoff)
    (h3 : i'.samplerate = i.samplerate) (g : G) (c c' : Coll (K × K × K) (IrMat R))
    (hc : c'.mapPos (fun _ => ()) = c.mapPos fun _ => ()) (hT : ∀ s m, c.types s m ≠ some "ism")
    (srcs : String → S) (proc : P) (f0 : F) (ds : List (Diag D)) :
    (simulate base ext i' g c' srcs proc f0 ds).map observe = (simulate base ext i g c srcs proc f0 ds).map observe := by
  rw [simulate_observe, simulate_observe, hp, hp']
  have hT' : ∀ s m, c'.types s m ≠ some "ism" := by
    have : c'.types = c.types := congrArg (Coll.types (Pt := Unit)) hc
    rw [this]; exact hT
  let u : RirCfg R Unit G := ⟨i.irLen, 0, decide (0 < i.cutoff), i.samplerate, 0, ext.normal, fun g _ _ => (g, []),
    ext.sos i.cutoff i.samplerate⟩
  have e1 := outcome_mapPos (base.setArr (A' := Unit) (fun _ _ => .ok ()) fun _ _ _ => .error .key)
    (gen := createPath (i.cfg ext par)) (gen' := createPath u) (f := fun _ => ()) (T := fun t => t ≠ "ism")
    (fun g a b t ht => createPath_mapPos (c := i.cfg ext par) (c' := u) rfl rfl rfl rfl rfl t (fun h => absurd h ht) g a b)
    (by decide) g c
    (fun s m t h e => hT s m (by rw [h, e])) srcs proc f0 ds
  have e2 := outcome_mapPos (base.setArr (A' := Unit) (fun _ _ => .ok ()) fun _ _ _ => .error .key)
    (gen := createPath (i'.cfg ext par')) (gen' := createPath u) (f := fun _ => ()) (T := fun t => t ≠ "ism")
    (fun g a b t ht => createPath_mapPos (c := i'.cfg ext par') (c' := u) h1.symm (by simp only [RoomInfo.cfg, h2, u]) h3.symm rfl
      (by simp only [RoomInfo.cfg, h2, h3, u]) t (fun h => absurd h ht) g a b) (by decide) g c'
    (fun s m t h e => hT' s m (by rw [h, e])) srcs proc f0 ds
  dsimp only
  rw [← e1, ← e2, hc]

end

/-! ### a concrete room -/

/-- A shoe box over the rational numbers: the response is 0 before the sample given by the
distance along the first axis, and 1 there; the second sample says how far the source is from the wall. -/
def boxExt : RoomExt ℚ ℚ Nat where
  inverseSabine := fun t s => if 3 < t then .error .value else .ok (s.1, 2)
  normal := fun g _ _ _ => (g + 1, fun i j k => (g + i + 2 * j + k : Nat))
  rir := fun b g ss ms => (g + 1, ms.map fun m => ss.map fun s => [m.1 - s.1, s.2.1, b.size.2.2 - m.2.2])
  sos := fun _ _ r => r

/-- A room of size (4, 6, 2) around (1, 2, 3). -/
def boxInfo : RoomInfo ℚ := ⟨(4, 6, 2), (1, 2, 3), 1 / 2, 343, 40, 8, 3, 3, false, 0⟩

/-- A moving source and two microphones. -/
def boxArrays : List (Arr (ℚ × ℚ × ℚ)) :=
  [⟨"src", some .free, 1, [(0, 1, 3)], none, 1, some fun n => [((n : ℚ) / 8, 1, 3)], true, []⟩,
   ⟨"mic", some .mic, 2, [(2, 1, 3), (2, 2, 5 / 2)], none, 1, none, true, []⟩]

/-- Their collection, with the given type of all paths. -/
def boxColl (t : String) : Coll (ℚ × ℚ × ℚ) (IrMat ℚ) := (((Coll.empty 2).addAll boxArrays).setDefault t)

/-- The other parameters of the simulation. -/
def boxBase : SimCfg ℚ (IrMat ℚ) (Fir ℚ) Nat (Nat × Coll (ℚ × ℚ × ℚ) (IrMat ℚ)) Unit (DData ℚ Unit ℚ) (DOut ℚ ℚ) where
  B := 4
  C := 2
  tot := 6
  warm := false
  contrib := false
  plotNone := false
  arrays := []
  srcGet := fun p n => .ok (p + n, [(List.range n).map fun k => ((p + k + 1 : Nat) : ℚ)])
  filt := firOps ℚ
  arrUpdate := fun _ _ => .error .key
  arrPath := fun _ _ _ => .error .key
  proc := none
  diag := diagOps ℚ Unit ℚ

/-- The simulation of the box. -/
def boxSim (i : RoomInfo ℚ) (c : Coll (ℚ × ℚ × ℚ) (IrMat ℚ)) :=
  simulate boxBase boxExt i 0 c (fun _ => 0) () demoFilt []

/-- The buffers of a microphone after the run. -/
def micBuffer (r : Except PyErr (Observed (Fir ℚ) ℚ Nat Unit (DData ℚ Unit ℚ) (DOut ℚ ℚ) Nat)) : Option (Mat ℚ) :=
  match r with
  | .error _ => none
  | .ok o => o.sig "mic"

/-- The run is completed and the microphones receive something that depends on where they are in the room. -/
example : (match (boxSim boxInfo (boxColl "ism")).map observe with
    | .error _ => none
    | .ok o => (o.paths "src" "mic").map fun h => (h.ir 0 0, h.ir 0 1)) =
    some ([5 / 4, 2, 1], [5 / 4, 2, 3 / 2]) := by decide +kernel

/-- Moving everything changes nothing. -/
example : micBuffer ((boxSim { boxInfo with center := shift (1, -1, 10) boxInfo.center }
      ((boxColl "ism").mapPos (shift (1, -1, 10)))).map observe) =
    micBuffer ((boxSim boxInfo (boxColl "ism")).map observe) ∧
    micBuffer ((boxSim boxInfo (boxColl "ism")).map observe) ≠ none :=
  ⟨congrArg micBuffer (C106_run ..), by decide +kernel⟩

/-- Moving only the room changes the responses. -/
example : micBuffer ((boxSim { boxInfo with center := (1, 1, 3) } (boxColl "ism")).map observe) ≠
    micBuffer ((boxSim boxInfo (boxColl "ism")).map observe) := by decide +kernel

theorem boxPar : boxInfo.parameters boxExt = .ok (4, 10) := by
  have h' : ¬ (3 : ℚ) < 2⁻¹ := by norm_num
  simp [RoomInfo.parameters, boxInfo, boxExt, h']

theorem boxPar' : ({ boxInfo with size := (9, 9, 9), center := (0, 0, 0), rt60 := 2 } : RoomInfo ℚ).parameters boxExt =
    .ok (9, 10) := by
  have h' : ¬ (3 : ℚ) < 2 := by norm_num
  simp [RoomInfo.parameters, boxExt, h']

/-- With random responses the same arrays elsewhere, in another room, give the same. -/
example : micBuffer ((boxSim { boxInfo with size := (9, 9, 9), center := (0, 0, 0), rt60 := 2 }
      ((boxColl "random").mapPos (shift (1, -1, 10)))).map observe) =
    micBuffer ((boxSim boxInfo (boxColl "random")).map observe) ∧
    micBuffer ((boxSim boxInfo (boxColl "random")).map observe) ≠ none := by
  refine ⟨congrArg micBuffer (C107_run boxBase boxExt boxInfo
    { boxInfo with size := (9, 9, 9), center := (0, 0, 0), rt60 := 2 } (4, 10) (9, 10) boxPar boxPar'
    rfl rfl rfl 0 (boxColl "random")
    ((boxColl "random").mapPos (shift (1, -1, 10))) ?_ ?_ ..), by decide +kernel⟩
  · unfold Coll.mapPos
    congr 1
  · intro s m h
    have : (boxColl "random").types s m = if s = "src" ∧ m = "mic" then some "random" else none := rfl
    rw [this] at h
    split at h
    · exact absurd h (by decide)
    · cases h

end Verif

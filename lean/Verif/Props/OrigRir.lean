/-
The earlier image-source function and the one that the simulator uses.
-/
import Verif.Model.OrigRir
import Verif.Props.Room
namespace Verif

section
variable {F R G : Type} [Field F] [LinearOrder F]

theorem origReceiver_eq [Zero R] (irLen nf q : Nat) : ∀ (l : List (List R)) (f : Nat) (ir : Nat → Nat → List R),
    origReceiver irLen nf q f l ir = fillReceiver irLen 0 nf q f l ir
  | [], _, _ => rfl
  | rir :: rest, f, ir => by
    unfold origReceiver fillReceiver assignRir
    simp only [Nat.zero_le, if_true, List.drop_zero, Nat.sub_zero]
    split_ifs
    · rfl
    · rw [origReceiver_eq irLen nf q rest]; rfl

theorem origBatch_eq [Zero R] (irLen nf nt : Nat) : ∀ (l : List (List (List R))) (q : Nat) (ir : Nat → Nat → List R),
    origBatch irLen nf nt q l ir = fillBatch irLen 0 nf nt q l ir
  | [], _, _ => rfl
  | rec :: rest, q, ir => by
    unfold origBatch fillBatch
    rw [origReceiver_eq]
    split_ifs
    · rfl
    · cases fillReceiver irLen 0 nf q 0 rec ir with
      | error x => rfl
      | ok ir => exact origBatch_eq irLen nf nt rest (q + 1) ir

theorem origLoop_eq [Zero R] (ext : RoomExt F R G) (i : RoomInfo F) (par : F × Nat) {src mic : Geo (F × F × F)}
    (ho : mic.omni = true) : ∀ (fuel done : Nat) (g : G) (ir : Nat → Nat → List R),
    origLoop ext i par src.pos mic.pos fuel done g ir = ismLoop (i.cfg ext par) src mic fuel done g ir
  | 0, done, g, ir => by
    unfold origLoop ismLoop
    rfl
  | fuel + 1, done, g, ir => by
    unfold origLoop ismLoop
    split_ifs with h1 h2
    · rfl
    · rw [ho] at h2; cases h2
    · dsimp only
      rw [origBatch_eq]
      change (match fillBatch i.irLen 0 src.pos.length mic.pos.length done
          (origRoom ext i par g src.pos ((mic.pos.drop done).take (min 500 (mic.pos.length - done)))).2 ir with
        | .error x => (.error x : Except PyErr (G × (Nat → Nat → List R)))
        | .ok ir => _) = (match fillBatch i.irLen 0 src.pos.length mic.pos.length done
          (origRoom ext i par g src.pos ((mic.pos.drop done).take (min 500 (mic.pos.length - done)))).2 ir with
        | .error x => .error x
        | .ok ir => _)
      cases fillBatch i.irLen 0 src.pos.length mic.pos.length done
          (origRoom ext i par g src.pos ((mic.pos.drop done).take (min 500 (mic.pos.length - done)))).2 ir with
      | error x => rfl
      | ok ir => exact origLoop_eq ext i par ho fuel _ _ ir

theorem origMetaLoop_eq [Field R] [LinearOrder R] (ext : RoomExt F R G) (i : RoomInfo F) (par : F × Nat) (lg : R → R)
    {src mic : Geo (F × F × F)} (ho : mic.omni = true) :
    ∀ (fuel done : Nat) (g : G) (acc : Db R × Db R) (room : Option (List (List (List R)))),
    origMetaLoop ext i par lg src.pos mic.pos fuel done g acc room =
      ismMetaLoop (i.cfg ext par) lg src mic fuel done g acc room
  | 0, done, g, acc, room => by
    unfold origMetaLoop ismMetaLoop
    rfl
  | fuel + 1, done, g, acc, room => by
    unfold origMetaLoop ismMetaLoop
    split_ifs with h1 h2
    · rfl
    · rw [ho] at h2; cases h2
    · exact origMetaLoop_eq ext i par lg ho fuel _ _ _ _

theorem origParameters_eq (ext : RoomExt F R G) (i : RoomInfo F) : origParameters ext i = i.parameters ext := rfl

/-- **C158** For at least one source and one microphone the earlier image-source function gives
the responses that a simulator with these parameters and without high-pass filter uses. -/
theorem C158_path [Zero R] [One R] (ext : RoomExt F R G) (i : RoomInfo F) (hd : i.dims = 3) (hc : i.cutoff ≤ 0) (g : G)
    {src mic : Geo (F × F × F)} (ho : mic.omni = true) (hs : src.pos ≠ []) (hm : mic.pos ≠ []) :
    origPath ext i g src.pos mic.pos =
      (i.parameters ext).bind fun par => createPath (i.cfg ext par) g src mic "ism" := by
  unfold origPath
  rw [origParameters_eq]
  cases i.parameters ext with
  | error x => rfl
  | ok par =>
    have h1 : (i.cfg ext par).highpass = false := by
      show decide (0 < i.cutoff) = false
      rw [decide_eq_false_iff_not]
      exact not_lt.2 hc
    have h2 : (i.cfg ext par).dims = 3 := hd
    show _ = createPath (i.cfg ext par) g src mic "ism"
    dsimp only
    rw [if_neg (by simp [hs, hm])]
    unfold createPath ismPath
    simp only [h1, h2, reduceIte, String.reduceEq]
    rw [origLoop_eq ext i par ho]
    change _ = (match (match ismLoop (i.cfg ext par) src mic mic.pos.length 0 g (fun _ _ => List.replicate i.irLen 0) with
      | .error x => (.error x : Except PyErr (G × IrMat R))
      | .ok (g, ir) => .ok (g, ⟨src.pos.length, mic.pos.length, ir⟩)) with
      | .error x => (.error x : Except PyErr (G × IrMat R))
      | .ok gh => .ok gh)
    cases ismLoop (i.cfg ext par) src mic mic.pos.length 0 g (fun _ _ => List.replicate i.irLen 0) with
    | error x => rfl
    | ok r => rfl

/-- **C158** Its metadata is that of the function that the simulator uses, with the absorption and
the order calculated from the reverberation time. -/
theorem C158_metadata [Field R] [LinearOrder R] (ext : RoomExt F R G) (i : RoomInfo F) (lg : R → R)
    (measure : List (List (List R)) → Except PyErr (List R)) (g : G)
    {src mic : Geo (F × F × F)} (ho : mic.omni = true) (hs : src.pos ≠ []) (hm : mic.pos ≠ []) :
    origMeta ext i lg measure g src.pos mic.pos =
      (i.parameters ext).bind fun par => (ismMeta (i.cfg ext par) lg measure par.2 g src mic).map fun md => (md, par) := by
  unfold origMeta
  rw [origParameters_eq]
  cases hp : i.parameters ext with
  | error x => rfl
  | ok par =>
    have hz : par.2 = 0 ↔ ¬ 0 < i.rt60 := by
      unfold RoomInfo.parameters at hp
      split_ifs at hp with h
      · split at hp
        · cases hp
        · cases hp
          simp [h]
      · cases hp
        simp [h]
    show _ = (ismMeta (i.cfg ext par) lg measure par.2 g src mic).map fun md => (md, par)
    dsimp only
    rw [if_neg (by simp [hs, hm]), origMetaLoop_eq ext i par lg ho]
    unfold ismMeta
    cases ismMetaLoop (i.cfg ext par) lg src mic mic.pos.length 0 g (.negInf, .negInf) none with
    | error x => rfl
    | ok r =>
      obtain ⟨acc, room⟩ := r
      dsimp only
      by_cases h : 0 < i.rt60
      · rw [if_pos h, if_neg (fun e => hz.1 e h)]
        cases room with
        | none => rfl
        | some r =>
          dsimp only
          cases measure r with
          | ok l => rfl
          | error x => cases x <;> rfl
      · rw [if_neg h, if_pos (hz.2 h)]
        rfl

/-- **C158** Without sources or without microphones the earlier function raises `ValueError`. -/
theorem C158_empty [Zero R] (ext : RoomExt F R G) (i : RoomInfo F) {par : F × Nat} (hp : i.parameters ext = .ok par)
    (g : G) {src mic : List (F × F × F)} (h : src = [] ∨ mic = []) : origPath ext i g src mic = .error .value := by
  unfold origPath
  rw [origParameters_eq, hp]
  dsimp only
  rw [if_pos h]

end
/-- One source and two microphones, the responses of which are not the same. -/
def origSrc : Geo (ℚ × ℚ × ℚ) := ⟨1, [(0, 1, 3)], true⟩
def origMic : Geo (ℚ × ℚ × ℚ) := ⟨2, [(2, 1, 3), (2, 2, 5 / 2)], true⟩

example : origPath boxExt boxInfo 0 origSrc.pos origMic.pos =
      (boxInfo.parameters boxExt).bind (fun par => createPath (boxInfo.cfg boxExt par) 0 origSrc origMic "ism") ∧
    (origPath boxExt boxInfo 0 origSrc.pos origMic.pos).toOption.map (fun r => (r.2.ir 0 0, r.2.ir 0 1)) =
      some ([2, 2, 1], [2, 2, 3 / 2]) :=
  ⟨C158_path boxExt boxInfo rfl (le_refl _) 0 rfl (by decide) (by decide), by decide +kernel⟩

/-- Three samples are simulated and two of them kept. -/
example : (origMeta boxExt { boxInfo with irLen := 2 } id (fun _ => .error .value) 0 origSrc.pos origMic.pos).toOption.map
      (fun r => (match r.1.truncError with | .fin x => some x | _ => none, r.2)) = some (some (90 / 41), (4, 10)) := by
  decide +kernel

example : origPath boxExt boxInfo 0 origSrc.pos [] = .error .value :=
  C158_empty boxExt boxInfo boxPar 0 (Or.inr rfl)

end Verif

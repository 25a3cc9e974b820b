/-
C196: region arrays and groups with adaptive noise control.
-/
import Verif.Props.RegionArray
import Verif.Props.CoordsWith
import Verif.Props.GivenWith
namespace Verif

section
variable {F K R S D O G : Type} [Field K] [LinearOrder K] [Field R]

omit [Field K] [LinearOrder K] [Field R] in
theorem numOfArray_ungroup {Pt H : Type} (c : Coll Pt H) (nm : String) : numOfArray c.ungroup.arrays nm = numOfArray c.arrays nm := by
  have := ungroup_find c nm
  unfold Coll.find at this
  unfold numOfArray
  rw [this]
  cases c.arrays.find? fun a => a.name == nm <;> rfl

omit [Field K] [LinearOrder K] [Field R] in
theorem fxCreate_ungroup {Pt H : Type} (c : Coll Pt H) (bs ub L : Nat) (mu beta : R) (norm : FxNorm) :
    fxCreate c.ungroup.arrays bs ub L mu beta norm = fxCreate c.arrays bs ub L mu beta norm := by
  unfold fxCreate
  simp only [numOfArray_ungroup]

omit [Field K] [LinearOrder K] [Field R] in
/-- The diagnostics of the examples do not depend on groups. -/
theorem ancDiagnostics_ungroup {Pt H P V : Type} (info : DiagInfo) (get : P → Except PyErr V) (c : Coll Pt H) :
    (ancDiagnostics info c.ungroup.arrays get : Except PyErr (List (Diag (DData R P V)))) = ancDiagnostics info c.arrays get := by
  unfold ancDiagnostics
  have he : (c.ungroup.arrays.any fun a => a.name == "eval") = c.arrays.any fun a => a.name == "eval" := by
    unfold Coll.ungroup
    rw [List.any_map]
    rfl
  simp only [numOfArray_ungroup, he]

theorem ancSimulate_ungroup (base : SimCfg R (IrMat R) F S (G × Coll (K × K × K) (IrMat R)) (FxSt R) D O) (ext : RoomExt K R G)
    (i : RoomInfo K) (g : G) (c : Coll (K × K × K) (IrMat R)) (srcs : String → S) (bs ub L : Nat) (mu beta : R) (norm : FxNorm) (f0 : F)
    {diags : Coll (K × K × K) (IrMat R) → Except PyErr (List (Diag D))} (hdiags : ∀ c, diags c.ungroup = diags c) :
    (ancSimulate base ext i g c.ungroup srcs bs ub L mu beta norm f0 diags).map observe = (ancSimulate base ext i g c srcs bs ub L mu beta norm f0 diags).map observe := by
  unfold ancSimulate roomSetup
  cases i.parameters ext with
  | error x => rfl
  | ok par =>
    dsimp only
    rw [setupIr_ungroup, ungroup_infos]
    cases c.setupIr (createPath (i.cfg ext par)) g with
    | error x => rfl
    | ok gc =>
      simp only [Except.map]
      rw [show Coll.path (ungroupGc gc) "loudspeaker" "error" = Coll.path gc "loudspeaker" "error" from rfl,
        show (ungroupGc gc).2 = gc.2.ungroup from rfl, hdiags]
      rw [fxCreate_ungroup]
      cases Coll.path gc "loudspeaker" "error" with
      | error x => rfl
      | ok sp =>
        dsimp only
        cases fxCreate gc.2.arrays bs ub L mu beta norm with
        | error x => rfl
        | ok q =>
          dsimp only
          cases diags gc.2 with
          | error x => rfl
          | ok ds =>
            dsimp only
            have key := runWith_arr (prep := fxPrepare) (cfg := { base with
              arrays := c.infos, arrUpdate := Coll.update (createPath (i.cfg ext par)), arrPath := Coll.path
              proc := some (fxProc q) }) (upd := Coll.update (createPath (i.cfg ext par))) (path := Coll.path) (φ := ungroupGc)
              (I := fun _ => True) (fun _ _ _ => rfl) (fun a n _ => update_ungroup a n) (fun _ _ _ _ _ => trivial)
              srcs gc trivial (fxInit q sp) f0 ds
            have e := congrArg (Except.map observe) key
            rw [Except.map_map'] at e
            exact e

theorem realSimulate_ungroup (base : SimCfg R (IrMat R) F S (G × Coll (K × K × K) (IrMat R)) (FastSt R) D O) (ext : RoomExt K R G)
    (i : RoomInfo K) (g : G) (c : Coll (K × K × K) (IrMat R)) (srcs : String → S) (bs L : Nat) (mu beta : R) (f0 : F)
    {diags : Coll (K × K × K) (IrMat R) → Except PyErr (List (Diag D))} (hdiags : ∀ c, diags c.ungroup = diags c) :
    (realSimulate base ext i g c.ungroup srcs bs L mu beta f0 diags).map observe = (realSimulate base ext i g c srcs bs L mu beta f0 diags).map observe := by
  unfold realSimulate roomSetup
  cases i.parameters ext with
  | error x => rfl
  | ok par =>
    dsimp only
    rw [setupIr_ungroup, ungroup_infos]
    cases c.setupIr (createPath (i.cfg ext par)) g with
    | error x => rfl
    | ok gc =>
      simp only [Except.map]
      rw [show Coll.path (ungroupGc gc) "loudspeaker" "error" = Coll.path gc "loudspeaker" "error" from rfl,
        show (ungroupGc gc).2 = gc.2.ungroup from rfl, hdiags]
      rw [show fastCreate gc.2.ungroup.arrays bs L mu beta = fastCreate gc.2.arrays bs L mu beta from fxCreate_ungroup ..]
      cases Coll.path gc "loudspeaker" "error" with
      | error x => rfl
      | ok sp =>
        dsimp only
        cases fastCreate gc.2.arrays bs L mu beta with
        | error x => rfl
        | ok q =>
          dsimp only
          cases diags gc.2 with
          | error x => rfl
          | ok ds =>
            dsimp only
            have key := runWith_arr (prep := fastPrepare q) (cfg := { base with
              arrays := c.infos, arrUpdate := Coll.update (createPath (i.cfg ext par)), arrPath := Coll.path
              proc := some (fastProc q) }) (upd := Coll.update (createPath (i.cfg ext par))) (path := Coll.path) (φ := ungroupGc)
              (I := fun _ => True) (fun _ _ _ => rfl) (fun a n _ => update_ungroup a n) (fun _ _ _ _ _ => trivial)
              srcs gc trivial (fastInit q sp) f0 ds
            have e := congrArg (Except.map observe) key
            rw [Except.map_map'] at e
            exact e

/-- **C196** `FxLMS`: how the objects of the arrays are grouped does not matter: with collections that differ only in groups the
outcomes are the same, exceptions included.  The diagnostics must not depend on the groups. -/
theorem C196_fxlms (base : SimCfg R (IrMat R) F S (G × Coll (K × K × K) (IrMat R)) (FxSt R) D O) (ext : RoomExt K R G)
    (i : RoomInfo K) (g : G) {c c' : Coll (K × K × K) (IrMat R)} (hc : c'.ungroup = c.ungroup) (srcs : String → S) (bs ub L : Nat) (mu beta : R) (norm : FxNorm) (f0 : F)
    {diags : Coll (K × K × K) (IrMat R) → Except PyErr (List (Diag D))} (hdiags : ∀ c, diags c.ungroup = diags c) :
    (ancSimulate base ext i g c' srcs bs ub L mu beta norm f0 diags).map observe = (ancSimulate base ext i g c srcs bs ub L mu beta norm f0 diags).map observe := by
  rw [← ancSimulate_ungroup (hdiags := hdiags), hc, ancSimulate_ungroup (hdiags := hdiags)]

/-- **C196** `FastBlockFxLMS`: the same. -/
theorem C196_fast (base : SimCfg R (IrMat R) F S (G × Coll (K × K × K) (IrMat R)) (FastSt R) D O) (ext : RoomExt K R G)
    (i : RoomInfo K) (g : G) {c c' : Coll (K × K × K) (IrMat R)} (hc : c'.ungroup = c.ungroup) (srcs : String → S) (bs L : Nat) (mu beta : R) (f0 : F)
    {diags : Coll (K × K × K) (IrMat R) → Except PyErr (List (Diag D))} (hdiags : ∀ c, diags c.ungroup = diags c) :
    (realSimulate base ext i g c' srcs bs L mu beta f0 diags).map observe = (realSimulate base ext i g c srcs bs L mu beta f0 diags).map observe := by
  rw [← realSimulate_ungroup (hdiags := hdiags), hc, realSimulate_ungroup (hdiags := hdiags)]

omit [Field K] [LinearOrder K] [Field R] in
theorem op_ungroup {Pt : Type} (c : Coll Pt (IrMat R)) (o : PathOp R) : (c.op o).ungroup = c.ungroup.op o := by
  cases o with
  | type s m t =>
    unfold Coll.op Coll.setPathType
    dsimp only
    rw [show c.ungroup.srcs = c.srcs from rfl, show c.ungroup.mics = c.mics from rfl]
    split
    · rfl
    · split <;> rfl
  | path h s m =>
    unfold Coll.op Coll.setPropPath
    dsimp only
    rw [show c.ungroup.srcs = c.srcs from rfl, show c.ungroup.mics = c.mics from rfl, ungroup_find, ungroup_find]
    split
    · rfl
    · split
      · rfl
      · cases c.find s with
        | none => rfl
        | some a =>
          cases c.find m with
          | none => rfl
          | some b =>
            dsimp only [Option.map_some]
            rw [show a.ungroup.num = a.num from rfl, show b.ungroup.num = b.num from rfl]
            split
            · rfl
            · split <;> rfl

omit [Field K] [LinearOrder K] [Field R] in
theorem ops_ungroup {Pt : Type} : ∀ (os : List (PathOp R)) (c : Coll Pt (IrMat R)), (os.foldl Coll.op c).ungroup = os.foldl Coll.op c.ungroup
  | [], _ => rfl
  | o :: os, c => by
    rw [List.foldl_cons, List.foldl_cons, ops_ungroup os, op_ungroup]

omit [Field K] [LinearOrder K] [Field R] in
theorem planned_ungroup (freq : Nat) {as as' : List (Arr (K × K × K))} (h : as'.map Arr.ungroup = as.map Arr.ungroup) (os : List (PathOp R)) (t : String) :
    (planned freq as' os t).ungroup = (planned freq as os t).ungroup := by
  unfold planned
  refine setDefault_ungroup t _ _ ?_
  rw [ops_ungroup, ops_ungroup, addAll_ungroup _ _ _ _ h rfl]

/-- **C196** `FxLMS`: with a region array among the arrays (as error, reference or further microphones) everything is as with a microphone
array that has the grid of the region as its positions, whatever paths and path types the user has set. -/
theorem C196_region_fxlms (base : SimCfg R (IrMat R) F S (G × Coll (K × K × K) (IrMat R)) (FxSt R) D O) (ext : RoomExt K R G)
    (i : RoomInfo K) (g : G) {name : String} {omni : Bool} {reg : RegionArg K} {a b : Arr (Pt K)} {pts : List (Pt K)}
    (ha : mkRegionArr name omni reg none = .ok a) (hp : reg.grid = .ok pts)
    (hb : mkArr name (some .mic) omni (.mat pts) = .ok b) (xyz : Pt K → K × K × K) (l1 l2 : List (Arr (K × K × K)))
    (freq : Nat) (os : List (PathOp R)) (t : String) (srcs : String → S) (bs ub L : Nat) (mu beta : R) (norm : FxNorm) (f0 : F)
    {diags : Coll (K × K × K) (IrMat R) → Except PyErr (List (Diag D))} (hdiags : ∀ c, diags c.ungroup = diags c) :
    (ancSimulate base ext i g (planned freq (l1 ++ a.mapPos xyz :: l2) os t) srcs bs ub L mu beta norm f0 diags).map observe =
      (ancSimulate base ext i g (planned freq (l1 ++ b.mapPos xyz :: l2) os t) srcs bs ub L mu beta norm f0 diags).map observe := by
  obtain ⟨q, hq, hab⟩ := C126_points ha
  rw [hp] at hq
  cases hq
  rw [hb] at hab
  cases hab
  refine C196_fxlms (hdiags := hdiags) base ext i g (planned_ungroup freq ?_ os t) srcs ..
  rw [List.map_append, List.map_append, List.map_cons, List.map_cons]
  rfl

/-- **C196** `FastBlockFxLMS`: the same. -/
theorem C196_region_fast (base : SimCfg R (IrMat R) F S (G × Coll (K × K × K) (IrMat R)) (FastSt R) D O) (ext : RoomExt K R G)
    (i : RoomInfo K) (g : G) {name : String} {omni : Bool} {reg : RegionArg K} {a b : Arr (Pt K)} {pts : List (Pt K)}
    (ha : mkRegionArr name omni reg none = .ok a) (hp : reg.grid = .ok pts)
    (hb : mkArr name (some .mic) omni (.mat pts) = .ok b) (xyz : Pt K → K × K × K) (l1 l2 : List (Arr (K × K × K)))
    (freq : Nat) (os : List (PathOp R)) (t : String) (srcs : String → S) (bs L : Nat) (mu beta : R) (f0 : F)
    {diags : Coll (K × K × K) (IrMat R) → Except PyErr (List (Diag D))} (hdiags : ∀ c, diags c.ungroup = diags c) :
    (realSimulate base ext i g (planned freq (l1 ++ a.mapPos xyz :: l2) os t) srcs bs L mu beta f0 diags).map observe =
      (realSimulate base ext i g (planned freq (l1 ++ b.mapPos xyz :: l2) os t) srcs bs L mu beta f0 diags).map observe := by
  obtain ⟨q, hq, hab⟩ := C126_points ha
  rw [hp] at hq
  cases hq
  rw [hb] at hab
  cases hab
  refine C196_fast (hdiags := hdiags) base ext i g (planned_ungroup freq ?_ os t) srcs ..
  rw [List.map_append, List.map_append, List.map_cons, List.map_cons]
  rfl

end

/-! ### examples -/

/-- The arrays of the example with error microphones in two boxes. -/
def boxedArrays (m : Arr (Pt ℚ)) : List (Arr (ℚ × ℚ × ℚ)) :=
  [] ++ (m.mapPos fun p => (p.x, p.y, p.z.getD 0)) :: [stillArr "ref" .mic [(3, 1, 3)], stillArr "loudspeaker" .ctrl [(1, 1, 3)],
    stillArr "noise" .free [(3, 1, 3)]]

/-- The simulations complete, and are the same for the region and for its grid. -/
example : ∃ a b pts, mkRegionArr "error" true twoBoxes none = .ok a ∧ twoBoxes.grid = .ok pts ∧
    mkArr "error" (some .mic) true (.mat pts) = .ok b ∧
    errBuffer ((diceFx 0 (planned 2 (boxedArrays a) exampleTypes "ism")).map observe) =
      errBuffer ((diceFx 0 (planned 2 (boxedArrays b) exampleTypes "ism")).map observe) ∧
    errBuffer ((diceFast 0 (planned 2 (boxedArrays a) exampleTypes "ism")).map observe) =
      errBuffer ((diceFast 0 (planned 2 (boxedArrays b) exampleTypes "ism")).map observe) ∧
    errBuffer ((diceFx 0 (planned 2 (boxedArrays b) exampleTypes "ism")).map observe) ≠ none ∧
    errBuffer ((diceFast 0 (planned 2 (boxedArrays b) exampleTypes "ism")).map observe) ≠ none := by
  cases ha : mkRegionArr "error" true twoBoxes none with
  | error x =>
    have : shown (mkRegionArr "error" true twoBoxes none) ≠ none := by decide +kernel
    rw [ha] at this
    exact absurd rfl this
  | ok a =>
    obtain ⟨pts, hp, hb⟩ := C126_points ha
    have h1 : (match mkRegionArr "error" true twoBoxes none with
      | .error _ => none
      | .ok a => errBuffer ((diceFx 0 (planned 2 (boxedArrays a.ungroup) exampleTypes "ism")).map observe)) ≠ none := by decide +kernel
    have h2 : (match mkRegionArr "error" true twoBoxes none with
      | .error _ => none
      | .ok a => errBuffer ((diceFast 0 (planned 2 (boxedArrays a.ungroup) exampleTypes "ism")).map observe)) ≠ none := by decide +kernel
    rw [ha] at h1 h2
    refine ⟨a, a.ungroup, pts, rfl, hp, hb, congrArg errBuffer ?_, congrArg errBuffer ?_, h1, h2⟩
    · exact C196_region_fxlms (hdiags := fun c => ancDiagnostics_ungroup ..) _ boxExt boxInfo 0 ha hp hb ..
    · exact C196_region_fast (hdiags := fun c => ancDiagnostics_ungroup ..) _ boxExt boxInfo 0 ha hp hb ..

end Verif

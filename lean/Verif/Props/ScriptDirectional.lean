/-
The example script with a directional microphone (C113).
-/
import Verif.Props.Scripts
import Verif.Props.Directional
import Verif.Props.RoomTotal
import Std.Data.String.ToNat
namespace Verif

section
variable {K R G S P V : Type} [Field K] [LinearOrder K] [Field R]
  {ext : RoomExt K R G} {i : RoomInfo K} {freq : Nat} {as : List (Arr (K × K × K))} {os : List (PathOp R)} {t : String}

/-- **C113** is violated in every room of three dimensions: with a microphone array that is not
omnidirectional and a source whose path to it is to be found with the image-source method, no simulator can
be created. -/
theorem C113_violated_setup (hnames : (as.map (·.name)).Nodup) (hkinds : ∀ a ∈ as, a.kind ≠ none) (hinit : ∀ a ∈ as, a.Initial)
    (hdims : i.dims = 3) {s m : Arr (K × K × K)} (hs : s ∈ as) (hm : m ∈ as) (hsk : s.kind = some .free ∨ s.kind = some .ctrl)
    (hmk : m.kind = some .mic) (hsn : 1 ≤ s.num) (hmn : 1 ≤ m.num) (hpos : (m.geoAt 0).pos ≠ []) (homni : m.omni = false)
    (hup : userPaths s m os = []) (hty : ((userTypes s m os).getLast?).getD t = "ism") (g : G) :
    ∀ r, roomSetup ext i g (planned freq as os t) ≠ .ok r := by
  rintro ⟨par, gc⟩ hset
  obtain ⟨c1, c2, c3, c4⟩ := addAll_arrays as (Coll.empty_consistent (Pt := K × K × K) (H := IrMat R) freq) hkinds
    (by simpa [Coll.empty] using hnames)
  have hc := (Coll.addAll_spec as (Coll.empty_consistent (Pt := K × K × K) (H := IrMat R) freq) hkinds).1
  rw [show (Coll.empty freq : Coll (K × K × K) (IrMat R)).arrays = [] from rfl, List.nil_append] at c1
  have key := C40_user_paths hc (by rw [c1]; exact hinit) os t (roomSetup_setupIr (gc := (gc.1, gc.2)) hset)
    (a := s) (b := m) (by rw [c1]; exact hs) (by rw [c1]; exact hm) hsk hmk (by rw [c2]; rfl) (by rw [c3]; rfl) hsn hmn
  rw [hup, hty] at key
  obtain ⟨ty, rfl, -, e⟩ := key
  obtain ⟨g1, g2, x, e1, -⟩ := e (by decide)
  have hp : 0 < (m.geoAt 0).pos.length := List.length_pos_iff.2 hpos
  have h0 : (m.geoAt 0).omni = false := homni
  have hd : (i.cfg ext par).dims = 3 := hdims
  unfold createPath ismPath at e1
  simp only [show ("ism" = "none") = False by decide, show ("ism" = "direct") = False by decide,
    show ("ism" = "random") = False by decide, if_false, if_true, hd] at e1
  obtain ⟨k, hk⟩ : ∃ k, (m.geoAt 0).pos.length = k + 1 := ⟨_, (Nat.succ_pred_eq_of_pos hp).symm⟩
  rw [hk] at e1
  unfold ismLoop at e1
  rw [if_neg (by omega)] at e1
  dsimp only at e1
  rw [if_pos h0] at e1
  cases e1

omit [Field K] [LinearOrder K] in
theorem directional_names (ps : List (K × K × K)) (p : K × K × K) : ((directionalArrays ps p).map (·.name)).Nodup := by
  have hne : ∀ n : Nat, "ls_" ++ toString n ≠ "mic" := by
    intro n h
    have := congrArg (fun s : String => s.toList.head?) h
    simp at this
  unfold directionalArrays
  rw [List.map_append, List.nodup_append]
  refine ⟨?_, by simp, ?_⟩
  · rw [List.nodup_iff_injective_get]
    rintro ⟨a, ha⟩ ⟨b, hb⟩ h
    simp only [List.get_eq_getElem, List.getElem_map, List.getElem_mapIdx, placedArr] at h
    rw [String.append_right_inj] at h
    exact Fin.ext (Nat.repr_injective h)
  · intro x hx y hy
    rw [List.mem_map] at hx
    obtain ⟨a, ha, rfl⟩ := hx
    rw [List.mem_mapIdx] at ha
    obtain ⟨n, -, rfl⟩ := ha
    simp only [List.map_cons, List.map_nil, List.mem_singleton] at hy
    subst hy
    exact hne n

/-- **C113** is violated by the example `example_directional_mic.py` itself: in every room of three
dimensions, for all places of at least one source and of the microphone and whatever is to be recorded, the
script ends with an exception. -/
theorem C113_violated_example [DecidableEq R] (hdims : i.dims = 3) {ps : List (K × K × K)} (hps : ps ≠ []) (p : K × K × K)
    (base : SimCfg R (IrMat R) (Fir R) S (G × Coll (K × K × K) (IrMat R)) P (DData R P V) (DOut R V)) (srcs : String → S) (proc : P)
    (f0 : Fir R) (info : DiagInfo) (ex : Option IdxSel) (l : List (String × String)) (g : G) :
    ∃ e, runScript base ext i g (planned freq (directionalArrays ps p) [] "ism") srcs proc f0 info ex l = .error e := by
  obtain ⟨s, rest, rfl⟩ := List.exists_cons_of_ne_nil hps
  have hmem : ∀ a ∈ directionalArrays (s :: rest) p, (∃ nm k o q, a = placedArr nm k o q) := by
    intro a ha
    rw [directionalArrays, List.mem_append, List.mem_mapIdx, List.mem_singleton] at ha
    rcases ha with ⟨n, hn, rfl⟩ | rfl <;> exact ⟨_, _, _, _, rfl⟩
  cases h : roomSetup (R := R) ext i g (planned freq (directionalArrays (s :: rest) p) [] "ism") with
  | error e =>
    refine ⟨e, ?_⟩
    unfold runScript
    rw [h]
  | ok r =>
    refine absurd h (C113_violated_setup (directional_names _ _) ?_ ?_ hdims
      (s := placedArr ("ls_" ++ toString 0) .free true [s]) (m := placedArr "mic" .mic false [p]) ?_ ?_ (.inl rfl) rfl (le_refl 1) (le_refl 1)
      (by simp [placedArr, Arr.geoAt]) rfl rfl rfl g r)
    · intro a ha
      obtain ⟨nm, k, o, q, rfl⟩ := hmem a ha
      exact fun e => by cases e
    · intro a ha
      obtain ⟨nm, k, o, q, rfl⟩ := hmem a ha
      exact fun f hf => by cases hf
    · rw [directionalArrays, List.mem_append, List.mem_mapIdx]
      exact .inl ⟨0, by simp, rfl⟩
    · simp [directionalArrays]

/-- The script in a box of which the image-source method could be used, with two sources. -/
example (g : Nat) : (∃ gc, roomSetup boxExt boxInfo g (planned 2 (simplestArrays [(3, 1, 3)] (1, 1, 3)) [] "ism") = .ok gc) ∧
    ∃ e, runScript (V := ℚ) boxBase boxExt boxInfo g (planned 2 (directionalArrays [(3, 1, 3), (3, 2, 3)] (1, 1, 3)) [] "ism")
      (fun _ => 0) () demoFilt ⟨20, 10, 5⟩ none [("microphone_signal", "mic")] = .error e := by
  constructor
  · obtain ⟨-, par, gc, h, -⟩ := (pair_plan (R := ℚ) (ext := boxExt) (i := boxInfo) (freq := 2) (a := placedArr "source" .free true [(3, 1, 3)])
      (by decide) (.inl rfl) rfl (fun _ => rfl) (fun f hf => by cases hf) (1, 1, 3) (by decide) rfl plan_demo.reverberation box_lawful).setup g
    exact ⟨_, h⟩
  · exact C113_violated_example rfl (by simp) _ _ _ _ _ _ _ _ _

end
end Verif

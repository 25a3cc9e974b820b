/-
C126: arrays of regions.
-/
import Verif.Lemmas.Ungroup
import Verif.Props.Array
import Verif.Props.Room
namespace Verif

theorem mapM_id_map {α β ε : Type} (f : α → Except ε β) : ∀ l : List α, (l.map f).mapM id = l.mapM f
  | [] => rfl
  | a :: l => by
    rw [List.map_cons, List.mapM_cons, List.mapM_cons, mapM_id_map f l]
    rfl

section
variable {F : Type} [Field F]

theorem mkRegionArr_segments {name : String} {omni : Bool} {reg : RegionArg F} {a : Arr (Pt F)}
    (h : mkRegionArr name omni reg none = .ok a) :
    ∃ l, (reg.segments.mapM fun r => r.grid) = .ok l ∧ mkArr name (some .mic) omni (.groups l) = .ok a := by
  unfold mkRegionArr at h
  dsimp only at h
  split at h
  · cases h
  · split at h
    · cases h
    · exact ⟨_, by assumption, h⟩

/-- **C126** A region array has its microphones where a microphone array has them that is given
`region.equally_spaced_points()`, in this order, and differs from it in the groups only. -/
theorem C126_points {name : String} {omni : Bool} {reg : RegionArg F} {a : Arr (Pt F)}
    (h : mkRegionArr name omni reg none = .ok a) :
    ∃ pts, reg.grid = .ok pts ∧ mkArr name (some .mic) omni (.mat pts) = .ok a.ungroup := by
  obtain ⟨l, hl, ha⟩ := mkRegionArr_segments h
  have hne : l ≠ [] := by
    rintro rfl
    cases ha
  have hp : reg.grid = .ok l.flatten := by
    have key : ∀ rs : List (RegionView F), (rs.mapM fun r => r.grid) = .ok l →
        combinedGrid (rs.map RegionView.grid) = .ok l.flatten := by
      intro rs hrs
      unfold combinedGrid
      rw [mapM_id_map]
      change (match (rs.mapM fun r => r.grid) with
        | .error x => Except.error x
        | .ok [] => .error .value
        | .ok l => .ok l.flatten) = _
      rw [hrs]
      cases l with
      | nil => exact absurd rfl hne
      | cons => rfl
    have single : ∀ r : RegionView F, ([r].mapM fun r => r.grid) = .ok l → r.grid = .ok l.flatten := by
      intro r hr
      rw [List.mapM_cons] at hr
      cases hg : r.grid with
      | error x => rw [hg] at hr; cases hr
      | ok p =>
        rw [hg] at hr
        cases hr
        simp
    cases reg with
    | one r => exact single r hl
    | many rs =>
      rcases rs with - | ⟨r, - | ⟨s, rs⟩⟩
      · exact key _ hl
      · exact single r hl
      · exact key _ hl
  refine ⟨_, hp, ?_⟩
  cases l with
  | nil => exact absurd rfl hne
  | cons x l =>
    cases ha
    rfl

/-- **C126** The groups of a region array are its regions: there is one group for each of them,
and the group has the microphones of its grid. -/
theorem C126_groups {name : String} {omni : Bool} {reg : RegionArg F} {a : Arr (Pt F)}
    (h : mkRegionArr name omni reg none = .ok a) :
    ∃ gs, a.groups = some gs ∧ a.numGroups = gs.length ∧ gs.flatten = List.range a.num ∧
      gs.map (fun g => Except.ok (ε := PyErr) (g.map fun i => a.pos[i]?)) =
        reg.segments.map fun r => r.grid.map fun pts => pts.map some := by
  obtain ⟨l, hl, ha⟩ := mkRegionArr_segments h
  have hne : l ≠ [] := by
    rintro rfl
    cases ha
  obtain ⟨b, gs, hb, h1, h2, h3, h4, h5, h6⟩ := C44_groups name (some .mic) omni l hne
  rw [ha] at hb
  cases hb
  refine ⟨gs, h1, h2, h4, ?_⟩
  have : ∀ (rs : List (RegionView F)) (l : List (List (Pt F))), (rs.mapM fun r => r.grid) = .ok l →
      rs.map (fun r => r.grid.map fun pts => pts.map some) = l.map fun rows => .ok (rows.map some) := by
    intro rs
    induction rs with
    | nil => intro l hl; cases hl; rfl
    | cons r rs ih =>
      intro l hl
      rw [List.mapM_cons] at hl
      cases hg : r.grid with
      | error x => rw [hg] at hl; cases hl
      | ok p =>
        rw [hg] at hl
        cases hr : (rs.mapM fun r => r.grid) with
        | error x => rw [hr] at hl; cases hl
        | ok q =>
          rw [hr] at hl
          cases hl
          rw [List.map_cons, List.map_cons, ih q hr, hg]
          rfl
  rw [this _ _ hl]
  have e := congrArg (List.map (Except.ok (ε := PyErr))) h6
  rw [List.map_map, List.map_map] at e
  exact e

theorem overlapLoop_grids (all : List (RegionView F)) : ∀ rs : List (RegionView F), overlapLoop all rs = .ok false →
    ∃ l, (rs.mapM fun r => r.grid) = .ok l ∧ l.length = rs.length
  | [], _ => ⟨[], rfl, rfl⟩
  | r :: rs, h => by
    unfold overlapLoop at h
    split at h
    · cases h
    · rename_i p hp
      split at h
      · cases h
      · cases h
      · obtain ⟨l, hl, hn⟩ := overlapLoop_grids all rs h
        refine ⟨p :: l, ?_, by simp [hn]⟩
        rw [List.mapM_cons, hp]
        change (do let bs ← List.mapM (fun r : RegionView F => r.grid) rs; pure (p :: bs)) = _
        rw [hl]
        rfl

/-- **C126** A region array can be made of every region with a grid, and of every list of regions that can be
combined. -/
theorem C126_accepted (name : String) (omni : Bool) (reg : RegionArg F)
    (h : match reg with
      | .one r => ∃ pts, r.grid = .ok pts
      | .many [r] => ∃ pts, r.grid = .ok pts
      | .many l => l ≠ [] ∧ ∃ v, combinedVolume l = .ok v) :
    ∃ a, mkRegionArr name omni reg none = .ok a := by
  have single : ∀ r : RegionView F, (∃ pts, r.grid = .ok pts) → ∃ p, ([r].mapM fun r => r.grid) = .ok [p] := by
    rintro r ⟨p, hp⟩
    exact ⟨p, by rw [List.mapM_cons, hp]; rfl⟩
  cases reg with
  | one r =>
    obtain ⟨p, hp⟩ := single r h
    unfold mkRegionArr
    dsimp only [RegionArg.segments]
    rw [hp]
    exact ⟨_, rfl⟩
  | many rs =>
    rcases rs with - | ⟨r, - | ⟨s, rs⟩⟩
    · exact absurd rfl h.1
    · obtain ⟨p, hp⟩ := single r h
      unfold mkRegionArr
      dsimp only [RegionArg.segments]
      rw [hp]
      exact ⟨_, rfl⟩
    · obtain ⟨-, v, hv⟩ := h
      have ho : overlapLoop (r :: s :: rs) (r :: s :: rs) = .ok false := by
        unfold combinedVolume at hv
        split at hv
        · cases hv
        · cases hv
        · assumption
      obtain ⟨l, hl, hn⟩ := overlapLoop_grids _ _ ho
      unfold mkRegionArr
      dsimp only [RegionArg.segments]
      rw [hv, hl]
      cases l with
      | nil => simp at hn
      | cons => exact ⟨_, rfl⟩

/-- **C126** A region array that is given positions is the microphone array with these positions: the regions only
have to be combinable, their grids are not used. -/
theorem C126_given (name : String) (omni : Bool) (reg : RegionArg F) (p : PosArg (Pt F))
    (h : match reg with
      | .one _ => True
      | .many [_] => True
      | .many l => l ≠ [] ∧ ∃ v, combinedVolume l = .ok v) :
    mkRegionArr name omni reg (some p) = mkArr name (some .mic) omni p := by
  cases reg with
  | one r => rfl
  | many rs =>
    rcases rs with - | ⟨r, - | ⟨s, rs⟩⟩
    · exact absurd rfl h.1
    · rfl
    · obtain ⟨-, v, hv⟩ := h
      unfold mkRegionArr
      dsimp only
      rw [hv]
      rfl

/-- **C126** With or without positions no region array is made of an empty list (`IndexError`) or of regions that
cannot be combined (the exception of `CombinedRegion`). -/
theorem C126_refused (name : String) (omni : Bool) (pos : Option (PosArg (Pt F))) :
    mkRegionArr name omni (.many []) pos = .error .index ∧
      ∀ (l : List (RegionView F)) (x : PyErr), 2 ≤ l.length → combinedVolume l = .error x →
        mkRegionArr name omni (.many l) pos = .error x := by
  refine ⟨rfl, fun l x hl hx => ?_⟩
  rcases l with - | ⟨r, - | ⟨s, rs⟩⟩
  · simp at hl
  · simp at hl
  · unfold mkRegionArr
    dsimp only
    rw [hx]
    rfl

end

section
variable {F K R S P D O G : Type} [Field K] [LinearOrder K] [Zero R] [One R] [Add R]

/-- **C126** How the objects of the arrays are grouped does not matter for a simulation: with collections that differ
only in groups the outcomes are the same, exceptions included. -/
theorem C126_grouping (base : SimCfg R (IrMat R) F S (G × Coll (K × K × K) (IrMat R)) P D O) (ext : RoomExt K R G)
    (i : RoomInfo K) (g : G) {c c' : Coll (K × K × K) (IrMat R)} (hc : c'.ungroup = c.ungroup) (srcs : String → S)
    (proc : P) (f0 : F) (ds : List (Diag D)) :
    (simulate base ext i g c' srcs proc f0 ds).map observe = (simulate base ext i g c srcs proc f0 ds).map observe := by
  rw [← simulate_ungroup base ext i g c', hc, simulate_ungroup]

omit [Field K] [LinearOrder K] [Zero R] [One R] [Add R] in
theorem addAll_ungroup {Pt H : Type} : ∀ (l l' : List (Arr Pt)) (c c' : Coll Pt H), l'.map Arr.ungroup = l.map Arr.ungroup →
    c'.ungroup = c.ungroup → (c'.addAll l').ungroup = (c.addAll l).ungroup
  | [], [], _, _, _, hc => hc
  | [], _ :: _, _, _, hl, _ => by simp at hl
  | _ :: _, [], _, _, hl, _ => by simp at hl
  | a :: l, a' :: l', c, c', hl, hc => by
    rw [List.map_cons, List.map_cons, List.cons.injEq] at hl
    have hstep : ∀ (c : Coll Pt H) (a : Arr Pt), (c.addArray a).1.ungroup = (c.ungroup.addArray a.ungroup).1 := by
      intro c a
      unfold Coll.addArray
      rw [ungroup_find, show (a.ungroup).name = a.name from rfl, show (a.ungroup).kind = a.kind from rfl, Option.isSome_map]
      cases (c.find a.name).isSome with
      | true => rfl
      | false =>
        rcases hk : a.kind with - | (- | - | -) <;> simp [Coll.ungroup]
    exact addAll_ungroup l l' _ _ hl.2 (by rw [hstep, hstep, hc, hl.1])

omit [Field K] [LinearOrder K] [Zero R] [One R] [Add R] in
theorem setDefault_ungroup {Pt H : Type} (t : String) (c c' : Coll Pt H) (hc : c'.ungroup = c.ungroup) :
    (c'.setDefault t).ungroup = (c.setDefault t).ungroup := by
  have key : ∀ c : Coll Pt H, (c.setDefault t).ungroup = c.ungroup.setDefault t := by
    intro c
    unfold Coll.setDefault
    have : c.ungroup.combos = c.combos := rfl
    rw [this]
    clear this
    generalize c.combos = l
    induction l generalizing c with
    | nil => rfl
    | cons p l ih =>
      rw [List.foldl_cons, List.foldl_cons, ih]
      congr 1
      have h1 : c.ungroup.types = c.types := rfl
      have h2 : c.ungroup.paths = c.paths := rfl
      rw [h1, h2]
      split
      · rfl
      · split <;> rfl
  rw [key, key, hc]

/-- **C126** A simulation with a region array among its arrays gives the same as the simulation with a microphone array
that has the grid of the region as its positions. -/
theorem C126_run (base : SimCfg R (IrMat R) F S (G × Coll (K × K × K) (IrMat R)) P D O) (ext : RoomExt K R G)
    (i : RoomInfo K) (g : G) {name : String} {omni : Bool} {reg : RegionArg K} {a b : Arr (Pt K)} {pts : List (Pt K)}
    (ha : mkRegionArr name omni reg none = .ok a) (hp : reg.grid = .ok pts)
    (hb : mkArr name (some .mic) omni (.mat pts) = .ok b) (xyz : Pt K → K × K × K) (l1 l2 : List (Arr (K × K × K)))
    (freq : Nat) (t : String) (srcs : String → S) (proc : P) (f0 : F) (ds : List (Diag D)) :
    (simulate base ext i g (((Coll.empty freq).addAll (l1 ++ a.mapPos xyz :: l2)).setDefault t) srcs proc f0 ds).map observe =
    (simulate base ext i g (((Coll.empty freq).addAll (l1 ++ b.mapPos xyz :: l2)).setDefault t) srcs proc f0 ds).map observe := by
  obtain ⟨q, hq, hab⟩ := C126_points ha
  rw [hp] at hq
  cases hq
  rw [hb] at hab
  cases hab
  refine C126_grouping base ext i g (setDefault_ungroup t _ _ (addAll_ungroup _ _ _ _ ?_ rfl)) srcs proc f0 ds
  rw [List.map_append, List.map_append, List.map_cons, List.map_cons]
  rfl

end

/-! ### two boxes -/

/-- A cuboid as a region object; the points drawn from it are its centre. -/
def cuboidView (obj : Nat) (r : Cuboid ℚ) : RegionView ℚ :=
  ⟨obj, r.grid .default, [⟨r.center.1, r.center.2.1, some r.center.2.2⟩], fun rows => r.isIn rows (0, 0, 0), r.volume⟩

/-- Two boxes. -/
def twoBoxes : RegionArg ℚ :=
  .many [cuboidView 0 ⟨(2, 1, 1), (1, 1, 3), (1, 1, 1)⟩, cuboidView 1 ⟨(1, 1, 1), (5 / 2, 2, 3), (1, 1, 1)⟩]

/-- What the examples look at. -/
def shown (r : Except PyErr (Arr (Pt ℚ))) : Option (List (ℚ × ℚ × Option ℚ) × Option (List (List Nat))) :=
  match r with
  | .error _ => none
  | .ok a => some (a.pos.map fun p => (p.x, p.y, p.z), a.groups)

/-- The two boxes can be combined and have three grid points in two groups. -/
example : shown (mkRegionArr "mic" true twoBoxes none) =
    some ([(1 / 2, 1, some 3), (3 / 2, 1, some 3), (5 / 2, 2, some 3)], some [[0, 1], [2]]) := by
  decide +kernel

/-- Boxes that overlap cannot be combined. -/
example : mkRegionArr "mic" true (.many [cuboidView 0 ⟨(2, 1, 1), (1, 1, 3), (1, 1, 1)⟩,
    cuboidView 1 ⟨(1, 1, 1), (1, 1, 3), (1, 1, 1)⟩]) none = .error .assertion := by
  have h : combinedVolume [cuboidView 0 ⟨(2, 1, 1), (1, 1, 3), (1, 1, 1)⟩,
    cuboidView 1 ⟨(1, 1, 1), (1, 1, 3), (1, 1, 1)⟩] = .error .assertion := by decide +kernel
  unfold mkRegionArr
  dsimp only
  rw [h]
  rfl

/-- With a position of its own it has a single microphone there. -/
example : mkRegionArr "mic" true twoBoxes (some (.mat [⟨7, 1, some 2⟩])) =
    mkArr "mic" (some .mic) true (.mat [⟨7, 1, some 2⟩]) := by
  refine C126_given _ _ _ _ ⟨by simp, ?_⟩
  have : (combinedVolume [cuboidView 0 ⟨(2, 1, 1), (1, 1, 3), (1, 1, 1)⟩,
    cuboidView 1 ⟨(1, 1, 1), (5 / 2, 2, 3), (1, 1, 1)⟩]) = .ok 3 := by decide +kernel
  exact ⟨3, this⟩

/-- Neither does it help to give positions to boxes that overlap. -/
example : mkRegionArr "mic" true (.many [cuboidView 0 ⟨(2, 1, 1), (1, 1, 3), (1, 1, 1)⟩,
    cuboidView 1 ⟨(1, 1, 1), (1, 1, 3), (1, 1, 1)⟩]) (some (.mat [⟨7, 1, some 2⟩])) = .error .assertion :=
  (C126_refused _ _ _).2 _ _ (by simp) (by decide +kernel)

/-- The simulation of the box with the microphones of the two boxes. -/
def regionSim (m : Arr (Pt ℚ)) :=
  micBuffer ((boxSim boxInfo (((Coll.empty 2).addAll ([⟨"src", some .free, 1, [(0, 1, 3)], none, 1,
    some fun n => [((n : ℚ) / 8, 1, 3)], true, []⟩] ++ [m.mapPos fun p => (p.x, p.y, p.z.getD 0)])).setDefault "ism")).map observe)

/-- It is the same as with a microphone array, and completes. -/
example : ∃ a b pts, mkRegionArr "mic" true twoBoxes none = .ok a ∧ twoBoxes.grid = .ok pts ∧
    mkArr "mic" (some .mic) true (.mat pts) = .ok b ∧ regionSim a = regionSim b ∧ regionSim b ≠ none := by
  cases ha : mkRegionArr "mic" true twoBoxes none with
  | error x =>
    have : shown (mkRegionArr "mic" true twoBoxes none) ≠ none := by decide +kernel
    rw [ha] at this
    exact absurd rfl this
  | ok a =>
    obtain ⟨pts, hp, hb⟩ := C126_points ha
    refine ⟨a, a.ungroup, pts, rfl, hp, hb, congrArg micBuffer (C126_run boxBase boxExt boxInfo 0 ha hp hb ..), ?_⟩
    have : (match mkRegionArr "mic" true twoBoxes none with
      | .error _ => none
      | .ok a => regionSim a.ungroup) ≠ none := by decide +kernel
    rw [ha] at this
    exact this

end Verif

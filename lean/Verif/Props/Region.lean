/-
C56 to C61: regions of space.
-/
import Verif.Lemmas.Region
namespace Verif

section
variable {F : Type} [Field F] [LinearOrder F] [IsStrictOrderedRing F]

/-! ### C61 -/

theorem between_iff {side center pad x : F} :
    (lowLim side center - pad ≤ x ∧ x ≤ highLim side center + pad) ↔ Between side center pad x := by
  unfold lowLim highLim Between
  rw [abs_le]
  constructor
  · rintro ⟨h1, h2⟩; constructor <;> linarith
  · rintro ⟨h1, h2⟩; constructor <;> linarith

open Classical in
/-- C61, boxes: for every batch of three-dimensional coordinates, the answers are,
in order, whether each coordinate lies in the (padded) box. -/
theorem C61_cuboid (r : Cuboid F) (rows : List (Pt F)) (pad : F × F × F) (h3 : ∀ p ∈ rows, p.z ≠ none) :
    r.isIn rows pad = .ok (.each (rows.map fun p => decide (r.Has pad p))) := by
  unfold Cuboid.isIn
  rw [if_neg]
  · congr 2
    refine List.map_congr_left fun p hp => ?_
    obtain ⟨z, hz⟩ := Option.ne_none_iff_exists'.1 (h3 p hp)
    rw [Bool.eq_iff_iff]
    simp only [Bool.and_eq_true, decide_eq_true_eq, hz, Option.getD_some, between_iff, Cuboid.Has,
      Option.some.injEq, exists_eq_left', and_assoc]
  · simp only [List.any_eq_true, not_exists, not_and]
    intro p hp h
    exact h3 p hp (Option.isNone_iff_eq_none.1 h)

theorem offPlane_near {z : Option F} {rows : List (Pt F)} (h : ∀ p ∈ rows, NearPlane z p) :
    offPlane z rows = .ok none := by
  unfold offPlane
  cases z with
  | none => rfl
  | some v =>
    dsimp only
    rw [if_neg, if_pos]
    · simp only [allCloseTo, List.all_map, List.all_eq_true, Function.comp, decide_eq_true_eq]
      intro p hp
      obtain ⟨a, ha, h'⟩ := h p hp v rfl
      rw [ha]
      exact h'
    · simp only [List.any_eq_true, not_exists, not_and]
      intro p hp hn
      obtain ⟨a, ha, _⟩ := h p hp v rfl
      rw [ha] at hn
      cases hn

open Classical in
/-- C61, rectangles, partial: if all coordinates of the batch lie in the plane of the
rectangle (always, for a two-dimensional one), the answers are pointwise.  Missing:
batches with coordinates outside of the plane, see `C61_violated`. -/
theorem C61_rect_partial (r : Rect F) (rows : List (Pt F)) (pad : F × F) (h : ∀ p ∈ rows, NearPlane r.z p) :
    r.isIn rows pad = .ok (.each (rows.map fun p => decide (r.Has pad p))) := by
  unfold Rect.isIn
  rw [offPlane_near h]
  dsimp only
  congr 2
  refine List.map_congr_left fun p hp => ?_
  rw [Bool.eq_iff_iff]
  simp only [Bool.and_eq_true, decide_eq_true_eq, between_iff]
  exact Iff.rfl

/-- C61 does not hold for rectangles in space: adding to any batch a coordinate that
is not in the plane replaces all answers by a single `False`, even for coordinates
in the rectangle. -/
theorem C61_violated (r : Rect F) {z : F} (hz : r.z = some z) (rows : List (Pt F))
    (h3 : ∀ p ∈ rows, p.z ≠ none) {p : Pt F} (hp : p ∈ rows) (hoff : ¬ NearPlane r.z p) (pad : F × F) :
    r.isIn rows pad = .ok (.scalar false) := by
  have : offPlane r.z rows = .ok (some (.scalar false)) := by
    unfold offPlane
    rw [hz]
    dsimp only
    rw [if_neg, if_neg]
    · simp only [allCloseTo, List.all_map, List.all_eq_true, Function.comp, decide_eq_true_eq]
      intro hall
      apply hoff
      intro v hv
      rw [hz] at hv
      cases hv
      obtain ⟨a, ha⟩ := Option.ne_none_iff_exists'.1 (h3 p hp)
      have := hall p hp
      rw [ha] at this
      exact ⟨a, ha, this⟩
    · simp only [List.any_eq_true, not_exists, not_and]
      intro p hp h
      exact h3 p hp (Option.isNone_iff_eq_none.1 h)
  unfold Rect.isIn
  rw [this]

omit [IsStrictOrderedRing F] [LinearOrder F] [Field F] in
/-- C61 does not hold for combined regions: `is_in_region` always raises. -/
theorem C61_violated_combined (regs : List (List (Pt F) → Except PyErr InReg)) (rows : List (Pt F)) :
    ∃ x, combinedIsIn regs rows = .error x := by
  unfold combinedIsIn
  split
  · exact ⟨_, rfl⟩
  · exact ⟨_, rfl⟩

end

theorem sqrt_le_radius {s R : ℝ} : √s ≤ R ↔ 0 ≤ R ∧ s ≤ R ^ 2 := by
  constructor
  · intro h
    have h0 : 0 ≤ R := (Real.sqrt_nonneg s).trans h
    exact ⟨h0, (Real.sqrt_le_left h0).1 h⟩
  · rintro ⟨h0, h⟩
    exact (Real.sqrt_le_left h0).2 h

open Classical in
/-- C61, discs, partial: as for rectangles. -/
theorem C61_disc_partial (r : Disc) (rows : List (Pt ℝ)) (h : ∀ p ∈ rows, NearPlane r.z p) :
    r.isIn rows = .ok (.each (rows.map fun p => decide (r.Has p))) := by
  unfold Disc.isIn
  rw [offPlane_near h]
  dsimp only
  congr 2
  refine List.map_congr_left fun p hp => ?_
  rw [Bool.eq_iff_iff]
  simp only [decide_eq_true_eq]
  exact sqrt_le_radius

open Classical in
/-- C61, balls. -/
theorem C61_ball (r : Ball) (rows : List (Pt ℝ)) (h3 : ∀ p ∈ rows, p.z ≠ none) :
    r.isIn rows = .ok (.each (rows.map fun p => decide (r.Has p))) := by
  unfold Ball.isIn
  rw [if_neg]
  · congr 2
    refine List.map_congr_left fun p hp => ?_
    obtain ⟨z, hz⟩ := Option.ne_none_iff_exists'.1 (h3 p hp)
    rw [Bool.eq_iff_iff]
    simp only [decide_eq_true_eq, hz, Option.getD_some, Ball.Has, Option.some.injEq, exists_eq_left']
    exact sqrt_le_radius
  · simp only [List.any_eq_true, not_exists, not_and]
    intro p hp h
    exact h3 p hp (Option.isNone_iff_eq_none.1 h)

open Classical in
/-- C61, cylinders. -/
theorem C61_cylinder (r : Cylinder) (rows : List (Pt ℝ)) (h3 : ∀ p ∈ rows, p.z ≠ none) :
    r.isIn rows = .ok (.each (rows.map fun p => decide (r.Has p))) := by
  unfold Cylinder.isIn
  rw [if_neg]
  · congr 2
    refine List.map_congr_left fun p hp => ?_
    obtain ⟨z, hz⟩ := Option.ne_none_iff_exists'.1 (h3 p hp)
    rw [Bool.eq_iff_iff]
    simp only [Bool.and_eq_true, decide_eq_true_eq, hz, Option.getD_some, Cylinder.Has, Option.some.injEq,
      exists_eq_left', sqrt_le_radius,
      abs_le, neg_div]
    tauto
  · simp only [List.any_eq_true, not_exists, not_and]
    intro p hp h
    exact h3 p hp (Option.isNone_iff_eq_none.1 h)

/-- One point in a box, one on its face, one outside. -/
example : (⟨(2, 4, 6), (1, 0, 0), (1, 1, 1)⟩ : Cuboid ℚ).isIn
    [⟨1, 0, some 0⟩, ⟨2, -2, some 3⟩, ⟨5 / 2, 0, some 0⟩] (0, 0, 0) = .ok (.each [true, true, false]) := by
  decide +kernel

/-- The second coordinate changes the answer for the first. -/
example : (⟨(2, 2), (0, 0), some 1, (1, 1)⟩ : Rect ℚ).isIn [⟨0, 0, some 1⟩] (0, 0) = .ok (.each [true]) ∧
    (⟨(2, 2), (0, 0), some 1, (1, 1)⟩ : Rect ℚ).isIn [⟨0, 0, some 1⟩, ⟨0, 0, some 2⟩] (0, 0) = .ok (.scalar false) := by
  decide +kernel

/-! ### C56, C57 -/

section
variable {F : Type} [Field F] [LinearOrder F] [IsStrictOrderedRing F] [FloorRing F]

/-- The grid as combinations of coordinates. -/
theorem cuboid_grid_eq (r : Cuboid F) (pd : PointDist F) (hx : 0 < (pd.get r.spacing).1)
    (hy : 0 < (pd.get r.spacing).2.1) (hz : 0 < (pd.get r.spacing).2.2) {nx ny nz : Nat}
    (fx : FitsTimes r.side.1 (pd.get r.spacing).1 nx) (fy : FitsTimes r.side.2.1 (pd.get r.spacing).2.1 ny)
    (fz : FitsTimes r.side.2.2 (pd.get r.spacing).2.2 nz) (h1x : 1 ≤ nx) (h1y : 1 ≤ ny) (h1z : 1 ≤ nz) :
    r.grid pd = .ok ((List.range ny).flatMap fun j => (List.range nx).flatMap fun i => (List.range nz).map fun k =>
      ⟨gridCoord r.center.1 (pd.get r.spacing).1 nx i, gridCoord r.center.2.1 (pd.get r.spacing).2.1 ny j,
        some (gridCoord r.center.2.2 (pd.get r.spacing).2.2 nz k)⟩) := by
  unfold Cuboid.grid
  dsimp only
  rw [if_neg (by simp [hx.ne', hy.ne', hz.ne']), if_neg]
  · congr 1
    have ex := singleAxis_eq (c := r.center.1) hx fx h1x
    have ey := singleAxis_eq (c := r.center.2.1) hy fy h1y
    have ez := singleAxis_eq (c := r.center.2.2) hz fz h1z
    have key : ∀ {β : Type} {l : List F} {n : Nat} {g : Nat → F} {h : F} (f : F → List β),
        l.map (fun x => x + h) = (List.range n).map g →
        (l.flatMap fun x => f (x + h)) = (List.range n).flatMap fun i => f (g i) := by
      intro β l n g h f hl
      have e1 : (l.flatMap fun x => f (x + h)) = (l.map fun x => x + h).flatMap f := by rw [List.flatMap_map]
      rw [e1, hl, List.flatMap_map]
    have key' : ∀ {β : Type} {l : List F} {n : Nat} {g : Nat → F} {h : F} (f : F → β),
        l.map (fun x => x + h) = (List.range n).map g →
        (l.map fun x => f (x + h)) = (List.range n).map fun i => f (g i) := by
      intro β l n g h f hl
      have e1 : (l.map fun x => f (x + h)) = (l.map fun x => x + h).map f := by rw [List.map_map]; rfl
      rw [e1, hl, List.map_map]; rfl
    refine (key (fun y => (singleAxis r.side.1 (pd.get r.spacing).1).flatMap fun x =>
      (singleAxis r.side.2.2 (pd.get r.spacing).2.2).map fun z =>
        (⟨x + lowLim r.side.1 r.center.1, y, some (z + lowLim r.side.2.2 r.center.2.2)⟩ : Pt F)) ey).trans ?_
    congr 1
    funext j
    refine (key (fun x => (singleAxis r.side.2.2 (pd.get r.spacing).2.2).map fun z =>
        (⟨x, _, some (z + lowLim r.side.2.2 r.center.2.2)⟩ : Pt F)) ex).trans ?_
    congr 1
    funext i
    exact key' (fun z => (⟨_, _, some z⟩ : Pt F)) ez
  · rw [floor_fits hx fx, floor_fits hy fy, floor_fits hz fz, not_not]
    exact ⟨by exact_mod_cast h1x, by exact_mod_cast h1y, by exact_mod_cast h1z⟩

open Classical in
/-- C56, boxes: if the spacing of each axis fits `nx`, `ny`, `nz` (at least once)
into the sides, the grid consists of all combinations, each once, of `nx`, `ny`, `nz`
coordinates at exactly that spacing, centred in the box; all are in the box, and the
grid is symmetric about the centre. -/
theorem C56_cuboid (r : Cuboid F) (pd : PointDist F) (hx : 0 < (pd.get r.spacing).1)
    (hy : 0 < (pd.get r.spacing).2.1) (hz : 0 < (pd.get r.spacing).2.2) {nx ny nz : Nat}
    (fx : FitsTimes r.side.1 (pd.get r.spacing).1 nx) (fy : FitsTimes r.side.2.1 (pd.get r.spacing).2.1 ny)
    (fz : FitsTimes r.side.2.2 (pd.get r.spacing).2.2 nz) (h1x : 1 ≤ nx) (h1y : 1 ≤ ny) (h1z : 1 ≤ nz) :
    ∃ pts, r.grid pd = .ok pts ∧ pts.Nodup ∧ pts.length = nx * ny * nz ∧
      (∀ p, p ∈ pts ↔ ∃ i < nx, ∃ j < ny, ∃ k < nz,
        p = ⟨gridCoord r.center.1 (pd.get r.spacing).1 nx i, gridCoord r.center.2.1 (pd.get r.spacing).2.1 ny j,
          some (gridCoord r.center.2.2 (pd.get r.spacing).2.2 nz k)⟩) ∧
      (∀ x y z, (⟨x, y, some z⟩ : Pt F) ∈ pts →
        (⟨2 * r.center.1 - x, 2 * r.center.2.1 - y, some (2 * r.center.2.2 - z)⟩ : Pt F) ∈ pts) ∧
      (∀ p ∈ pts, r.Has (0, 0, 0) p) ∧
      r.isIn pts (0, 0, 0) = .ok (.each (List.replicate pts.length true)) := by
  refine ⟨_, cuboid_grid_eq r pd hx hy hz fx fy fz h1x h1y h1z, ?_⟩
  obtain ⟨pts, hpts⟩ : ∃ pts : List (Pt F), pts = ((List.range ny).flatMap fun j => (List.range nx).flatMap fun i =>
    (List.range nz).map fun k =>
      ⟨gridCoord r.center.1 (pd.get r.spacing).1 nx i, gridCoord r.center.2.1 (pd.get r.spacing).2.1 ny j,
        some (gridCoord r.center.2.2 (pd.get r.spacing).2.2 nz k)⟩) := ⟨_, rfl⟩
  rw [← hpts]
  have hmem : ∀ p, p ∈ pts ↔ ∃ i < nx, ∃ j < ny, ∃ k < nz,
        p = ⟨gridCoord r.center.1 (pd.get r.spacing).1 nx i, gridCoord r.center.2.1 (pd.get r.spacing).2.1 ny j,
          some (gridCoord r.center.2.2 (pd.get r.spacing).2.2 nz k)⟩ := by
    intro p
    rw [hpts]
    simp only [List.mem_flatMap, List.mem_range, List.mem_map]
    constructor
    · rintro ⟨j, hj, i, hi, k, hk, rfl⟩; exact ⟨i, hi, j, hj, k, hk, rfl⟩
    · rintro ⟨i, hi, j, hj, k, hk, rfl⟩; exact ⟨j, hj, i, hi, k, hk, rfl⟩
  have hhas : ∀ p ∈ pts, r.Has (0, 0, 0) p := by
    intro p hp
    obtain ⟨i, hi, j, hj, k, hk, rfl⟩ := (hmem p).1 hp
    exact ⟨gridCoord_between hx fx hi, gridCoord_between hy fy hj, _, rfl, gridCoord_between hz fz hk⟩
  refine ⟨?_, ?_, hmem, ?_, hhas, ?_⟩
  · rw [hpts]
    have inner : ∀ j, ((List.range nx).flatMap fun i => (List.range nz).map fun k =>
      (⟨gridCoord r.center.1 (pd.get r.spacing).1 nx i, gridCoord r.center.2.1 (pd.get r.spacing).2.1 ny j,
        some (gridCoord r.center.2.2 (pd.get r.spacing).2.2 nz k)⟩ : Pt F)) =
      ((List.range nx).flatMap fun i => (List.range nz).map fun k => (i, k)).map fun q =>
      (⟨gridCoord r.center.1 (pd.get r.spacing).1 nx q.1, gridCoord r.center.2.1 (pd.get r.spacing).2.1 ny j,
        some (gridCoord r.center.2.2 (pd.get r.spacing).2.2 nz q.2)⟩ : Pt F) := by
      intro j
      rw [List.map_flatMap]
      congr 1
      funext i
      rw [List.map_map]
      rfl
    simp only [inner]
    refine nodup_flatMap_pairs List.nodup_range (fun j _ => ?_) ?_
    · exact nodup_flatMap_pairs (g := fun i k => (i, k)) List.nodup_range (fun _ _ => List.nodup_range)
        (fun a _ b _ a' _ b' _ h => Prod.mk.inj h)
    · rintro j _ ⟨i, k⟩ _ j' _ ⟨i', k'⟩ _ h
      simp only [Pt.mk.injEq, Option.some.injEq] at h
      obtain ⟨e1, e2, e3⟩ := h
      exact ⟨gridCoord_inj hy e2, by rw [gridCoord_inj hx e1, gridCoord_inj hz e3]⟩
  · rw [hpts]
    simp only [List.length_flatMap, List.length_map, List.length_range, List.map_const', List.sum_replicate,
      smul_eq_mul]
    ring
  · intro x y z h
    obtain ⟨i, hi, j, hj, k, hk, e⟩ := (hmem _).1 h
    simp only [Pt.mk.injEq, Option.some.injEq] at e
    obtain ⟨rfl, rfl, rfl⟩ := e
    rw [hmem]
    refine ⟨nx - 1 - i, by omega, ny - 1 - j, by omega, nz - 1 - k, by omega, ?_⟩
    rw [gridCoord_mirror _ _ hi, gridCoord_mirror _ _ hj, gridCoord_mirror _ _ hk]
  · rw [C61_cuboid]
    · congr 2
      rw [List.eq_replicate_iff]
      refine ⟨List.length_map _, ?_⟩
      intro b hb
      obtain ⟨p, hp, rfl⟩ := List.mem_map.1 hb
      exact decide_eq_true (hhas p hp)
    · intro p hp
      obtain ⟨i, hi, j, hj, k, hk, rfl⟩ := (hmem p).1 hp
      exact Option.some_ne_none _

/-- C56, spacing: consecutive coordinates differ by the spacing. -/
theorem C56_spacing (c d : F) (n k : Nat) : gridCoord c d n (k + 1) - gridCoord c d n k = d :=
  gridCoord_succ c d n k

/-- C56: if a spacing does not fit into its side, `equally_spaced_points` raises. -/
theorem C56_too_small (r : Cuboid F) (pd : PointDist F) (hx : 0 < (pd.get r.spacing).1)
    (hy : 0 < (pd.get r.spacing).2.1) (hz : 0 < (pd.get r.spacing).2.2)
    (h : r.side.1 < (pd.get r.spacing).1 ∨ r.side.2.1 < (pd.get r.spacing).2.1 ∨ r.side.2.2 < (pd.get r.spacing).2.2) :
    r.grid pd = .error .assertion := by
  unfold Cuboid.grid
  dsimp only
  rw [if_neg (by simp [hx.ne', hy.ne', hz.ne']), if_pos]
  have : ∀ {s d : F}, 0 < d → s < d → ¬ (1 : Int) ≤ ⌊s / d⌋ := by
    intro s d hd hs h1
    rw [Int.le_floor, le_div_iff₀ hd] at h1
    push_cast at h1
    linarith
  rintro ⟨h1, h2, h3⟩
  rcases h with h | h | h
  · exact this hx h h1
  · exact this hy h h2
  · exact this hz h h3

/-- C57, boxes: every point of the box has a grid point less than one spacing away
along each axis. -/
theorem C57_cuboid (r : Cuboid F) (pd : PointDist F) (hx : 0 < (pd.get r.spacing).1)
    (hy : 0 < (pd.get r.spacing).2.1) (hz : 0 < (pd.get r.spacing).2.2) {pts : List (Pt F)}
    (h : r.grid pd = .ok pts) {a b c : F} (hp : r.Has (0, 0, 0) ⟨a, b, some c⟩) :
    ∃ x y z, (⟨x, y, some z⟩ : Pt F) ∈ pts ∧ |a - x| < (pd.get r.spacing).1 ∧ |b - y| < (pd.get r.spacing).2.1 ∧
      |c - z| < (pd.get r.spacing).2.2 := by
  have hfl : 1 ≤ ⌊r.side.1 / (pd.get r.spacing).1⌋ ∧ 1 ≤ ⌊r.side.2.1 / (pd.get r.spacing).2.1⌋ ∧
      1 ≤ ⌊r.side.2.2 / (pd.get r.spacing).2.2⌋ := by
    unfold Cuboid.grid at h
    dsimp only at h
    rw [if_neg (by simp [hx.ne', hy.ne', hz.ne'])] at h
    by_contra hcon
    rw [if_pos hcon] at h
    cases h
  have hfit : ∀ {s d : F}, 0 < d → (1 : Int) ≤ ⌊s / d⌋ → ∃ n, 1 ≤ n ∧ FitsTimes s d n := by
    intro s d hd h1
    have hs : 0 ≤ s := by
      rw [Int.le_floor, le_div_iff₀ hd] at h1
      push_cast at h1
      linarith
    obtain ⟨n, hn⟩ := exists_fits hd hs
    refine ⟨n, ?_, hn⟩
    rw [floor_fits hd hn] at h1
    exact_mod_cast h1
  obtain ⟨nx, h1x, fx⟩ := hfit hx hfl.1
  obtain ⟨ny, h1y, fy⟩ := hfit hy hfl.2.1
  obtain ⟨nz, h1z, fz⟩ := hfit hz hfl.2.2
  obtain ⟨pts', hg, _, _, hmem, _⟩ := C56_cuboid r pd hx hy hz fx fy fz h1x h1y h1z
  rw [h] at hg
  cases Except.ok.inj hg
  obtain ⟨q1, q2, c', hc', q3⟩ := hp
  cases hc'
  obtain ⟨i, hi, ei⟩ := gridCoord_near hx fx h1x q1
  obtain ⟨j, hj, ej⟩ := gridCoord_near hy fy h1y q2
  obtain ⟨k, hk, ek⟩ := gridCoord_near hz fz h1z q3
  exact ⟨_, _, _, (hmem _).2 ⟨i, hi, j, hj, k, hk, rfl⟩, ei, ej, ek⟩

/-! rectangles -/

theorem rect_grid_eq (r : Rect F) (hx : 0 < r.spacing.1) (hy : 0 < r.spacing.2) {nx ny : Nat}
    (fx : FitsTimes r.side.1 r.spacing.1 nx) (fy : FitsTimes r.side.2 r.spacing.2 ny) (h1x : 1 ≤ nx) (h1y : 1 ≤ ny) :
    r.grid = .ok ((List.range ny).flatMap fun j => (List.range nx).map fun i =>
      ⟨gridCoord r.center.1 r.spacing.1 nx i, gridCoord r.center.2 r.spacing.2 ny j, r.z⟩) := by
  unfold Rect.grid
  rw [if_neg (by simp [hx.ne', hy.ne']), if_neg]
  · congr 1
    have ex := singleAxis_eq (c := r.center.1) hx fx h1x
    have ey := singleAxis_eq (c := r.center.2) hy fy h1y
    have key : ∀ {β : Type} {l : List F} {n : Nat} {g : Nat → F} {h : F} (f : F → List β),
        l.map (fun x => x + h) = (List.range n).map g →
        (l.flatMap fun x => f (x + h)) = (List.range n).flatMap fun i => f (g i) := by
      intro β l n g h f hl
      have e1 : (l.flatMap fun x => f (x + h)) = (l.map fun x => x + h).flatMap f := by rw [List.flatMap_map]
      rw [e1, hl, List.flatMap_map]
    have key' : ∀ {β : Type} {l : List F} {n : Nat} {g : Nat → F} {h : F} (f : F → β),
        l.map (fun x => x + h) = (List.range n).map g →
        (l.map fun x => f (x + h)) = (List.range n).map fun i => f (g i) := by
      intro β l n g h f hl
      have e1 : (l.map fun x => f (x + h)) = (l.map fun x => x + h).map f := by rw [List.map_map]; rfl
      rw [e1, hl, List.map_map]; rfl
    refine (key (fun y => (singleAxis r.side.1 r.spacing.1).map fun x =>
        (⟨x + lowLim r.side.1 r.center.1, y, r.z⟩ : Pt F)) ey).trans ?_
    congr 1
    funext j
    exact key' (fun x => (⟨x, _, r.z⟩ : Pt F)) ex
  · rw [floor_fits hx fx, floor_fits hy fy, not_not]
    exact ⟨by exact_mod_cast h1x, by exact_mod_cast h1y⟩

open Classical in
/-- C56, rectangles. -/
theorem C56_rect (r : Rect F) (hx : 0 < r.spacing.1) (hy : 0 < r.spacing.2) {nx ny : Nat}
    (fx : FitsTimes r.side.1 r.spacing.1 nx) (fy : FitsTimes r.side.2 r.spacing.2 ny) (h1x : 1 ≤ nx) (h1y : 1 ≤ ny) :
    ∃ pts, r.grid = .ok pts ∧ pts.Nodup ∧ pts.length = nx * ny ∧
      (∀ p, p ∈ pts ↔ ∃ i < nx, ∃ j < ny,
        p = ⟨gridCoord r.center.1 r.spacing.1 nx i, gridCoord r.center.2 r.spacing.2 ny j, r.z⟩) ∧
      (∀ x y z, (⟨x, y, z⟩ : Pt F) ∈ pts → (⟨2 * r.center.1 - x, 2 * r.center.2 - y, z⟩ : Pt F) ∈ pts) ∧
      (∀ p ∈ pts, r.Has (0, 0) p ∧ p.z = r.z) ∧
      r.isIn pts (0, 0) = .ok (.each (List.replicate pts.length true)) := by
  refine ⟨_, rect_grid_eq r hx hy fx fy h1x h1y, ?_⟩
  obtain ⟨pts, hpts⟩ : ∃ pts : List (Pt F), pts = ((List.range ny).flatMap fun j => (List.range nx).map fun i =>
      ⟨gridCoord r.center.1 r.spacing.1 nx i, gridCoord r.center.2 r.spacing.2 ny j, r.z⟩) := ⟨_, rfl⟩
  rw [← hpts]
  have hmem : ∀ p, p ∈ pts ↔ ∃ i < nx, ∃ j < ny,
        p = ⟨gridCoord r.center.1 r.spacing.1 nx i, gridCoord r.center.2 r.spacing.2 ny j, r.z⟩ := by
    intro p
    rw [hpts]
    simp only [List.mem_flatMap, List.mem_range, List.mem_map]
    constructor
    · rintro ⟨j, hj, i, hi, rfl⟩; exact ⟨i, hi, j, hj, rfl⟩
    · rintro ⟨i, hi, j, hj, rfl⟩; exact ⟨j, hj, i, hi, rfl⟩
  have hhas : ∀ p ∈ pts, r.Has (0, 0) p ∧ p.z = r.z := by
    intro p hp
    obtain ⟨i, hi, j, hj, rfl⟩ := (hmem p).1 hp
    exact ⟨⟨gridCoord_between hx fx hi, gridCoord_between hy fy hj⟩, rfl⟩
  refine ⟨?_, ?_, hmem, ?_, hhas, ?_⟩
  · rw [hpts]
    refine nodup_flatMap_pairs List.nodup_range (fun j _ => List.nodup_range) ?_
    rintro j _ i _ j' _ i' _ h
    simp only [Pt.mk.injEq] at h
    exact ⟨gridCoord_inj hy h.2.1, gridCoord_inj hx h.1⟩
  · rw [hpts]
    simp only [List.length_flatMap, List.length_map, List.length_range, List.map_const', List.sum_replicate,
      smul_eq_mul]
    ring
  · intro x y z h
    obtain ⟨i, hi, j, hj, e⟩ := (hmem _).1 h
    simp only [Pt.mk.injEq] at e
    obtain ⟨rfl, rfl, rfl⟩ := e
    rw [hmem]
    refine ⟨nx - 1 - i, by omega, ny - 1 - j, by omega, ?_⟩
    rw [gridCoord_mirror _ _ hi, gridCoord_mirror _ _ hj]
  · rw [C61_rect_partial]
    · congr 2
      rw [List.eq_replicate_iff]
      refine ⟨List.length_map _, ?_⟩
      intro b hb
      obtain ⟨p, hp, rfl⟩ := List.mem_map.1 hb
      exact decide_eq_true (hhas p hp).1
    · intro p hp v hv
      refine ⟨v, (hhas p hp).2.trans hv, ?_⟩
      rw [sub_self, abs_zero]
      positivity

/-- C57, rectangles. -/
theorem C57_rect (r : Rect F) (hx : 0 < r.spacing.1) (hy : 0 < r.spacing.2) {pts : List (Pt F)}
    (h : r.grid = .ok pts) {a b : F} (hp : r.Has (0, 0) ⟨a, b, r.z⟩) :
    ∃ x y, (⟨x, y, r.z⟩ : Pt F) ∈ pts ∧ |a - x| < r.spacing.1 ∧ |b - y| < r.spacing.2 := by
  have hfl : 1 ≤ ⌊r.side.1 / r.spacing.1⌋ ∧ 1 ≤ ⌊r.side.2 / r.spacing.2⌋ := by
    unfold Rect.grid at h
    rw [if_neg (by simp [hx.ne', hy.ne'])] at h
    by_contra hcon
    rw [if_pos hcon] at h
    cases h
  have hfit : ∀ {s d : F}, 0 < d → (1 : Int) ≤ ⌊s / d⌋ → ∃ n, 1 ≤ n ∧ FitsTimes s d n := by
    intro s d hd h1
    have hs : 0 ≤ s := by
      rw [Int.le_floor, le_div_iff₀ hd] at h1
      push_cast at h1
      linarith
    obtain ⟨n, hn⟩ := exists_fits hd hs
    refine ⟨n, ?_, hn⟩
    rw [floor_fits hd hn] at h1
    exact_mod_cast h1
  obtain ⟨nx, h1x, fx⟩ := hfit hx hfl.1
  obtain ⟨ny, h1y, fy⟩ := hfit hy hfl.2
  obtain ⟨pts', hg, _, _, hmem, _⟩ := C56_rect r hx hy fx fy h1x h1y
  rw [h] at hg
  cases Except.ok.inj hg
  obtain ⟨q1, q2⟩ := hp
  obtain ⟨i, hi, ei⟩ := gridCoord_near hx fx h1x q1
  obtain ⟨j, hj, ej⟩ := gridCoord_near hy fy h1y q2
  exact ⟨_, _, (hmem _).2 ⟨i, hi, j, hj, rfl⟩, ei, ej⟩

end

/-- A box of 5/2 by 1 by 1 with spacing 1. -/
example : (⟨(5 / 2, 1, 1), (0, 0, 3), (1, 1, 1)⟩ : Cuboid ℚ).grid .default =
    .ok [⟨-1 / 2, 0, some 3⟩, ⟨1 / 2, 0, some 3⟩] ∧
    FitsTimes (5 / 2 : ℚ) 1 2 ∧ FitsTimes (1 : ℚ) 1 1 :=
  ⟨by decide +kernel, ⟨by norm_num, by norm_num⟩, ⟨by norm_num, by norm_num⟩⟩

end Verif

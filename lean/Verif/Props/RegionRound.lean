/-
C58 to C60: grids of round regions, random points, combined regions.
-/
import Verif.Props.Region
namespace Verif

/-! ### C58 -/

theorem ceil_covers {len d : ℝ} (hd : 0 < d) {n : Nat} (hn : CoversTimes len d n) : ⌈len / d⌉ = (n : Int) := by
  rw [Int.ceil_eq_iff]
  refine ⟨?_, ?_⟩
  · rw [lt_div_iff₀ hd]; simpa using hn.2
  · rw [div_le_iff₀ hd]; simpa using hn.1

theorem exists_covers {len d : ℝ} (hd : 0 < d) (hl : 0 < len) : ∃ n, 1 ≤ n ∧ CoversTimes len d n := by
  have h0 : 0 < ⌈len / d⌉ := Int.ceil_pos.2 (div_pos hl hd)
  have hc : ((⌈len / d⌉.toNat : Nat) : ℝ) = (⌈len / d⌉ : ℝ) := by
    rw [← Int.cast_natCast, Int.toNat_of_nonneg h0.le]
  refine ⟨⌈len / d⌉.toNat, by omega, ?_, ?_⟩
  · rw [hc]; exact (div_le_iff₀ hd).1 (Int.le_ceil _)
  · rw [hc]
    have := Int.ceil_lt_add_one (len / d)
    rw [← lt_div_iff₀ hd]
    linarith

theorem ceilAxis_eq {len d : ℝ} (c : ℝ) (hd : 0 < d) {n : Nat} (hn : CoversTimes len d n) :
    (ceilAxis len d).map (fun x => x + c) = (List.range n).map (gridCoord c d n) := by
  unfold ceilAxis
  rw [ceil_covers hd hn, List.map_map, Int.toNat_natCast]
  refine List.map_congr_left fun k _ => ?_
  simp only [Function.comp, gridCoord, Int.cast_natCast]
  ring

theorem mem_ceilAxis {len d : ℝ} (hd : 0 < d) {n : Nat} (hn : CoversTimes len d n) {x : ℝ} :
    x ∈ ceilAxis len d ↔ ∃ i < n, x = gridCoord 0 d n i := by
  have h := ceilAxis_eq 0 hd hn
  simp only [add_zero, List.map_id'] at h
  rw [h, List.mem_map]
  constructor
  · rintro ⟨i, hi, rfl⟩; exact ⟨i, List.mem_range.1 hi, rfl⟩
  · rintro ⟨i, hi, rfl⟩; exact ⟨i, List.mem_range.2 hi, rfl⟩

theorem nodup_ceilAxis {len d : ℝ} (hd : 0 < d) {n : Nat} (hn : CoversTimes len d n) : (ceilAxis len d).Nodup := by
  have h := ceilAxis_eq 0 hd hn
  simp only [add_zero, List.map_id'] at h
  rw [h]
  exact List.Nodup.map_on (fun i _ j _ e => gridCoord_inj hd e) List.nodup_range

theorem gridCoord_shift (c d : ℝ) (n i : Nat) : gridCoord 0 d n i + c = gridCoord c d n i := by
  unfold gridCoord; ring

open Classical in
/-- C58, discs: the grid is, each point once, the part inside the disc of the
centred rectangular grid with the smallest numbers of coordinates that cover the
diameter; `is_in_region` accepts all of it. -/
theorem C58_disc (r : Disc) (hx : 0 < r.spacing.1) (hy : 0 < r.spacing.2) {nx ny : Nat}
    (fx : CoversTimes (2 * r.radius) r.spacing.1 nx) (fy : CoversTimes (2 * r.radius) r.spacing.2 ny) :
    ∃ pts, r.grid = .ok pts ∧ pts.Nodup ∧
      (∀ p, p ∈ pts ↔ (∃ i < nx, ∃ j < ny,
        p = ⟨gridCoord r.center.1 r.spacing.1 nx i, gridCoord r.center.2 r.spacing.2 ny j, r.z⟩) ∧ r.Has p) ∧
      r.isIn pts = .ok (.each (List.replicate pts.length true)) := by
  rw [mul_comm] at fx fy
  unfold Disc.grid
  rw [if_neg (by simp [hx.ne', hy.ne'])]
  refine ⟨_, rfl, ?_⟩
  obtain ⟨pts, hpts⟩ : ∃ pts : List (Pt ℝ), pts = ((((ceilAxis (r.radius * 2) r.spacing.2).flatMap fun y =>
        (ceilAxis (r.radius * 2) r.spacing.1).map fun x => (x, y)).filter fun p =>
          decide (√(p.1 ^ 2 + p.2 ^ 2) ≤ r.radius)).map fun p =>
      ⟨p.1 + r.center.1, p.2 + r.center.2, r.z.map fun z => 0 + z⟩) := ⟨_, rfl⟩
  rw [← hpts]
  have hz : (r.z.map fun z => 0 + z) = r.z := by simp
  rw [hz] at hpts
  have hmem : ∀ p, p ∈ pts ↔ (∃ i < nx, ∃ j < ny,
        p = ⟨gridCoord r.center.1 r.spacing.1 nx i, gridCoord r.center.2 r.spacing.2 ny j, r.z⟩) ∧ r.Has p := by
    intro p
    rw [hpts]
    simp only [List.mem_map, List.mem_filter, List.mem_flatMap, decide_eq_true_eq, mem_ceilAxis hx fx,
      mem_ceilAxis hy fy, sqrt_le_radius]
    constructor
    · rintro ⟨q, ⟨⟨_, ⟨j, hj, rfl⟩, _, ⟨i, hi, rfl⟩, rfl⟩, h0, hq⟩, rfl⟩
      refine ⟨⟨i, hi, j, hj, ?_⟩, h0, ?_⟩
      · dsimp only; rw [gridCoord_shift, gridCoord_shift]
      · dsimp only at hq ⊢; rw [add_sub_cancel_right, add_sub_cancel_right]; exact hq
    · rintro ⟨⟨i, hi, j, hj, rfl⟩, h0, hq⟩
      refine ⟨(gridCoord 0 r.spacing.1 nx i, gridCoord 0 r.spacing.2 ny j),
        ⟨⟨_, ⟨j, hj, rfl⟩, _, ⟨i, hi, rfl⟩, rfl⟩, h0, ?_⟩, ?_⟩
      · dsimp only at hq ⊢
        rw [← gridCoord_shift r.center.1, ← gridCoord_shift r.center.2, add_sub_cancel_right,
          add_sub_cancel_right] at hq
        exact hq
      · dsimp only; rw [gridCoord_shift, gridCoord_shift]
  refine ⟨?_, hmem, ?_⟩
  · rw [hpts]
    refine List.Nodup.map_on ?_ ?_
    · rintro ⟨a, b⟩ _ ⟨c, d⟩ _ h
      simp only [Pt.mk.injEq, add_left_inj, and_true] at h
      rw [h.1, h.2]
    · refine List.Nodup.filter _ (nodup_flatMap_pairs (nodup_ceilAxis hy fy) (fun _ _ => nodup_ceilAxis hx fx) ?_)
      intro a _ b _ a' _ b' _ h
      exact ⟨(Prod.mk.inj h).2, (Prod.mk.inj h).1⟩
  · rw [C61_disc_partial]
    · congr 2
      rw [List.eq_replicate_iff]
      refine ⟨List.length_map _, ?_⟩
      intro b hb
      obtain ⟨p, hp, rfl⟩ := List.mem_map.1 hb
      exact decide_eq_true ((hmem p).1 hp).2
    · intro p hp v hv
      obtain ⟨⟨i, hi, j, hj, rfl⟩, _⟩ := (hmem p).1 hp
      refine ⟨v, hv, ?_⟩
      rw [sub_self, abs_zero]
      positivity

theorem gridCoord_covers {len d c : ℝ} (hd : 0 < d) {n : Nat} (hn : CoversTimes len d n) {k : Nat} (hk : k < n) :
    |gridCoord c d n k - c| ≤ len / 2 := by
  have h1 : (k : ℝ) + 1 ≤ n := by exact_mod_cast hk
  have h0 : (0 : ℝ) ≤ k := Nat.cast_nonneg k
  have hs := hn.2
  unfold gridCoord
  rw [abs_le]
  constructor <;> nlinarith [mul_le_mul_of_nonneg_right h1 hd.le, mul_nonneg h0 hd.le]

open Classical in
/-- C58, cylinders. -/
theorem C58_cylinder (r : Cylinder) (hx : 0 < r.spacing.1) (hy : 0 < r.spacing.2.1) (hz : 0 < r.spacing.2.2)
    {nx ny nz : Nat} (fx : CoversTimes (2 * r.radius) r.spacing.1 nx)
    (fy : CoversTimes (2 * r.radius) r.spacing.2.1 ny) (fz : CoversTimes r.height r.spacing.2.2 nz) :
    ∃ pts, r.grid = .ok pts ∧ pts.Nodup ∧
      (∀ p, p ∈ pts ↔ (∃ i < nx, ∃ j < ny, ∃ k < nz,
        p = ⟨gridCoord r.center.1 r.spacing.1 nx i, gridCoord r.center.2.1 r.spacing.2.1 ny j,
          some (gridCoord r.center.2.2 r.spacing.2.2 nz k)⟩) ∧ r.Has p) ∧
      r.isIn pts = .ok (.each (List.replicate pts.length true)) := by
  rw [mul_comm] at fx fy
  unfold Cylinder.grid
  rw [if_neg (by simp [hx.ne', hy.ne', hz.ne'])]
  refine ⟨_, rfl, ?_⟩
  obtain ⟨pts, hpts⟩ : ∃ pts : List (Pt ℝ), pts = ((((ceilAxis (r.radius * 2) r.spacing.1).flatMap fun x =>
        (ceilAxis (r.radius * 2) r.spacing.2.1).flatMap fun y =>
        (ceilAxis r.height r.spacing.2.2).map fun z => (x, y, z)).filter fun p =>
          decide (√(p.1 ^ 2 + p.2.1 ^ 2) ≤ r.radius)).map fun p =>
      ⟨p.1 + r.center.1, p.2.1 + r.center.2.1, some (p.2.2 + r.center.2.2)⟩) := ⟨_, rfl⟩
  rw [← hpts]
  have hmem : ∀ p, p ∈ pts ↔ (∃ i < nx, ∃ j < ny, ∃ k < nz,
        p = ⟨gridCoord r.center.1 r.spacing.1 nx i, gridCoord r.center.2.1 r.spacing.2.1 ny j,
          some (gridCoord r.center.2.2 r.spacing.2.2 nz k)⟩) ∧ r.Has p := by
    intro p
    rw [hpts]
    simp only [List.mem_map, List.mem_filter, List.mem_flatMap, decide_eq_true_eq, mem_ceilAxis hx fx,
      mem_ceilAxis hy fy, mem_ceilAxis hz fz, sqrt_le_radius]
    constructor
    · rintro ⟨q, ⟨⟨_, ⟨i, hi, rfl⟩, _, ⟨j, hj, rfl⟩, _, ⟨k, hk, rfl⟩, rfl⟩, h0, hq⟩, rfl⟩
      refine ⟨⟨i, hi, j, hj, k, hk, ?_⟩, h0, ?_, _, rfl, ?_⟩
      · dsimp only; rw [gridCoord_shift, gridCoord_shift, gridCoord_shift]
      · dsimp only at hq ⊢; rw [add_sub_cancel_right, add_sub_cancel_right]; exact hq
      · dsimp only; rw [gridCoord_shift]; exact gridCoord_covers hz fz hk
    · rintro ⟨⟨i, hi, j, hj, k, hk, rfl⟩, h0, hq, _⟩
      refine ⟨(gridCoord 0 r.spacing.1 nx i, gridCoord 0 r.spacing.2.1 ny j, gridCoord 0 r.spacing.2.2 nz k),
        ⟨⟨_, ⟨i, hi, rfl⟩, _, ⟨j, hj, rfl⟩, _, ⟨k, hk, rfl⟩, rfl⟩, h0, ?_⟩, ?_⟩
      · dsimp only at hq ⊢
        rw [← gridCoord_shift r.center.1, ← gridCoord_shift r.center.2.1, add_sub_cancel_right,
          add_sub_cancel_right] at hq
        exact hq
      · dsimp only; rw [gridCoord_shift, gridCoord_shift, gridCoord_shift]
  refine ⟨?_, hmem, ?_⟩
  · rw [hpts]
    refine List.Nodup.map_on ?_ ?_
    · rintro ⟨a, b, e⟩ _ ⟨c, d, f⟩ _ h
      simp only [Pt.mk.injEq, add_left_inj, Option.some.injEq] at h
      rw [h.1, h.2.1, h.2.2]
    · refine List.Nodup.filter _ ?_
      have inner : ∀ x : ℝ, ((ceilAxis (r.radius * 2) r.spacing.2.1).flatMap fun y =>
          (ceilAxis r.height r.spacing.2.2).map fun z => (x, y, z)) =
          ((ceilAxis (r.radius * 2) r.spacing.2.1).flatMap fun y =>
          (ceilAxis r.height r.spacing.2.2).map fun z => (y, z)).map fun q => (x, q) := by
        intro x
        rw [List.map_flatMap]
        congr 1
        funext y
        rw [List.map_map]
        rfl
      simp only [inner]
      refine nodup_flatMap_pairs (nodup_ceilAxis hx fx) (fun _ _ => ?_) ?_
      · refine nodup_flatMap_pairs (nodup_ceilAxis hy fy) (fun _ _ => nodup_ceilAxis hz fz) ?_
        intro a _ b _ a' _ b' _ h
        exact Prod.mk.inj h
      · intro a _ b _ a' _ b' _ h
        exact Prod.mk.inj h
  · rw [C61_cylinder]
    · congr 2
      rw [List.eq_replicate_iff]
      refine ⟨List.length_map _, ?_⟩
      intro b hb
      obtain ⟨p, hp, rfl⟩ := List.mem_map.1 hb
      exact decide_eq_true ((hmem p).1 hp).2
    · intro p hp
      obtain ⟨⟨i, hi, j, hj, k, hk, rfl⟩, _⟩ := (hmem p).1 hp
      exact Option.some_ne_none _

theorem pick_map {α : Type} (l : List α) (f : α → Bool) : pick l (l.map f) = l.filter f := by
  unfold pick
  induction l with
  | nil => rfl
  | cons a l ih =>
    simp only [List.map_cons, List.zip_cons_cons, List.filter_cons]
    cases h : f a with
    | true => simp [ih]
    | false => simpa using ih

open Classical in
/-- C58, balls: the rectangular grid is that of the cube around the ball. -/
theorem C58_ball (r : Ball) (hx : 0 < r.spacing.1) (hy : 0 < r.spacing.2.1) (hz : 0 < r.spacing.2.2)
    {nx ny nz : Nat} (fx : FitsTimes (2 * r.radius) r.spacing.1 nx) (fy : FitsTimes (2 * r.radius) r.spacing.2.1 ny)
    (fz : FitsTimes (2 * r.radius) r.spacing.2.2 nz) (h1x : 1 ≤ nx) (h1y : 1 ≤ ny) (h1z : 1 ≤ nz) :
    ∃ pts, r.grid = .ok pts ∧ pts.Nodup ∧
      (∀ p, p ∈ pts ↔ (∃ i < nx, ∃ j < ny, ∃ k < nz,
        p = ⟨gridCoord r.center.1 r.spacing.1 nx i, gridCoord r.center.2.1 r.spacing.2.1 ny j,
          some (gridCoord r.center.2.2 r.spacing.2.2 nz k)⟩) ∧ r.Has p) ∧
      r.isIn pts = .ok (.each (List.replicate pts.length true)) := by
  obtain ⟨cube, hc, hnd, _, hcm, _⟩ := C56_cuboid
    (⟨(2 * r.radius, 2 * r.radius, 2 * r.radius), (0, 0, 0), r.spacing⟩ : Cuboid ℝ) .default hx hy hz fx fy fz h1x h1y h1z
  have h3 : ∀ p ∈ cube.map (fun p => (⟨p.x + r.center.1, p.y + r.center.2.1, p.z.map (· + r.center.2.2)⟩ : Pt ℝ)),
      p.z ≠ none := by
    intro p hp
    obtain ⟨q, hq, rfl⟩ := List.mem_map.1 hp
    obtain ⟨i, hi, j, hj, k, hk, rfl⟩ := (hcm q).1 hq
    exact Option.some_ne_none _
  unfold Ball.grid
  rw [hc]
  dsimp only
  rw [C61_ball r _ h3]
  dsimp only
  refine ⟨_, rfl, ?_⟩
  rw [pick_map]
  have hmem : ∀ p, p ∈ (cube.map (fun p => (⟨p.x + r.center.1, p.y + r.center.2.1, p.z.map (· + r.center.2.2)⟩ :
      Pt ℝ))).filter (fun p => decide (r.Has p)) ↔ (∃ i < nx, ∃ j < ny, ∃ k < nz,
        p = ⟨gridCoord r.center.1 r.spacing.1 nx i, gridCoord r.center.2.1 r.spacing.2.1 ny j,
          some (gridCoord r.center.2.2 r.spacing.2.2 nz k)⟩) ∧ r.Has p := by
    intro p
    rw [List.mem_filter, decide_eq_true_iff, List.mem_map]
    refine and_congr_left fun _ => ?_
    constructor
    · rintro ⟨q, hq, rfl⟩
      obtain ⟨i, hi, j, hj, k, hk, rfl⟩ := (hcm q).1 hq
      refine ⟨i, hi, j, hj, k, hk, ?_⟩
      simp only [PointDist.get, Option.map_some, gridCoord_shift]
    · rintro ⟨i, hi, j, hj, k, hk, rfl⟩
      refine ⟨_, (hcm _).2 ⟨i, hi, j, hj, k, hk, rfl⟩, ?_⟩
      simp only [PointDist.get, Option.map_some, gridCoord_shift]
  refine ⟨?_, hmem, ?_⟩
  · refine List.Nodup.filter _ (List.Nodup.map_on ?_ hnd)
    intro p hp q hq h
    obtain ⟨i, hi, j, hj, k, hk, rfl⟩ := (hcm p).1 hp
    obtain ⟨i', hi', j', hj', k', hk', rfl⟩ := (hcm q).1 hq
    simp only [Pt.mk.injEq, add_left_inj, Option.map_some, Option.some.injEq] at h
    rw [h.1, h.2.1, h.2.2]
  · rw [C61_ball]
    · congr 2
      rw [List.eq_replicate_iff]
      refine ⟨List.length_map _, ?_⟩
      intro b hb
      obtain ⟨p, hp, rfl⟩ := List.mem_map.1 hb
      exact decide_eq_true ((hmem p).1 hp).2
    · intro p hp
      obtain ⟨⟨i, hi, j, hj, k, hk, rfl⟩, _⟩ := (hmem p).1 hp
      exact Option.some_ne_none _

/-- A disc of radius 1 with spacing 1/2 has four coordinates per axis, a cylinder of
height 1 with spacing 2/3 has two layers, and a ball of radius 1 with spacing 2/3
three coordinates per axis. -/
example : CoversTimes (2 * (1 : ℝ)) (1 / 2) 4 ∧ CoversTimes (1 : ℝ) (2 / 3) 2 ∧ FitsTimes (2 * (1 : ℝ)) (2 / 3) 3 := by
  unfold CoversTimes FitsTimes
  norm_num

/-! ### C59 -/

section
variable {F : Type} [Field F] [LinearOrder F] [IsStrictOrderedRing F]

theorem uniform_between {side c u : F} (hs : 0 ≤ side) (h0 : 0 ≤ u) (h1 : u ≤ 1) :
    Between side c 0 (uniform (lowLim side c) (highLim side c) u) := by
  unfold Between uniform lowLim highLim
  rw [abs_le]
  have h2 := mul_nonneg hs h0
  have h3 := mul_le_mul_of_nonneg_left h1 hs
  rw [mul_one] at h3
  constructor <;> nlinarith

/-- C59, boxes. -/
theorem C59_cuboid (r : Cuboid F) (hs : 0 ≤ r.side.1 ∧ 0 ≤ r.side.2.1 ∧ 0 ≤ r.side.2.2) (n : Nat) (u : Nat → F)
    (hu : ∀ i, 0 ≤ u i ∧ u i < 1) :
    (r.sample n u).length = n ∧ ∀ p ∈ r.sample n u, r.Has (0, 0, 0) p := by
  unfold Cuboid.sample
  refine ⟨by simp, ?_⟩
  intro p hp
  obtain ⟨i, _, rfl⟩ := List.mem_map.1 hp
  exact ⟨uniform_between hs.1 (hu _).1 (hu _).2.le, uniform_between hs.2.1 (hu _).1 (hu _).2.le, _, rfl,
    uniform_between hs.2.2 (hu _).1 (hu _).2.le⟩

/-- C59, rectangles. -/
theorem C59_rect (r : Rect F) (hs : 0 ≤ r.side.1 ∧ 0 ≤ r.side.2) (n : Nat) (u : Nat → F)
    (hu : ∀ i, 0 ≤ u i ∧ u i < 1) :
    (r.sample n u).length = n ∧ ∀ p ∈ r.sample n u, r.Has (0, 0) p ∧ p.z = r.z := by
  unfold Rect.sample
  refine ⟨by simp, ?_⟩
  intro p hp
  obtain ⟨i, _, rfl⟩ := List.mem_map.1 hp
  exact ⟨⟨uniform_between hs.1 (hu _).1 (hu _).2.le, uniform_between hs.2 (hu _).1 (hu _).2.le⟩, by simp⟩

end

theorem polar_in_disc {R u t : ℝ} (h0 : 0 ≤ u) (h1 : u < 1) :
    (R * √u * Real.cos t) ^ 2 + (R * √u * Real.sin t) ^ 2 ≤ R ^ 2 := by
  have hs : √u ^ 2 = u := Real.sq_sqrt h0
  have hc := Real.sin_sq_add_cos_sq t
  have : (R * √u * Real.cos t) ^ 2 + (R * √u * Real.sin t) ^ 2 = R ^ 2 * u * (Real.sin t ^ 2 + Real.cos t ^ 2) := by
    ring_nf; rw [hs]; ring
  rw [this, hc, mul_one]
  nlinarith [sq_nonneg R]

/-- C59, discs. -/
theorem C59_disc (r : Disc) (hr : 0 ≤ r.radius) (n : Nat) (u : Nat → ℝ) (hu : ∀ i, 0 ≤ u i ∧ u i < 1) :
    (r.sample n u).length = n ∧ ∀ p ∈ r.sample n u, r.Has p ∧ p.z = r.z := by
  unfold Disc.sample
  refine ⟨by simp, ?_⟩
  intro p hp
  obtain ⟨i, _, rfl⟩ := List.mem_map.1 hp
  refine ⟨⟨hr, ?_⟩, by simp⟩
  dsimp only
  rw [add_sub_cancel_right, add_sub_cancel_right]
  exact polar_in_disc (hu i).1 (hu i).2

/-- C59, cylinders. -/
theorem C59_cylinder (r : Cylinder) (hr : 0 ≤ r.radius) (hh : 0 ≤ r.height) (n : Nat) (u : Nat → ℝ)
    (hu : ∀ i, 0 ≤ u i ∧ u i < 1) : (r.sample n u).length = n ∧ ∀ p ∈ r.sample n u, r.Has p := by
  unfold Cylinder.sample
  refine ⟨by simp, ?_⟩
  intro p hp
  obtain ⟨i, _, rfl⟩ := List.mem_map.1 hp
  refine ⟨hr, ?_, _, rfl, ?_⟩
  · dsimp only
    rw [add_sub_cancel_right, add_sub_cancel_right]
    exact polar_in_disc (hu i).1 (hu i).2
  · rw [add_sub_cancel_right]
    unfold uniform
    have h2 := mul_nonneg hh (hu (2 * n + i)).1
    have h3 := mul_le_mul_of_nonneg_left (hu (2 * n + i)).2.le hh
    rw [abs_le]
    constructor <;> nlinarith

/-- Candidate number `i` (counted over all rounds) of `Ball.sample_points` lies in the
ball around the origin. -/
def Ball.Accepts (r : Ball) (u : Nat → ℝ) (i : Nat) : Prop :=
  (uniform (-r.radius) r.radius (u (3 * i))) ^ 2 + (uniform (-r.radius) r.radius (u (3 * i + 1))) ^ 2 +
    (uniform (-r.radius) r.radius (u (3 * i + 2))) ^ 2 ≤ r.radius ^ 2

open Classical in
theorem sampleLoop_spec (r : Ball) (hr : 0 ≤ r.radius) (n : Nat) (u : Nat → ℝ) :
    ∀ (fuel k : Nat) (acc : List (ℝ × ℝ × ℝ)), acc.length ≤ n →
      (∀ p ∈ acc, p.1 ^ 2 + p.2.1 ^ 2 + p.2.2 ^ 2 ≤ r.radius ^ 2) →
      ∀ res, r.sampleLoop n u fuel k acc = some res →
        res.length = n ∧ ∀ p ∈ res, p.1 ^ 2 + p.2.1 ^ 2 + p.2.2 ^ 2 ≤ r.radius ^ 2 := by
  intro fuel
  induction fuel with
  | zero => intro k acc _ _ res h; cases h
  | succ fuel ih =>
    intro k acc hl hacc res h
    rw [Ball.sampleLoop] at h
    obtain ⟨new, hnew⟩ : ∃ new : List (ℝ × ℝ × ℝ), new = ((List.range n).map fun i =>
      (uniform (-r.radius) r.radius (u (k + 3 * i)), uniform (-r.radius) r.radius (u (k + 3 * i + 1)),
        uniform (-r.radius) r.radius (u (k + 3 * i + 2)))).filter fun p =>
          decide (√(p.1 ^ 2 + p.2.1 ^ 2 + p.2.2 ^ 2) ≤ r.radius) := ⟨_, rfl⟩
    rw [← hnew] at h
    have hin : ∀ p ∈ new, p.1 ^ 2 + p.2.1 ^ 2 + p.2.2 ^ 2 ≤ r.radius ^ 2 := by
      intro p hp
      rw [hnew] at hp
      have := (List.mem_filter.1 hp).2
      rw [decide_eq_true_iff] at this
      exact (sqrt_le_radius.1 this).2
    have hl' : (acc ++ new.take (min new.length (n - acc.length))).length ≤ n := by
      rw [List.length_append, List.length_take]; omega
    have hacc' : ∀ p ∈ acc ++ new.take (min new.length (n - acc.length)),
        p.1 ^ 2 + p.2.1 ^ 2 + p.2.2 ^ 2 ≤ r.radius ^ 2 := by
      intro p hp
      rcases List.mem_append.1 hp with hp | hp
      · exact hacc p hp
      · exact hin p (List.mem_of_mem_take hp)
    split_ifs at h with hc
    · cases Option.some.inj h
      exact ⟨le_antisymm hl' hc, hacc'⟩
    · exact ih _ _ hl' hacc' res h

/-- C59, balls: whenever `sample_points` returns, after any number of rounds. -/
theorem C59_ball (r : Ball) (hr : 0 ≤ r.radius) (n : Nat) (u : Nat → ℝ) (fuel : Nat) {pts : List (Pt ℝ)}
    (h : r.sample n u fuel = some pts) : pts.length = n ∧ ∀ p ∈ pts, r.Has p := by
  unfold Ball.sample at h
  obtain ⟨l, hl, rfl⟩ := Option.map_eq_some_iff.1 h
  obtain ⟨h1, h2⟩ := sampleLoop_spec r hr n u fuel 0 [] (by simp) (by simp) l hl
  refine ⟨by rw [List.length_map, h1], ?_⟩
  intro p hp
  obtain ⟨q, hq, rfl⟩ := List.mem_map.1 hp
  refine ⟨hr, _, rfl, ?_⟩
  dsimp only
  rw [add_sub_cancel_right, add_sub_cancel_right, add_sub_cancel_right]
  exact h2 q hq

open Classical in
theorem sampleLoop_ends (r : Ball) (hr : 0 ≤ r.radius) (n : Nat) (u : Nat → ℝ) :
    ∀ (fuel k : Nat) (acc : List (ℝ × ℝ × ℝ)), acc.length ≤ n → 1 ≤ fuel →
      n ≤ acc.length + ((List.range (fuel * n)).filter fun i => decide (r.Accepts u (k + i))).length →
      ∃ res, r.sampleLoop n u fuel (3 * k) acc = some res := by
  intro fuel
  induction fuel with
  | zero => intro k acc _ h; omega
  | succ fuel ih =>
    intro k acc hl _ hn
    rw [Ball.sampleLoop]
    obtain ⟨new, hnew⟩ : ∃ new : List (ℝ × ℝ × ℝ), new = ((List.range n).map fun i =>
      (uniform (-r.radius) r.radius (u (3 * k + 3 * i)), uniform (-r.radius) r.radius (u (3 * k + 3 * i + 1)),
        uniform (-r.radius) r.radius (u (3 * k + 3 * i + 2)))).filter fun p =>
          decide (√(p.1 ^ 2 + p.2.1 ^ 2 + p.2.2 ^ 2) ≤ r.radius) := ⟨_, rfl⟩
    rw [← hnew]
    have hlen : new.length = ((List.range n).filter fun i => decide (r.Accepts u (k + i))).length := by
      rw [hnew, List.filter_map, List.length_map]
      congr 1
      refine List.filter_congr fun i _ => ?_
      rw [Bool.eq_iff_iff]
      simp only [Function.comp, decide_eq_true_eq, sqrt_le_radius, Ball.Accepts, Nat.mul_add, hr, true_and]
    split_ifs with hc
    · exact ⟨_, rfl⟩
    · have hfull : (acc ++ new.take (min new.length (n - acc.length))).length = acc.length + new.length := by
        rw [List.length_append, List.length_take] at hc ⊢
        omega
      have hsplit : ((List.range ((fuel + 1) * n)).filter fun i => decide (r.Accepts u (k + i))).length =
          new.length + ((List.range (fuel * n)).filter fun i => decide (r.Accepts u (k + n + i))).length := by
        rw [hlen, show (fuel + 1) * n = n + fuel * n by ring, List.range_add, List.filter_append, List.length_append,
          List.filter_map, List.length_map]
        congr 2
        refine List.filter_congr fun i _ => ?_
        simp only [Function.comp, Nat.add_assoc]
      rw [show 3 * k + 3 * n = 3 * (k + n) by ring]
      rcases Nat.eq_zero_or_pos fuel with rfl | hf
      · exfalso
        rw [hsplit] at hn
        simp only [Nat.zero_mul, List.range_zero, List.filter_nil, List.length_nil, add_zero] at hn
        omega
      · refine ih (k + n) _ ?_ hf ?_
        · rw [List.length_append, List.length_take]; omega
        · rw [hfull]; omega

open Classical in
/-- C59, balls: `sample_points` returns as soon as enough candidates were in the
ball. -/
theorem C59_ball_returns (r : Ball) (hr : 0 ≤ r.radius) (n : Nat) (u : Nat → ℝ) (rounds : Nat) (h1 : 1 ≤ rounds)
    (h : n ≤ ((List.range (rounds * n)).filter fun i => decide (r.Accepts u i)).length) :
    ∃ pts, r.sample n u rounds = some pts := by
  obtain ⟨res, hres⟩ := sampleLoop_ends r hr n u rounds 0 [] (by simp) h1 (by simpa using h)
  exact ⟨_, by unfold Ball.sample; rw [show (0 : Nat) = 3 * 0 from rfl, hres]; rfl⟩

end Verif

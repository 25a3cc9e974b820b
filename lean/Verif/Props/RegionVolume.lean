/-
C100: the attribute `volume` of the regions.
-/
import Verif.Props.RegionRound
import Verif.Lemmas.Volume
namespace Verif

open MeasureTheory

theorem pts_z {a b : ℝ} {z : ℝ} : ∀ p ∈ [(⟨a, b, some z⟩ : Pt ℝ)], p.z ≠ none := by
  intro p hp
  rw [List.mem_singleton.1 hp]
  exact Option.some_ne_none _

theorem pts_near {a b : ℝ} {z : Option ℝ} : ∀ p ∈ [(⟨a, b, z⟩ : Pt ℝ)], NearPlane z p := by
  intro p hp v hv
  rw [List.mem_singleton.1 hp]
  refine ⟨v, hv, ?_⟩
  rw [sub_self, abs_zero]
  positivity

theorem accepts_iff {f : Pt ℝ → Bool} {p : Pt ℝ} :
    (Except.ok (.each ([p].map f)) : Except PyErr InReg) = .ok (.each [true]) ↔ f p = true := by
  simp

theorem between_Icc {s c x : ℝ} : Between s c 0 x ↔ x ∈ Set.Icc (c - s / 2) (c + s / 2) := by
  unfold Between
  rw [abs_le, Set.mem_Icc]
  constructor <;> rintro ⟨h1, h2⟩ <;> constructor <;> linarith

open Classical in
/-- **C100** The attribute `volume` of a box is the volume of the set of all coordinates
that `is_in_region` accepts (a negative third side counts as 0). -/
theorem C100_cuboid (r : Cuboid ℝ) (h1 : 0 ≤ r.side.1) (h2 : 0 ≤ r.side.2.1) :
    volume {q : ℝ × ℝ × ℝ | r.isIn [⟨q.1, q.2.1, some q.2.2⟩] (0, 0, 0) = .ok (.each [true])} =
      ENNReal.ofReal r.volume := by
  have hset : {q : ℝ × ℝ × ℝ | r.isIn [⟨q.1, q.2.1, some q.2.2⟩] (0, 0, 0) = .ok (.each [true])} =
      Set.Icc (r.center.1 - r.side.1 / 2) (r.center.1 + r.side.1 / 2) ×ˢ
        (Set.Icc (r.center.2.1 - r.side.2.1 / 2) (r.center.2.1 + r.side.2.1 / 2) ×ˢ
          Set.Icc (r.center.2.2 - r.side.2.2 / 2) (r.center.2.2 + r.side.2.2 / 2)) := by
    ext q
    rw [Set.mem_ofPred_eq, C61_cuboid r _ _ pts_z, accepts_iff, decide_eq_true_iff]
    simp only [Cuboid.Has, between_Icc, Option.some.injEq, exists_eq_left', Set.mem_prod]
  rw [hset, Measure.volume_eq_prod, Measure.prod_prod, Measure.volume_eq_prod, Measure.prod_prod, Real.volume_Icc,
    Real.volume_Icc, Real.volume_Icc, ← ENNReal.ofReal_mul (by linarith), ← ENNReal.ofReal_mul (by linarith)]
  congr 1
  unfold Cuboid.volume
  ring

open Classical in
/-- **C100** The same for the area of rectangles. -/
theorem C100_rect (r : Rect ℝ) (h1 : 0 ≤ r.side.1) :
    volume {q : ℝ × ℝ | r.isIn [⟨q.1, q.2, r.z⟩] (0, 0) = .ok (.each [true])} = ENNReal.ofReal r.volume := by
  have hset : {q : ℝ × ℝ | r.isIn [⟨q.1, q.2, r.z⟩] (0, 0) = .ok (.each [true])} =
      Set.Icc (r.center.1 - r.side.1 / 2) (r.center.1 + r.side.1 / 2) ×ˢ
        Set.Icc (r.center.2 - r.side.2 / 2) (r.center.2 + r.side.2 / 2) := by
    ext q
    rw [Set.mem_ofPred_eq, C61_rect_partial r _ _ pts_near, accepts_iff, decide_eq_true_iff]
    simp only [Rect.Has, between_Icc, Set.mem_prod]
  rw [hset, Measure.volume_eq_prod, Measure.prod_prod, Real.volume_Icc, Real.volume_Icc,
    ← ENNReal.ofReal_mul (by linarith)]
  congr 1
  unfold Rect.volume
  ring

open Classical in
theorem disc_accepted (r : Disc) (hr : 0 ≤ r.radius) :
    {q : ℝ × ℝ | r.isIn [⟨q.1, q.2, r.z⟩] = .ok (.each [true])} = discSet r.center.1 r.center.2 r.radius := by
  ext q
  rw [Set.mem_ofPred_eq, C61_disc_partial r _ pts_near, accepts_iff, decide_eq_true_iff]
  simp only [Disc.Has, hr, true_and, discSet, Set.mem_ofPred_eq]

/-- **C100** The same for the area of discs. -/
theorem C100_disc (r : Disc) (hr : 0 ≤ r.radius) :
    volume {q : ℝ × ℝ | r.isIn [⟨q.1, q.2, r.z⟩] = .ok (.each [true])} = ENNReal.ofReal r.volume := by
  rw [disc_accepted r hr, volume_discSet _ _ _ hr]
  rfl

open Classical in
theorem ball_accepted (r : Ball) (hr : 0 ≤ r.radius) :
    {q : ℝ × ℝ × ℝ | r.isIn [⟨q.1, q.2.1, some q.2.2⟩] = .ok (.each [true])} =
      ballSet r.center.1 r.center.2.1 r.center.2.2 r.radius := by
  ext q
  rw [Set.mem_ofPred_eq, C61_ball r _ pts_z, accepts_iff, decide_eq_true_iff]
  simp only [Ball.Has, hr, true_and, ballSet, Set.mem_ofPred_eq, Option.some.injEq, exists_eq_left']

/-- **C100** The same for balls. -/
theorem C100_ball (r : Ball) (hr : 0 ≤ r.radius) :
    volume {q : ℝ × ℝ × ℝ | r.isIn [⟨q.1, q.2.1, some q.2.2⟩] = .ok (.each [true])} = ENNReal.ofReal r.volume := by
  rw [ball_accepted r hr, volume_ballSet _ _ _ _ hr]
  rfl

/-- The points of a cylinder in coordinates. -/
def cylSet (a b c R h : ℝ) : Set ((ℝ × ℝ) × ℝ) := discSet a b R ×ˢ Set.Icc (c - h / 2) (c + h / 2)

open Classical in
theorem cyl_accepted (r : Cylinder) (hr : 0 ≤ r.radius) :
    {q : ℝ × ℝ × ℝ | r.isIn [⟨q.1, q.2.1, some q.2.2⟩] = .ok (.each [true])} =
      MeasurableEquiv.prodAssoc.symm ⁻¹' cylSet r.center.1 r.center.2.1 r.center.2.2 r.radius r.height := by
  ext q
  rw [Set.mem_ofPred_eq, C61_cylinder r _ pts_z, accepts_iff, decide_eq_true_iff]
  simp only [Cylinder.Has, hr, true_and, Option.some.injEq, exists_eq_left', Set.mem_preimage, cylSet, Set.mem_prod,
    discSet, Set.mem_ofPred_eq, abs_le, Set.mem_Icc, MeasurableEquiv.prodAssoc, MeasurableEquiv.symm_mk,
    MeasurableEquiv.coe_mk, Equiv.prodAssoc_symm_apply]
  refine and_congr_right fun _ => ?_
  constructor <;> rintro ⟨h1, h2⟩ <;> constructor <;> linarith

theorem measurableSet_cylSet (a b c R h : ℝ) : MeasurableSet (cylSet a b c R h) :=
  (measurableSet_discSet a b R).prod measurableSet_Icc

/-- **C100** The same for cylinders. -/
theorem C100_cylinder (r : Cylinder) (hr : 0 ≤ r.radius) :
    volume {q : ℝ × ℝ × ℝ | r.isIn [⟨q.1, q.2.1, some q.2.2⟩] = .ok (.each [true])} = ENNReal.ofReal r.volume := by
  rw [cyl_accepted r hr, (volume_preserving_prodAssoc (α₁ := ℝ) (β₁ := ℝ) (γ₁ := ℝ)).symm.measure_preimage
    (measurableSet_cylSet _ _ _ _ _).nullMeasurableSet]
  unfold cylSet
  rw [Measure.volume_eq_prod, Measure.prod_prod, volume_discSet _ _ _ hr, Real.volume_Icc,
    ← ENNReal.ofReal_mul (by positivity)]
  congr 1
  unfold Cylinder.volume
  ring

/-! ### Combined regions -/

/-- The coordinates that `is_in_region` of a region accepts. -/
def RegionView.accepted (r : RegionView ℝ) : Set (ℝ × ℝ × ℝ) :=
  {q | r.isIn [⟨q.1, q.2.1, some q.2.2⟩] = .ok (.each [true])}

theorem volume_unions (regs : List (RegionView ℝ)) (hv : ∀ r ∈ regs, 0 ≤ r.volume)
    (hm : ∀ r ∈ regs, MeasurableSet r.accepted)
    (hvol : ∀ r ∈ regs, volume r.accepted = ENNReal.ofReal r.volume)
    (hd : regs.Pairwise fun r o => volume (r.accepted ∩ o.accepted) = 0) :
    volume {q | ∃ r ∈ regs, q ∈ r.accepted} = ENNReal.ofReal (regs.map fun r => r.volume).sum := by
  induction regs with
  | nil => simp
  | cons r regs ih =>
    obtain ⟨h1, h2⟩ := List.pairwise_cons.1 hd
    have hset : {q | ∃ o ∈ r :: regs, q ∈ o.accepted} = r.accepted ∪ {q | ∃ o ∈ regs, q ∈ o.accepted} := by
      ext q; simp
    have hnull : volume (r.accepted ∩ {q | ∃ o ∈ regs, q ∈ o.accepted}) = 0 := by
      have : r.accepted ∩ {q | ∃ o ∈ regs, q ∈ o.accepted} = ⋃ o ∈ regs, r.accepted ∩ o.accepted := by
        ext q; simp
      rw [this]
      exact (measure_biUnion_null_iff (List.finite_toSet regs).countable).2 h1
    rw [hset, measure_union₀' (hm r (by simp)).nullMeasurableSet hnull, hvol r (by simp),
      ih (fun o ho => hv o (by simp [ho])) (fun o ho => hm o (by simp [ho])) (fun o ho => hvol o (by simp [ho])) h2,
      ← ENNReal.ofReal_add (hv r (by simp))]
    · rw [List.map_cons, List.sum_cons]
    · exact List.sum_nonneg (by
        intro x hx
        obtain ⟨o, ho, rfl⟩ := List.mem_map.1 hx
        exact hv o (by simp [ho]))

/-- **C100** The volume of a combined region is the volume of the union, for regions that
have no common volume and whose own volumes are right (which the theorems above show). -/
theorem C100_combined_partial (regs : List (RegionView ℝ)) (v : ℝ) (h : combinedVolume regs = .ok v)
    (hv : ∀ r ∈ regs, 0 ≤ r.volume) (hm : ∀ r ∈ regs, MeasurableSet r.accepted)
    (hvol : ∀ r ∈ regs, volume r.accepted = ENNReal.ofReal r.volume)
    (hd : regs.Pairwise fun r o => volume (r.accepted ∩ o.accepted) = 0) :
    volume {q | ∃ r ∈ regs, q ∈ r.accepted} = ENNReal.ofReal v := by
  rw [volume_unions regs hv hm hvol hd]
  unfold combinedVolume at h
  split at h
  · cases h
  · cases h
  · exact congrArg ENNReal.ofReal (Except.ok.inj h)

theorem hits_ok {F : Type} {r : RegionView F} {fixed : List (Pt F)} {os : List (RegionView F)}
    (h : r.hits fixed os = .ok false) : ∀ o ∈ os, r.obj ≠ o.obj →
      (∀ a, o.isIn fixed = .ok a → a.any = false) ∧ ∀ b, o.isIn r.drawn = .ok b → b.any = false := by
  induction os with
  | nil => intro o ho; cases ho
  | cons o os ih =>
    rw [RegionView.hits] at h
    split_ifs at h with he
    · intro o' ho' hne
      rcases List.mem_cons.1 ho' with rfl | ho'
      · exact absurd he hne
      · exact ih h o' ho' hne
    · split at h
      · cases h
      · rename_i a ha
        split_ifs at h with hany
        · cases h
        · split at h
          · cases h
          · rename_i b hb
            split_ifs at h with hany'
            · cases h
            · intro o' ho' hne
              rcases List.mem_cons.1 ho' with rfl | ho'
              · refine ⟨fun a' h1 => ?_, fun b' h1 => ?_⟩
                · rw [ha] at h1; cases h1; simpa using hany
                · rw [hb] at h1; cases h1; simpa using hany'
              · exact ih h o' ho' hne

theorem overlapLoop_ok {F : Type} {all rs : List (RegionView F)} (h : overlapLoop all rs = .ok false) :
    ∀ r ∈ rs, ∃ fixed, r.grid = .ok fixed ∧ r.hits fixed all = .ok false := by
  induction rs with
  | nil => intro r hr; cases hr
  | cons r rs ih =>
    rw [overlapLoop] at h
    split at h
    · cases h
    · rename_i fixed hf
      split at h
      · cases h
      · cases h
      · rename_i hh
        intro r' hr'
        rcases List.mem_cons.1 hr' with rfl | hr'
        · exact ⟨fixed, hf, hh⟩
        · exact ih h r' hr'

/-- **C100** A combined region is only created if no grid point and no drawn point of a
region is accepted by another one. -/
theorem C100_combined_refused {F : Type} [Field F] (regs : List (RegionView F)) (v : F)
    (h : combinedVolume regs = .ok v) (r o : RegionView F) (hr : r ∈ regs) (ho : o ∈ regs) (hne : r.obj ≠ o.obj) :
    ∃ fixed, r.grid = .ok fixed ∧ (∀ a, o.isIn fixed = .ok a → a.any = false) ∧
      ∀ b, o.isIn r.drawn = .ok b → b.any = false := by
  unfold combinedVolume at h
  split at h
  · cases h
  · cases h
  · rename_i hl
    obtain ⟨fixed, hf, hh⟩ := overlapLoop_ok hl r hr
    exact ⟨fixed, hf, hits_ok hh o ho hne⟩

/-- A box as a part of a combined region, for the 300 numbers drawn from [0,1) by the
check. -/
noncomputable def Cuboid.view (r : Cuboid ℝ) (obj : Nat) (u : Nat → ℝ) : RegionView ℝ :=
  ⟨obj, r.grid .default, r.sample 100 u, fun rows => r.isIn rows (0, 0, 0), r.volume⟩

/-- Boxes of side length 2 with centres on the first axis and a single grid point. -/
noncomputable def unitBox (c : ℝ) : Cuboid ℝ := ⟨(2, 2, 2), (c, 0, 0), (2, 2, 2)⟩

theorem unitBox_grid (c : ℝ) : ∃ pts, (unitBox c).grid .default = .ok pts ∧ ∀ p ∈ pts, p = ⟨c, 0, some 0⟩ := by
  have hf : FitsTimes (2 : ℝ) 2 1 := by unfold FitsTimes; norm_num
  obtain ⟨pts, h1, -, -, h2, -⟩ := C56_cuboid (unitBox c) .default (by norm_num [unitBox, PointDist.get])
    (by norm_num [unitBox, PointDist.get]) (by norm_num [unitBox, PointDist.get]) hf hf hf le_rfl le_rfl le_rfl
  refine ⟨pts, h1, fun p hp => ?_⟩
  obtain ⟨i, hi, j, hj, k, hk, rfl⟩ := (h2 p).1 hp
  have : i = 0 := by omega
  have : j = 0 := by omega
  have : k = 0 := by omega
  subst_vars
  simp [unitBox, gridCoord]

theorem unitBox_sample (c : ℝ) : ∀ p ∈ (unitBox c).sample 100 fun _ => 1 / 2, p = ⟨c, 0, some 0⟩ := by
  intro p hp
  obtain ⟨i, -, rfl⟩ := List.mem_map.1 hp
  simp only [unitBox, uniform, lowLim, highLim, Pt.mk.injEq, Option.some.injEq]
  norm_num

open Classical in
theorem unitBox_rejects (c d : ℝ) (h : 1 < |c - d|) (pts : List (Pt ℝ)) (hp : ∀ p ∈ pts, p = ⟨c, 0, some 0⟩) :
    ∃ a, (unitBox d).isIn pts (0, 0, 0) = .ok a ∧ a.any = false := by
  refine ⟨_, C61_cuboid _ _ _ (fun p h' => by rw [hp p h']; exact Option.some_ne_none _), ?_⟩
  simp only [InReg.any, List.any_eq_false, id, List.mem_map]
  rintro b ⟨p, hp', rfl⟩
  rw [hp p hp', decide_eq_true_iff]
  rintro ⟨h1, -⟩
  simp only [Between, unitBox] at h1
  linarith

/-- **C100 is violated** for regions that overlap in a part that contains none of the points
tried: two boxes of volume 8 that share a quarter of it are accepted as a combined region of
volume 16 although their union has volume 14. -/
theorem C100_violated_combined :
    combinedVolume [(unitBox 0).view 0 fun _ => 1 / 2, (unitBox (3 / 2)).view 1 fun _ => 1 / 2] = .ok 16 ∧
      volume {q | ∃ r ∈ [(unitBox 0).view 0 fun _ => 1 / 2, (unitBox (3 / 2)).view 1 fun _ => 1 / 2],
        q ∈ r.accepted} = ENNReal.ofReal 14 := by
  constructor
  · obtain ⟨p0, g0, m0⟩ := unitBox_grid 0
    obtain ⟨p1, g1, m1⟩ := unitBox_grid (3 / 2)
    have far01 : (1 : ℝ) < |0 - 3 / 2| := by norm_num [abs_of_neg]
    have far10 : (1 : ℝ) < |3 / 2 - 0| := by norm_num [abs_of_pos]
    obtain ⟨a, ha, ha'⟩ := unitBox_rejects 0 (3 / 2) far01 p0 m0
    obtain ⟨b, hb, hb'⟩ := unitBox_rejects 0 (3 / 2) far01 _ (unitBox_sample 0)
    obtain ⟨c, hc, hc'⟩ := unitBox_rejects (3 / 2) 0 far10 p1 m1
    obtain ⟨d, hd, hd'⟩ := unitBox_rejects (3 / 2) 0 far10 _ (unitBox_sample (3 / 2))
    have hov : overlapLoop [(unitBox 0).view 0 fun _ => 1 / 2, (unitBox (3 / 2)).view 1 fun _ => 1 / 2]
        [(unitBox 0).view 0 fun _ => 1 / 2, (unitBox (3 / 2)).view 1 fun _ => 1 / 2] = .ok false := by
      simp only [overlapLoop, Cuboid.view, RegionView.hits, g0, g1, ha, hb, hc, hd, ha', hb', hc', hd']
      rfl
    unfold combinedVolume
    rw [hov]
    simp only [Cuboid.view, Cuboid.volume, unitBox, List.map_cons, List.map_nil, List.sum_cons, List.sum_nil]
    norm_num
  · have hset : {q | ∃ r ∈ [(unitBox 0).view 0 fun _ => 1 / 2, (unitBox (3 / 2)).view 1 fun _ => 1 / 2],
        q ∈ r.accepted} = Set.Icc (-1 : ℝ) (5 / 2) ×ˢ (Set.Icc (-1 : ℝ) 1 ×ˢ Set.Icc (-1 : ℝ) 1) := by
      ext q
      simp only [List.mem_cons, List.not_mem_nil, or_false, exists_eq_or_imp, exists_eq_left, RegionView.accepted,
        Cuboid.view, Set.mem_ofPred_eq]
      classical
      rw [C61_cuboid _ _ _ pts_z, C61_cuboid _ _ _ pts_z, accepts_iff, accepts_iff, decide_eq_true_iff,
        decide_eq_true_iff]
      simp only [Cuboid.Has, between_Icc, Option.some.injEq, exists_eq_left', unitBox, Set.mem_prod, Set.mem_Icc]
      constructor
      · rintro (⟨h1, h2, h3⟩ | ⟨h1, h2, h3⟩) <;> refine ⟨⟨?_, ?_⟩, ⟨?_, ?_⟩, ?_, ?_⟩ <;> linarith [h1.1, h1.2, h2.1, h2.2, h3.1, h3.2]
      · rintro ⟨h1, h2, h3⟩
        by_cases h : q.1 ≤ 1
        · left; refine ⟨⟨?_, ?_⟩, ⟨?_, ?_⟩, ?_, ?_⟩ <;> linarith [h1.1, h1.2, h2.1, h2.2, h3.1, h3.2]
        · right; refine ⟨⟨?_, ?_⟩, ⟨?_, ?_⟩, ?_, ?_⟩ <;> linarith [h1.1, h1.2, h2.1, h2.2, h3.1, h3.2]
    rw [hset, Measure.volume_eq_prod, Measure.prod_prod, Measure.volume_eq_prod, Measure.prod_prod, Real.volume_Icc,
      Real.volume_Icc, ← ENNReal.ofReal_mul (by norm_num), ← ENNReal.ofReal_mul (by norm_num)]
    norm_num

/-- A ball of radius 3 and a cylinder of radius 2 and height 5: the volumes are 36 π and
20 π. -/
example : volume {q : ℝ × ℝ × ℝ | (⟨3, (1, 2, 3), (1, 1, 1)⟩ : Ball).isIn [⟨q.1, q.2.1, some q.2.2⟩] =
      .ok (.each [true])} = ENNReal.ofReal (36 * Real.pi) ∧
    volume {q : ℝ × ℝ × ℝ | (⟨2, 5, (1, 2, 3), (1, 1, 1)⟩ : Cylinder).isIn [⟨q.1, q.2.1, some q.2.2⟩] =
      .ok (.each [true])} = ENNReal.ofReal (20 * Real.pi) := by
  rw [C100_ball _ (by norm_num), C100_cylinder _ (by norm_num)]
  constructor
  · congr 1; simp only [Ball.volume]; ring
  · congr 1; simp only [Cylinder.volume]; ring

/-- Two boxes that only touch each other meet the hypotheses about combined regions. -/
example : volume {q | ∃ r ∈ [(unitBox 0).view 0 fun _ => 1 / 2, (unitBox 2).view 1 fun _ => 1 / 2],
    q ∈ r.accepted} = ENNReal.ofReal 16 := by
  have hacc : ∀ (c : ℝ) (k : Nat), ((unitBox c).view k fun _ => 1 / 2).accepted =
      Set.Icc (c - 1) (c + 1) ×ˢ (Set.Icc (-1 : ℝ) 1 ×ˢ Set.Icc (-1 : ℝ) 1) := by
    intro c k
    ext q
    classical
    simp only [RegionView.accepted, Cuboid.view, Set.mem_ofPred_eq]
    rw [C61_cuboid _ _ _ pts_z, accepts_iff, decide_eq_true_iff]
    simp only [Cuboid.Has, between_Icc, Option.some.injEq, exists_eq_left', unitBox, Set.mem_prod]
    norm_num
  have hok : combinedVolume [(unitBox 0).view 0 fun _ => 1 / 2, (unitBox 2).view 1 fun _ => 1 / 2] = .ok 16 := by
    obtain ⟨p0, g0, m0⟩ := unitBox_grid 0
    obtain ⟨p1, g1, m1⟩ := unitBox_grid 2
    have far01 : (1 : ℝ) < |0 - 2| := by norm_num [abs_of_neg]
    have far10 : (1 : ℝ) < |2 - 0| := by norm_num [abs_of_pos]
    obtain ⟨a, ha, ha'⟩ := unitBox_rejects 0 2 far01 p0 m0
    obtain ⟨b, hb, hb'⟩ := unitBox_rejects 0 2 far01 _ (unitBox_sample 0)
    obtain ⟨c, hc, hc'⟩ := unitBox_rejects 2 0 far10 p1 m1
    obtain ⟨d, hd, hd'⟩ := unitBox_rejects 2 0 far10 _ (unitBox_sample 2)
    have hov : overlapLoop [(unitBox 0).view 0 fun _ => 1 / 2, (unitBox 2).view 1 fun _ => 1 / 2]
        [(unitBox 0).view 0 fun _ => 1 / 2, (unitBox 2).view 1 fun _ => 1 / 2] = .ok false := by
      simp only [overlapLoop, Cuboid.view, RegionView.hits, g0, g1, ha, hb, hc, hd, ha', hb', hc', hd']
      rfl
    unfold combinedVolume
    rw [hov]
    simp only [Cuboid.view, Cuboid.volume, unitBox, List.map_cons, List.map_nil, List.sum_cons, List.sum_nil]
    norm_num
  refine C100_combined_partial _ _ hok ?_ ?_ ?_ ?_
  · intro r hr
    simp only [List.mem_cons, List.not_mem_nil, or_false] at hr
    rcases hr with rfl | rfl <;> norm_num [Cuboid.view, Cuboid.volume, unitBox]
  · intro r hr
    simp only [List.mem_cons, List.not_mem_nil, or_false] at hr
    rcases hr with rfl | rfl <;> rw [hacc] <;>
      exact measurableSet_Icc.prod (measurableSet_Icc.prod measurableSet_Icc)
  · intro r hr
    simp only [List.mem_cons, List.not_mem_nil, or_false] at hr
    rcases hr with rfl | rfl <;>
      exact C100_cuboid _ (by norm_num [unitBox]) (by norm_num [unitBox])
  · refine List.pairwise_cons.2 ⟨?_, List.pairwise_singleton _ _⟩
    intro o ho
    rw [List.mem_singleton.1 ho, hacc, hacc, Set.prod_inter_prod, Measure.volume_eq_prod, Measure.prod_prod,
      Set.Icc_inter_Icc]
    norm_num

end Verif

/-
C101: `sample_points` draws independent points that are uniformly distributed in the region.
-/
import Verif.Props.RegionVolume
import Verif.Lemmas.Uniform
import Verif.Lemmas.Rejection
import Mathlib.Probability.Independence.InfinitePi
namespace Verif

open MeasureTheory ProbabilityTheory

/-- A random generator: the numbers it yields are independent and uniform in [0,1). -/
structure UniformDraws {Ω : Type} [MeasurableSpace Ω] (P : Measure Ω) (U : ℕ → Ω → ℝ) : Prop where
  meas : ∀ k, Measurable (U k)
  indep : iIndepFun U P
  uniform : ∀ k, pdf.IsUniform (U k) (Set.Ico 0 1) P

/-- Such generators exist. -/
theorem uniformDraws_exist : UniformDraws (Measure.infinitePi fun _ : ℕ => unitLaw) fun k ω => ω k := by
  refine ⟨fun k => measurable_pi_apply k, ?_, fun k => ?_⟩
  · exact iIndepFun_infinitePi (P := fun _ : ℕ => unitLaw) (X := fun _ x => x) fun _ => measurable_id
  · unfold pdf.IsUniform
    rw [← unitLaw_eq]
    exact Measure.infinitePi_map_eval (fun _ : ℕ => unitLaw) k

section
variable {Ω : Type} [MeasurableSpace Ω] {P : Measure Ω} {U : ℕ → Ω → ℝ}

theorem UniformDraws.law (h : UniformDraws P U) (k : ℕ) : P.map (U k) = unitLaw := by
  rw [unitLaw_eq]
  exact h.uniform k

theorem UniformDraws.pairs (h : UniformDraws P U) {n : ℕ} {E : Type} [MeasurableSpace E] (a b : Fin n → ℕ)
    (g : ℝ × ℝ → E) (hg : Measurable g) (hab : ∀ i j, a i ≠ b j) (ha : Function.Injective a)
    (hb : Function.Injective b) :
    iIndepFun (fun i ω => g (U (a i) ω, U (b i) ω)) P ∧
      ∀ i, P.map (fun ω => g (U (a i) ω, U (b i) ω)) = (unitLaw.prod unitLaw).map g := by
  constructor
  · refine iIndepFun_blocks (E := E) U h.meas h.indep (fun i => {a i, b i}) ?_
      (fun i y => g (y ⟨a i, by simp⟩, y ⟨b i, by simp⟩)) ?_
    · intro i j hij
      rw [Finset.disjoint_left]
      simp only [Finset.mem_insert, Finset.mem_singleton]
      rintro x (rfl | rfl) (h1 | h1)
      · exact hij (ha h1)
      · exact hab _ _ h1
      · exact hab _ _ h1.symm
      · exact hij (hb h1)
    · intro i
      exact hg.comp ((measurable_pi_apply _).prodMk (measurable_pi_apply _))
  · intro i
    rw [← map_pair h.meas h.indep h.law (hab i i), Measure.map_map hg ((h.meas _).prodMk (h.meas _))]
    rfl

theorem UniformDraws.triples (h : UniformDraws P U) {ι : Type} [DecidableEq ι] {E : Type} [MeasurableSpace E]
    (a b c : ι → ℕ) (g : (ℝ × ℝ) × ℝ → E) (hg : Measurable g) (hab : ∀ i j, a i ≠ b j) (hac : ∀ i j, a i ≠ c j)
    (hbc : ∀ i j, b i ≠ c j) (ha : Function.Injective a) (hb : Function.Injective b) (hc : Function.Injective c) :
    iIndepFun (fun i ω => g ((U (a i) ω, U (b i) ω), U (c i) ω)) P ∧
      ∀ i, P.map (fun ω => g ((U (a i) ω, U (b i) ω), U (c i) ω)) = ((unitLaw.prod unitLaw).prod unitLaw).map g := by
  constructor
  · refine iIndepFun_blocks (E := E) U h.meas h.indep (fun i => {a i, b i, c i}) ?_
      (fun i y => g ((y ⟨a i, by simp⟩, y ⟨b i, by simp⟩), y ⟨c i, by simp⟩)) ?_
    · intro i j hij
      rw [Finset.disjoint_left]
      simp only [Finset.mem_insert, Finset.mem_singleton]
      rintro x (rfl | rfl | rfl) (h1 | h1 | h1)
      · exact hij (ha h1)
      · exact hab _ _ h1
      · exact hac _ _ h1
      · exact hab _ _ h1.symm
      · exact hij (hb h1)
      · exact hbc _ _ h1
      · exact hac _ _ h1.symm
      · exact hbc _ _ h1.symm
      · exact hij (hc h1)
    · intro i
      exact hg.comp (((measurable_pi_apply _).prodMk (measurable_pi_apply _)).prodMk (measurable_pi_apply _))
  · intro i
    rw [← map_triple h.meas h.indep h.law (hab i i) (hac i i) (hbc i i),
      Measure.map_map hg (((h.meas _).prodMk (h.meas _)).prodMk (h.meas _))]
    rfl

/-! ### Boxes and rectangles -/

theorem measurable_uniform (lo hi : ℝ) : Measurable fun u : ℝ => uniform lo hi u := by
  unfold uniform
  fun_prop

theorem range_map_eq_ofFn {α : Type} (n : ℕ) (f : ℕ → α) : (List.range n).map f = List.ofFn fun i : Fin n => f i := by
  rw [List.ofFn_eq_map, ← List.map_coe_finRange_eq_range, List.map_map]
  rfl

theorem vol_Icc_ne {lo hi : ℝ} (h : lo < hi) : volume (Set.Icc lo hi) ≠ 0 ∧ volume (Set.Icc lo hi) ≠ ⊤ := by
  rw [Real.volume_Icc]
  exact ⟨by simpa using h, ENNReal.ofReal_ne_top⟩

theorem box_law {a b c d e f : ℝ} (h1 : a < b) (h2 : c < d) (h3 : e < f) :
    ((unitLaw.prod unitLaw).prod unitLaw).map (fun p => (uniform a b p.1.1, uniform c d p.1.2, uniform e f p.2)) =
      ProbabilityTheory.cond volume (Set.Icc a b ×ˢ (Set.Icc c d ×ˢ Set.Icc e f)) := by
  have hg : (fun p : (ℝ × ℝ) × ℝ => (uniform a b p.1.1, uniform c d p.1.2, uniform e f p.2)) =
      Prod.map (fun u : ℝ => uniform a b u) (Prod.map (fun u : ℝ => uniform c d u) fun u : ℝ => uniform e f u) ∘
        MeasurableEquiv.prodAssoc := rfl
  rw [hg, ← Measure.map_map ((measurable_uniform a b).prodMap ((measurable_uniform c d).prodMap
    (measurable_uniform e f))) MeasurableEquiv.prodAssoc.measurable, Measure.prodAssoc_prod,
    ← Measure.map_prod_map _ _ (measurable_uniform a b) ((measurable_uniform c d).prodMap (measurable_uniform e f)),
    ← Measure.map_prod_map _ _ (measurable_uniform c d) (measurable_uniform e f), map_uniform a b h1,
    map_uniform c d h2, map_uniform e f h3, cond_prod _ _ (vol_Icc_ne h2).1 (vol_Icc_ne h2).2,
    cond_prod _ _ (vol_Icc_ne h1).1 (vol_Icc_ne h1).2]
  rfl

open Classical in
theorem cuboid_accepted (r : Cuboid ℝ) :
    {q : ℝ × ℝ × ℝ | r.isIn [⟨q.1, q.2.1, some q.2.2⟩] (0, 0, 0) = .ok (.each [true])} =
      Set.Icc (lowLim r.side.1 r.center.1) (highLim r.side.1 r.center.1) ×ˢ
        (Set.Icc (lowLim r.side.2.1 r.center.2.1) (highLim r.side.2.1 r.center.2.1) ×ˢ
          Set.Icc (lowLim r.side.2.2 r.center.2.2) (highLim r.side.2.2 r.center.2.2)) := by
  ext q
  rw [Set.mem_ofPred_eq, C61_cuboid r _ _ pts_z, accepts_iff, decide_eq_true_iff]
  simp only [Cuboid.Has, between_Icc, Option.some.injEq, exists_eq_left', Set.mem_prod]
  rfl

/-- **C101** Given a generator of independent uniform numbers, the points drawn by
`sample_points` of a box are independent, and each is uniformly distributed over the
coordinates that `is_in_region` accepts. -/
theorem C101_cuboid (h : UniformDraws P U) (r : Cuboid ℝ) (h1 : 0 < r.side.1) (h2 : 0 < r.side.2.1)
    (h3 : 0 < r.side.2.2) (n : ℕ) :
    ∃ X : Fin n → Ω → ℝ × ℝ × ℝ,
      (∀ ω, r.sample n (fun k => U k ω) = List.ofFn fun i => ⟨(X i ω).1, (X i ω).2.1, some (X i ω).2.2⟩) ∧
      iIndepFun X P ∧
      ∀ i, pdf.IsUniform (X i)
        {q : ℝ × ℝ × ℝ | r.isIn [⟨q.1, q.2.1, some q.2.2⟩] (0, 0, 0) = .ok (.each [true])} P := by
  have hm : Measurable fun p : (ℝ × ℝ) × ℝ => (uniform (lowLim r.side.1 r.center.1) (highLim r.side.1 r.center.1) p.1.1,
      uniform (lowLim r.side.2.1 r.center.2.1) (highLim r.side.2.1 r.center.2.1) p.1.2,
      uniform (lowLim r.side.2.2 r.center.2.2) (highLim r.side.2.2 r.center.2.2) p.2) :=
    ((measurable_uniform _ _).comp (measurable_fst.comp measurable_fst)).prodMk
      (((measurable_uniform _ _).comp (measurable_snd.comp measurable_fst)).prodMk
        ((measurable_uniform _ _).comp measurable_snd))
  obtain ⟨hi, hl⟩ := h.triples (ι := Fin n) (fun i => 3 * i) (fun i => 3 * i + 1) (fun i => 3 * i + 2) _ hm
    (by intro i j; omega) (by intro i j; omega) (by intro i j; omega)
    (by intro i j hij; dsimp only at hij; omega) (by intro i j hij; dsimp only at hij; omega)
    (by intro i j hij; dsimp only at hij; omega)
  refine ⟨_, fun ω => ?_, hi, fun i => ?_⟩
  · unfold Cuboid.sample
    rw [range_map_eq_ofFn]
  · unfold pdf.IsUniform
    rw [hl i, cuboid_accepted, box_law]
    all_goals unfold lowLim highLim; linarith

open Classical in
theorem rect_accepted (r : Rect ℝ) :
    {q : ℝ × ℝ | r.isIn [⟨q.1, q.2, r.z⟩] (0, 0) = .ok (.each [true])} =
      Set.Icc (lowLim r.side.1 r.center.1) (highLim r.side.1 r.center.1) ×ˢ
        Set.Icc (lowLim r.side.2 r.center.2) (highLim r.side.2 r.center.2) := by
  ext q
  rw [Set.mem_ofPred_eq, C61_rect_partial r _ _ pts_near, accepts_iff, decide_eq_true_iff]
  simp only [Rect.Has, between_Icc, Set.mem_prod]
  rfl

/-- **C101** The same for rectangles, in the plane of the rectangle. -/
theorem C101_rect (h : UniformDraws P U) (r : Rect ℝ) (h1 : 0 < r.side.1) (h2 : 0 < r.side.2) (n : ℕ) :
    ∃ X : Fin n → Ω → ℝ × ℝ,
      (∀ ω, r.sample n (fun k => U k ω) = List.ofFn fun i => ⟨(X i ω).1, (X i ω).2, r.z⟩) ∧
      iIndepFun X P ∧
      ∀ i, pdf.IsUniform (X i) {q : ℝ × ℝ | r.isIn [⟨q.1, q.2, r.z⟩] (0, 0) = .ok (.each [true])} P := by
  have hm : Measurable (Prod.map (fun u : ℝ => uniform (lowLim r.side.1 r.center.1) (highLim r.side.1 r.center.1) u)
      fun u : ℝ => uniform (lowLim r.side.2 r.center.2) (highLim r.side.2 r.center.2) u) :=
    (measurable_uniform _ _).prodMap (measurable_uniform _ _)
  obtain ⟨hi, hl⟩ := h.pairs (fun i : Fin n => (i : ℕ)) (fun i => n + i) _ hm
    (by intro i j; have := i.2; omega) (by intro i j hij; dsimp only at hij; omega)
    (by intro i j hij; dsimp only at hij; omega)
  refine ⟨_, fun ω => ?_, hi, fun i => ?_⟩
  · unfold Rect.sample
    rw [range_map_eq_ofFn]
    congr 1
    funext i
    cases r.z <;> simp
  · unfold pdf.IsUniform
    have e1 : lowLim r.side.1 r.center.1 < highLim r.side.1 r.center.1 := by unfold lowLim highLim; linarith
    have e2 : lowLim r.side.2 r.center.2 < highLim r.side.2 r.center.2 := by unfold lowLim highLim; linarith
    rw [hl i, rect_accepted, ← Measure.map_prod_map _ _ (measurable_uniform _ _) (measurable_uniform _ _),
      map_uniform _ _ e1, map_uniform _ _ e2, cond_prod _ _ (vol_Icc_ne e1).1 (vol_Icc_ne e1).2]
    rfl

/-! ### Round regions -/

theorem map_cond_equiv {α β : Type} [MeasurableSpace α] [MeasurableSpace β] {μ : Measure α} {ν : Measure β}
    (e : α ≃ᵐ β) (he : MeasurePreserving e μ ν) (s : Set β) :
    (ProbabilityTheory.cond μ (e ⁻¹' s)).map e = ProbabilityTheory.cond ν s := by
  unfold ProbabilityTheory.cond
  rw [Measure.map_smul, ← e.restrict_map, he.map_eq, ← he.map_eq, e.map_apply]

/-- The point of a disc around `(a, b)` made from two draws. -/
noncomputable def discPoint (a b R : ℝ) (p : ℝ × ℝ) : ℝ × ℝ :=
  (R * √p.1 * Real.cos (2 * Real.pi * p.2) + a, R * √p.1 * Real.sin (2 * Real.pi * p.2) + b)

theorem measurable_discPoint (a b R : ℝ) : Measurable (discPoint a b R) := by
  unfold discPoint
  fun_prop

theorem map_discPoint (a b R : ℝ) (hR : 0 < R) :
    (unitLaw.prod unitLaw).map (discPoint a b R) = ProbabilityTheory.cond volume (discSet a b R) := by
  have h1 : discPoint a b R = MeasurableEquiv.addRight ((a, b) : ℝ × ℝ) ∘ polarPoint R := rfl
  have h2 : MeasurePreserving (MeasurableEquiv.addRight ((a, b) : ℝ × ℝ)) volume volume :=
    measurePreserving_add_right volume _
  rw [h1, ← Measure.map_map (MeasurableEquiv.measurable _) (measurable_polarPoint R), map_polarPoint R hR,
    ← map_cond_equiv _ h2 (discSet a b R)]
  congr 2
  ext q
  simp only [discSet, Set.mem_preimage, Set.mem_ofPred_eq, MeasurableEquiv.coe_addRight, Prod.fst_add, Prod.snd_add,
    add_sub_cancel_right, sub_zero]

/-- **C101** The same for discs. -/
theorem C101_disc (h : UniformDraws P U) (r : Disc) (hr : 0 < r.radius) (n : ℕ) :
    ∃ X : Fin n → Ω → ℝ × ℝ,
      (∀ ω, r.sample n (fun k => U k ω) = List.ofFn fun i => ⟨(X i ω).1, (X i ω).2, r.z⟩) ∧
      iIndepFun X P ∧
      ∀ i, pdf.IsUniform (X i) {q : ℝ × ℝ | r.isIn [⟨q.1, q.2, r.z⟩] = .ok (.each [true])} P := by
  obtain ⟨hi, hl⟩ := h.pairs (fun i : Fin n => (i : ℕ)) (fun i => n + i) _
    (measurable_discPoint r.center.1 r.center.2 r.radius)
    (by intro i j; have := i.2; omega) (by intro i j hij; dsimp only at hij; omega)
    (by intro i j hij; dsimp only at hij; omega)
  refine ⟨_, fun ω => ?_, hi, fun i => ?_⟩
  · unfold Disc.sample
    rw [range_map_eq_ofFn]
    congr 1
    funext i
    unfold discPoint
    cases r.z <;> simp
  · unfold pdf.IsUniform
    rw [hl i, map_discPoint _ _ _ hr, disc_accepted r hr.le]

/-- **C101** The same for cylinders. -/
theorem C101_cylinder (h : UniformDraws P U) (r : Cylinder) (hr : 0 < r.radius) (hh : 0 < r.height) (n : ℕ) :
    ∃ X : Fin n → Ω → ℝ × ℝ × ℝ,
      (∀ ω, r.sample n (fun k => U k ω) = List.ofFn fun i => ⟨(X i ω).1, (X i ω).2.1, some (X i ω).2.2⟩) ∧
      iIndepFun X P ∧
      ∀ i, pdf.IsUniform (X i) {q : ℝ × ℝ × ℝ | r.isIn [⟨q.1, q.2.1, some q.2.2⟩] = .ok (.each [true])} P := by
  obtain ⟨f, hf⟩ : ∃ f : ℝ → ℝ, f = fun u => uniform (r.center.2.2 - r.height / 2) (r.center.2.2 + r.height / 2) u :=
    ⟨_, rfl⟩
  have hfm : Measurable f := by rw [hf]; exact measurable_uniform _ _
  have hm : Measurable (MeasurableEquiv.prodAssoc ∘ Prod.map (discPoint r.center.1 r.center.2.1 r.radius) f) :=
    MeasurableEquiv.prodAssoc.measurable.comp ((measurable_discPoint _ _ _).prodMap hfm)
  obtain ⟨hi, hl⟩ := h.triples (ι := Fin n) (fun i => (i : ℕ)) (fun i => n + i) (fun i => 2 * n + i) _ hm
    (by intro i j; have := i.2; omega) (by intro i j; have := i.2; omega) (by intro i j; have := i.2; omega)
    (by intro i j hij; dsimp only at hij; omega) (by intro i j hij; dsimp only at hij; omega)
    (by intro i j hij; dsimp only at hij; omega)
  refine ⟨_, fun ω => ?_, hi, fun i => ?_⟩
  · unfold Cylinder.sample
    rw [range_map_eq_ofFn]
    congr 1
    funext i
    have : uniform (-r.height / 2) (r.height / 2) (U (2 * n + i) ω) + r.center.2.2 = f (U (2 * n + i) ω) := by
      rw [hf]; unfold uniform; ring
    simp only [this]
    rfl
  · unfold pdf.IsUniform
    have e1 : r.center.2.2 - r.height / 2 < r.center.2.2 + r.height / 2 := by linarith
    have e2 : volume (discSet r.center.1 r.center.2.1 r.radius) ≠ 0 ∧
        volume (discSet r.center.1 r.center.2.1 r.radius) ≠ ⊤ := by
      rw [volume_discSet _ _ _ hr.le]
      refine ⟨?_, ENNReal.ofReal_ne_top⟩
      rw [Ne, ENNReal.ofReal_eq_zero, not_le]
      positivity
    rw [hl i, cyl_accepted r hr.le, ← Measure.map_map MeasurableEquiv.prodAssoc.measurable
      ((measurable_discPoint _ _ _).prodMap hfm), ← Measure.map_prod_map _ _ (measurable_discPoint _ _ _) hfm,
      map_discPoint _ _ _ hr, hf, map_uniform _ _ e1, cond_prod _ _ e2.1 e2.2,
      ← map_cond_equiv _ (volume_preserving_prodAssoc (α₁ := ℝ) (β₁ := ℝ) (γ₁ := ℝ))]
    rfl

/-! ### Balls: rejection sampling -/

/-- Candidate number `k` of `Ball.sample_points`. -/
noncomputable def ballCand (R : ℝ) (u : ℕ → ℝ) (k : ℕ) : ℝ × ℝ × ℝ :=
  (uniform (-R) R (u (3 * k)), uniform (-R) R (u (3 * k + 1)), uniform (-R) R (u (3 * k + 2)))

open Classical in
theorem sampleLoop_first (r : Ball) (hr : 0 ≤ r.radius) (n : ℕ) (u : ℕ → ℝ) (fuel : ℕ) :
    ∀ (K : ℕ) (acc res : List (ℝ × ℝ × ℝ)),
      acc = (((List.range K).filter fun k => decide (r.Accepts u k)).map (ballCand r.radius u)).take n →
      r.sampleLoop n u fuel (3 * K) acc = some res →
      ∃ N, res = (((List.range N).filter fun k => decide (r.Accepts u k)).map (ballCand r.radius u)).take n ∧
        res.length = n := by
  induction fuel with
  | zero => intro K acc res _ h; cases h
  | succ fuel ih =>
    intro K acc res hacc h
    rw [Ball.sampleLoop] at h
    obtain ⟨new, hnew⟩ : ∃ new : List (ℝ × ℝ × ℝ), new = ((List.range n).map fun i =>
      (uniform (-r.radius) r.radius (u (3 * K + 3 * i)), uniform (-r.radius) r.radius (u (3 * K + 3 * i + 1)),
        uniform (-r.radius) r.radius (u (3 * K + 3 * i + 2)))).filter fun p =>
          decide (√(p.1 ^ 2 + p.2.1 ^ 2 + p.2.2 ^ 2) ≤ r.radius) := ⟨_, rfl⟩
    rw [← hnew] at h
    have hnew' : new = (((List.range n).map (K + ·)).filter fun k => decide (r.Accepts u k)).map
        (ballCand r.radius u) := by
      rw [hnew, List.filter_map, List.filter_map, List.map_map]
      have hfil : ((List.range n).filter ((fun p : ℝ × ℝ × ℝ => decide (√(p.1 ^ 2 + p.2.1 ^ 2 + p.2.2 ^ 2) ≤ r.radius)) ∘
          fun i => (uniform (-r.radius) r.radius (u (3 * K + 3 * i)), uniform (-r.radius) r.radius (u (3 * K + 3 * i + 1)),
            uniform (-r.radius) r.radius (u (3 * K + 3 * i + 2))))) =
          (List.range n).filter ((fun k => decide (r.Accepts u k)) ∘ fun x => K + x) := by
        refine List.filter_congr fun i _ => ?_
        rw [Bool.eq_iff_iff]
        simp only [Function.comp, decide_eq_true_eq, sqrt_le_radius, Ball.Accepts, Nat.mul_add, hr, true_and]
      rw [hfil]
      refine List.map_congr_left fun i _ => ?_
      simp only [ballCand, Function.comp, Nat.mul_add]
    have hacc' : acc ++ new.take (min new.length (n - acc.length)) =
        (((List.range (K + n)).filter fun k => decide (r.Accepts u k)).map (ballCand r.radius u)).take n := by
      rw [List.range_add, List.filter_append, List.map_append, ← hnew', List.take_append, ← hacc]
      congr 1
      rw [List.take_eq_take_iff, hacc, List.length_take]
      omega
    split_ifs at h with hc
    · cases Option.some.inj h
      refine ⟨K + n, hacc', le_antisymm ?_ hc⟩
      rw [hacc', List.length_take]
      exact min_le_left _ _
    · exact ih (K + n) _ res hacc' (by rw [Nat.mul_add]; exact h)

theorem ball_first (r : Ball) (hr : 0 ≤ r.radius) (n : ℕ) (u : ℕ → ℝ) (fuel : ℕ) {pts : List (Pt ℝ)}
    (h : r.sample n u fuel = some pts) :
    pts = List.ofFn fun j : Fin n =>
      (⟨(ballCand r.radius u (Nat.nth (r.Accepts u) j)).1 + r.center.1,
        (ballCand r.radius u (Nat.nth (r.Accepts u) j)).2.1 + r.center.2.1,
        some ((ballCand r.radius u (Nat.nth (r.Accepts u) j)).2.2 + r.center.2.2)⟩ : Pt ℝ) := by
  classical
  unfold Ball.sample at h
  obtain ⟨l, hl, rfl⟩ := Option.map_eq_some_iff.1 h
  obtain ⟨N, h1, h2⟩ := sampleLoop_first r hr n u fuel 0 [] l (by simp) hl
  rw [filter_range_nth, List.map_map] at h1
  have hle : n ≤ Nat.count (r.Accepts u) N := by
    have := congrArg List.length h1
    rw [h2, List.length_take, List.length_map, List.length_range] at this
    omega
  have h3 : l = (List.range n).map (ballCand r.radius u ∘ Nat.nth (r.Accepts u)) := by
    rw [h1, ← List.map_take, List.take_range, min_eq_left hle]
  rw [h3, List.map_map, range_map_eq_ofFn]
  rfl

theorem ball_mem (R : ℝ) (u : ℕ → ℝ) (r : Ball) (hr : r.radius = R) (k : ℕ) :
    ballCand R u k ∈ ballSet 0 0 0 R ↔ r.Accepts u k := by
  subst hr
  simp only [ballSet, ballCand, Ball.Accepts, Set.mem_ofPred_eq, sub_zero]

/-- **C101** The same for balls, where candidates outside the ball are discarded:
`sample_points` returns with probability one, and the returned points are independent and
uniformly distributed over the coordinates that `is_in_region` accepts. -/
theorem C101_ball (h : UniformDraws P U) (r : Ball) (hr : 0 < r.radius) (n : ℕ) :
    (∀ᵐ ω ∂P, ∃ rounds, ∀ fuel ≥ rounds, ∃ pts, r.sample n (fun k => U k ω) fuel = some pts) ∧
    ∃ X : Fin n → Ω → ℝ × ℝ × ℝ,
      (∀ ω fuel pts, r.sample n (fun k => U k ω) fuel = some pts →
        pts = List.ofFn fun i => ⟨(X i ω).1, (X i ω).2.1, some (X i ω).2.2⟩) ∧
      iIndepFun X P ∧
      ∀ i, pdf.IsUniform (X i) {q : ℝ × ℝ × ℝ | r.isIn [⟨q.1, q.2.1, some q.2.2⟩] = .ok (.each [true])} P := by
  classical
  have hPr := h.indep.isProbabilityMeasure
  have hlt : -r.radius < r.radius := by linarith
  obtain ⟨Y, hYdef⟩ : ∃ Y : ℕ → Ω → ℝ × ℝ × ℝ, Y = fun k ω => ballCand r.radius (fun k => U k ω) k := ⟨_, rfl⟩
  have hg : Measurable fun p : (ℝ × ℝ) × ℝ => (uniform (-r.radius) r.radius p.1.1, uniform (-r.radius) r.radius p.1.2,
      uniform (-r.radius) r.radius p.2) :=
    ((measurable_uniform _ _).comp (measurable_fst.comp measurable_fst)).prodMk
      (((measurable_uniform _ _).comp (measurable_snd.comp measurable_fst)).prodMk
        ((measurable_uniform _ _).comp measurable_snd))
  obtain ⟨hi, hl⟩ := h.triples (ι := ℕ) (fun i => 3 * i) (fun i => 3 * i + 1) (fun i => 3 * i + 2) _ hg
    (by intro i j; omega) (by intro i j; omega) (by intro i j; omega)
    (by intro i j hij; dsimp only at hij; omega) (by intro i j hij; dsimp only at hij; omega)
    (by intro i j hij; dsimp only at hij; omega)
  have hYm : ∀ k, Measurable (Y k) := by
    intro k
    rw [hYdef]
    exact hg.comp (((h.meas _).prodMk (h.meas _)).prodMk (h.meas _))
  have hYi : iIndepFun Y P := by rw [hYdef]; exact hi
  obtain ⟨C, hC⟩ : ∃ C : Set (ℝ × ℝ × ℝ), C = Set.Icc (-r.radius) r.radius ×ˢ
    (Set.Icc (-r.radius) r.radius ×ˢ Set.Icc (-r.radius) r.radius) := ⟨_, rfl⟩
  have hYl : ∀ k, P.map (Y k) = ProbabilityTheory.cond volume C := by
    intro k
    rw [hYdef, hC, ← box_law hlt hlt hlt]
    exact hl k
  have hCm : MeasurableSet C := by
    rw [hC]; exact measurableSet_Icc.prod (measurableSet_Icc.prod measurableSet_Icc)
  have hsub : ballSet 0 0 0 r.radius ⊆ C := by
    intro q hq
    have hq' : q.1 ^ 2 + q.2.1 ^ 2 + q.2.2 ^ 2 ≤ r.radius ^ 2 := by
      simpa [ballSet] using hq
    have h1 : |q.1| ≤ r.radius := abs_le_of_sq_le_sq (by nlinarith [sq_nonneg q.2.1, sq_nonneg q.2.2]) hr.le
    have h2 : |q.2.1| ≤ r.radius := abs_le_of_sq_le_sq (by nlinarith [sq_nonneg q.1, sq_nonneg q.2.2]) hr.le
    have h3 : |q.2.2| ≤ r.radius := abs_le_of_sq_le_sq (by nlinarith [sq_nonneg q.1, sq_nonneg q.2.1]) hr.le
    rw [hC]
    exact ⟨abs_le.1 h1, abs_le.1 h2, abs_le.1 h3⟩
  have hB := measurableSet_ballSet 0 0 0 r.radius
  have hBpos : volume (ballSet 0 0 0 r.radius) ≠ 0 := by
    rw [volume_ballSet _ _ _ _ hr.le, Ne, ENNReal.ofReal_eq_zero, not_le]
    positivity
  have hCtop : volume C ≠ ⊤ := by
    rw [hC, Measure.volume_eq_prod, Measure.prod_prod, Measure.volume_eq_prod, Measure.prod_prod]
    exact ENNReal.mul_ne_top (vol_Icc_ne hlt).2 (ENNReal.mul_ne_top (vol_Icc_ne hlt).2 (vol_Icc_ne hlt).2)
  have hcond : ProbabilityTheory.cond (ProbabilityTheory.cond volume C) (ballSet 0 0 0 r.radius) =
      ProbabilityTheory.cond volume (ballSet 0 0 0 r.radius) := by
    rw [cond_cond_eq_cond_inter' hCm hB hCtop, Set.inter_eq_right.2 hsub]
  have h0 : ProbabilityTheory.cond volume C (ballSet 0 0 0 r.radius) ≠ 0 := by
    rw [cond_apply hCm, Set.inter_eq_right.2 hsub]
    exact mul_ne_zero (ENNReal.inv_ne_zero.2 hCtop) hBpos
  have hacc : ∀ ω, (fun k => Y k ω ∈ ballSet 0 0 0 r.radius) = r.Accepts fun k => U k ω := by
    intro ω
    funext k
    rw [hYdef]
    exact propext (ball_mem r.radius (fun k => U k ω) r rfl k)
  obtain ⟨hai, hal⟩ := accepted_indep hYm hYi hYl hB h0 n
  have hsh : MeasurePreserving (MeasurableEquiv.addRight r.center) volume volume :=
    (measurePreserving_add_right (volume : Measure ℝ) r.center.1).prod
      (measurePreserving_add_right (volume : Measure (ℝ × ℝ)) r.center.2)
  refine ⟨?_, fun j ω => MeasurableEquiv.addRight r.center (accepted Y (ballSet 0 0 0 r.radius) j ω), ?_, ?_, ?_⟩
  · filter_upwards [ae_infinite hYm hYi hYl hB h0] with ω hω
    rw [hacc] at hω
    refine ⟨Nat.nth (r.Accepts fun k => U k ω) n + 1, fun fuel hf => ?_⟩
    refine C59_ball_returns r hr.le n _ fuel (by omega) ?_
    rw [filter_range_nth, List.length_map, List.length_range]
    rcases Nat.eq_zero_or_pos n with rfl | hn
    · exact Nat.zero_le _
    · refine le_trans (le_of_eq (Nat.count_nth_of_infinite hω n).symm) (Nat.count_monotone _ ?_)
      calc Nat.nth (r.Accepts fun k => U k ω) n ≤ fuel * 1 := by omega
        _ ≤ fuel * n := Nat.mul_le_mul_left _ hn
  · intro ω fuel pts hs
    rw [ball_first r hr.le n _ fuel hs]
    congr 1
    funext j
    dsimp only
    unfold accepted
    rw [hacc, hYdef]
    rfl
  · exact hai.comp (fun _ => MeasurableEquiv.addRight r.center) fun _ => MeasurableEquiv.measurable _
  · intro j
    unfold pdf.IsUniform
    dsimp only
    have hfun : (fun ω => MeasurableEquiv.addRight r.center (accepted Y (ballSet 0 0 0 r.radius) j ω)) =
        MeasurableEquiv.addRight r.center ∘ accepted Y (ballSet 0 0 0 r.radius) j := rfl
    rw [hfun, ← Measure.map_map (MeasurableEquiv.measurable _) (measurable_accepted hYm hB j), hal j, hcond,
      ball_accepted r hr.le,
      ← map_cond_equiv _ hsh (ballSet r.center.1 r.center.2.1 r.center.2.2 r.radius)]
    congr 2
    ext q
    simp only [ballSet, Set.mem_preimage, Set.mem_ofPred_eq, MeasurableEquiv.coe_addRight, Prod.fst_add, Prod.snd_add,
      add_sub_cancel_right, sub_zero]

end

/-! ### Examples -/

/-- Five points of a ball. -/
example : ∃ X : Fin 5 → (ℕ → ℝ) → ℝ × ℝ × ℝ, iIndepFun X (Measure.infinitePi fun _ : ℕ => unitLaw) :=
  let ⟨X, _, h, _⟩ := (C101_ball uniformDraws_exist ⟨2, (1, 0, 3), (1, 1, 1)⟩ (by norm_num) 5).2
  ⟨X, h⟩

/-- The chance that a point drawn from a 2 by 1 box of height 1 has a negative first
coordinate is one half. -/
example : ∃ X : Fin 1 → (ℕ → ℝ) → ℝ × ℝ × ℝ,
    (Measure.infinitePi fun _ : ℕ => unitLaw) (X 0 ⁻¹' {q | q.1 ≤ 0}) = 1 / 2 := by
  obtain ⟨X, _, _, h⟩ := C101_cuboid uniformDraws_exist ⟨(2, 1, 1), (0, 0, 0), (1, 1, 1)⟩ (by norm_num) (by norm_num)
    (by norm_num) 1
  refine ⟨X, ?_⟩
  have hA : MeasurableSet {q : ℝ × ℝ × ℝ | q.1 ≤ 0} := measurableSet_le measurable_fst measurable_const
  have h0 := h 0
  rw [cuboid_accepted] at h0
  have hae : AEMeasurable (X 0) (Measure.infinitePi fun _ : ℕ => unitLaw) := by
    refine h0.aemeasurable ?_ ?_ <;>
    · rw [Measure.volume_eq_prod, Measure.prod_prod, Measure.volume_eq_prod, Measure.prod_prod]
      norm_num [lowLim, highLim]
  rw [← Measure.map_apply_of_aemeasurable hae hA, h0, cond_apply (measurableSet_Icc.prod (measurableSet_Icc.prod measurableSet_Icc))]
  have : Set.Icc (lowLim 2 (0 : ℝ)) (highLim 2 0) ×ˢ (Set.Icc (lowLim 1 (0 : ℝ)) (highLim 1 0) ×ˢ
      Set.Icc (lowLim 1 (0 : ℝ)) (highLim 1 0)) ∩ {q : ℝ × ℝ × ℝ | q.1 ≤ 0} =
      Set.Icc (-1) 0 ×ˢ (Set.Icc (lowLim 1 (0 : ℝ)) (highLim 1 0) ×ˢ Set.Icc (lowLim 1 (0 : ℝ)) (highLim 1 0)) := by
    ext q
    simp only [Set.mem_inter_iff, Set.mem_prod, Set.mem_Icc, Set.mem_ofPred_eq, lowLim, highLim]
    constructor
    · rintro ⟨⟨⟨h1, h2⟩, h3⟩, h4⟩; exact ⟨⟨by linarith, h4⟩, h3⟩
    · rintro ⟨⟨h1, h2⟩, h3⟩; exact ⟨⟨⟨by linarith, by linarith⟩, h3⟩, h2⟩
  dsimp only
  rw [this]
  simp only [Measure.volume_eq_prod, Measure.prod_prod, Real.volume_Icc]
  norm_num [lowLim, highLim]

end Verif

/-
Uniform distributions: draws from [0,1), affine images, products, polar coordinates,
and independence of variables made from different draws.
-/
import Mathlib.MeasureTheory.Integral.IntervalIntegral.Periodic
import Verif.Lemmas.Volume
import Mathlib.Probability.Distributions.Uniform
import Mathlib.Probability.Independence.Basic
import Mathlib.Analysis.SpecialFunctions.PolarCoord
import Mathlib.MeasureTheory.Function.JacobianOneDim
import Mathlib.MeasureTheory.Group.FundamentalDomain
namespace Verif

open MeasureTheory ProbabilityTheory

/-- Lebesgue measure on [0,1). -/
noncomputable def unitLaw : Measure ℝ := volume.restrict (Set.Ico 0 1)

theorem unitLaw_eq : unitLaw = ProbabilityTheory.cond volume (Set.Ico (0 : ℝ) 1) := by
  unfold unitLaw
  rw [ProbabilityTheory.cond, Real.volume_Ico]
  simp

instance : IsProbabilityMeasure unitLaw := by
  refine ⟨?_⟩
  rw [unitLaw, Measure.restrict_apply MeasurableSet.univ, Set.univ_inter, Real.volume_Ico]
  simp

/-! ### Independence -/

section
variable {Ω ι E : Type*} [MeasurableSpace Ω] [MeasurableSpace E] {P : Measure Ω}

theorem iIndepFun_blocks [DecidableEq ι] (U : ℕ → Ω → ℝ) (hm : ∀ k, Measurable (U k)) (hU : iIndepFun U P)
    (J : ι → Finset ℕ) (hJ : ∀ i j, i ≠ j → Disjoint (J i) (J j))
    (G : (i : ι) → (J i → ℝ) → E) (hG : ∀ i, Measurable (G i)) :
    iIndepFun (fun i ω => G i fun k => U k ω) P := by
  have hP : IsProbabilityMeasure P := hU.isProbabilityMeasure
  rw [iIndepFun_iff_measure_inter_preimage_eq_mul]
  intro S sets hsets
  induction S using Finset.induction_on with
  | empty => simp
  | insert a S ha ih =>
    have ih' := ih fun i hi => hsets i (Finset.mem_insert_of_mem hi)
    have hd : Disjoint (J a) (S.biUnion J) := by
      rw [Finset.disjoint_biUnion_right]
      intro i hi
      exact hJ a i (by rintro rfl; exact ha hi)
    have hind := hU.indepFun_finset (J a) (S.biUnion J) hd hm
    have hsub : ∀ i ∈ S, ∀ k ∈ J i, k ∈ S.biUnion J := fun i hi k hk => Finset.mem_biUnion.2 ⟨i, hi, hk⟩
    obtain ⟨D, hD⟩ : ∃ D : Set (S.biUnion J → ℝ), D = ⋂ i : S, (fun y => G i fun k => y ⟨k, hsub i i.2 k k.2⟩) ⁻¹' sets i :=
      ⟨_, rfl⟩
    have hDm : MeasurableSet D := by
      rw [hD]
      refine MeasurableSet.iInter fun i => ?_
      refine ((hG i).comp ?_) (hsets i (Finset.mem_insert_of_mem i.2))
      exact measurable_pi_lambda _ fun k => measurable_pi_apply _
    have hE : (⋂ i ∈ S, (fun ω => G i fun k => U k ω) ⁻¹' sets i) =
        (fun ω (k : S.biUnion J) => U k ω) ⁻¹' D := by
      ext ω
      rw [hD]
      simp
    have hA : ((fun ω => G a fun k => U k ω) ⁻¹' sets a) =
        (fun ω (k : J a) => U k ω) ⁻¹' (G a ⁻¹' sets a) := rfl
    rw [Finset.set_biInter_insert, Finset.prod_insert ha, ← ih', hE, hA]
    exact hind.measure_inter_preimage_eq_mul _ _ ((hG a) (hsets a (Finset.mem_insert_self a S))) hDm

end

/-! ### Laws -/

theorem map_pair {Ω : Type*} [MeasurableSpace Ω] {P : Measure Ω} {U : ℕ → Ω → ℝ} (hm : ∀ k, Measurable (U k))
    (hU : iIndepFun U P) (hl : ∀ k, P.map (U k) = unitLaw) {a b : ℕ} (h : a ≠ b) :
    P.map (fun ω => (U a ω, U b ω)) = unitLaw.prod unitLaw := by
  have := hU.isProbabilityMeasure
  rw [(indepFun_iff_map_prod_eq_prod_map_map (hm a).aemeasurable (hm b).aemeasurable).1 (hU.indepFun h), hl, hl]

theorem map_triple {Ω : Type*} [MeasurableSpace Ω] {P : Measure Ω} {U : ℕ → Ω → ℝ} (hm : ∀ k, Measurable (U k))
    (hU : iIndepFun U P) (hl : ∀ k, P.map (U k) = unitLaw) {a b c : ℕ} (h : a ≠ b) (h' : a ≠ c) (h'' : b ≠ c) :
    P.map (fun ω => ((U a ω, U b ω), U c ω)) = (unitLaw.prod unitLaw).prod unitLaw := by
  have := hU.isProbabilityMeasure
  rw [(indepFun_iff_map_prod_eq_prod_map_map ((hm a).prodMk (hm b)).aemeasurable (hm c).aemeasurable).1
    (hU.indepFun_prodMk hm a b c h' h''), map_pair hm hU hl h, hl]

/-- Products of uniform distributions. -/
theorem cond_prod {α β : Type*} [MeasurableSpace α] [MeasurableSpace β] (μ : Measure α) (ν : Measure β) [SFinite μ]
    [SFinite ν] {s : Set α} {t : Set β} (hs : μ s ≠ 0) (hs' : μ s ≠ ⊤) :
    (ProbabilityTheory.cond μ s).prod (ProbabilityTheory.cond ν t) = ProbabilityTheory.cond (μ.prod ν) (s ×ˢ t) := by
  unfold ProbabilityTheory.cond
  rw [Measure.prod_smul_left, Measure.prod_smul_right, Measure.prod_restrict, Measure.prod_prod, smul_smul,
    ENNReal.mul_inv (Or.inl hs) (Or.inl hs')]

/-- An affine image of the uniform distribution. -/
theorem map_uniform (lo hi : ℝ) (h : lo < hi) :
    unitLaw.map (fun u => uniform lo hi u) = ProbabilityTheory.cond volume (Set.Icc lo hi) := by
  ext A hA
  have hmeas : Measurable fun u : ℝ => uniform lo hi u := by unfold uniform; fun_prop
  rw [Measure.map_apply hmeas hA, unitLaw, Measure.restrict_apply (hmeas hA), cond_apply measurableSet_Icc,
    Real.volume_Icc]
  have hpos : 0 < hi - lo := by linarith
  have hpre : (fun u => uniform lo hi u) ⁻¹' A ∩ Set.Ico 0 1 = (fun u => (hi - lo) * u) ⁻¹'
      ((fun x => lo + x) ⁻¹' (A ∩ Set.Ico lo hi)) := by
    ext u
    simp only [Set.mem_inter_iff, Set.mem_preimage, uniform, Set.mem_Ico]
    refine and_congr_right fun _ => ?_
    constructor
    · rintro ⟨h1, h2⟩; constructor <;> nlinarith
    · rintro ⟨h1, h2⟩; constructor <;> by_contra hc <;> nlinarith
  rw [hpre, Real.volume_preimage_mul_left hpos.ne', measure_preimage_add, abs_inv, abs_of_pos hpos,
    ENNReal.ofReal_inv_of_pos hpos]
  congr 1
  rw [Set.inter_comm]
  exact measure_congr ((ae_eq_refl _ : A =ᵐ[volume] A) |> fun hAA => (Ico_ae_eq_Icc).inter hAA)

/-! ### Polar coordinates -/

/-- The point of a disc of radius `R` around the origin made from two draws. -/
noncomputable def polarPoint (R : ℝ) (p : ℝ × ℝ) : ℝ × ℝ :=
  (R * √p.1 * Real.cos (2 * Real.pi * p.2), R * √p.1 * Real.sin (2 * Real.pi * p.2))

theorem measurable_polarPoint (R : ℝ) : Measurable (polarPoint R) := by
  unfold polarPoint
  fun_prop

/-- The integral over the radii at a fixed angle. -/
noncomputable def rayIntegral (R : ℝ) (f : ℝ × ℝ → ENNReal) (θ : ℝ) : ENNReal :=
  ∫⁻ r in Set.Ioo 0 R, ENNReal.ofReal r * f (r * Real.cos θ, r * Real.sin θ)

theorem radius_subst (R : ℝ) (hR : 0 < R) (f : ℝ × ℝ → ENNReal) (θ : ℝ) :
    ∫⁻ u in Set.Ico 0 1, f (R * √u * Real.cos θ, R * √u * Real.sin θ) =
      ENNReal.ofReal (2 / R ^ 2) * rayIntegral R f θ := by
  rw [setLIntegral_congr (Ioo_ae_eq_Ico (a := (0 : ℝ)) (b := 1)).symm]
  have himg : (fun r : ℝ => (r / R) ^ 2) '' Set.Ioo 0 R = Set.Ioo 0 1 := by
    ext u
    simp only [Set.mem_image, Set.mem_Ioo]
    constructor
    · rintro ⟨r, ⟨h1, h2⟩, rfl⟩
      have h3 : 0 < r / R := div_pos h1 hR
      have h4 : r / R < 1 := (div_lt_one hR).2 h2
      exact ⟨by positivity, by nlinarith⟩
    · rintro ⟨h1, h2⟩
      refine ⟨R * √u, ⟨by positivity, ?_⟩, ?_⟩
      · have : √u < 1 := by rw [Real.sqrt_lt' one_pos]; linarith
        nlinarith
      · rw [mul_div_cancel_left₀ _ hR.ne', Real.sq_sqrt h1.le]
  have hder : ∀ x ∈ Set.Ioo 0 R, HasDerivWithinAt (fun r : ℝ => (r / R) ^ 2) (2 * x / R ^ 2) (Set.Ioo 0 R) x := by
    intro x _
    have h1 : HasDerivAt (fun r : ℝ => (r / R) ^ 2) (2 * (x / R) ^ 1 * (1 / R)) x := by
      simpa using ((hasDerivAt_id x).div_const R).fun_pow 2
    have : 2 * (x / R) ^ 1 * (1 / R) = 2 * x / R ^ 2 := by field_simp
    rw [this] at h1
    exact h1.hasDerivWithinAt
  have hinj : Set.InjOn (fun r : ℝ => (r / R) ^ 2) (Set.Ioo 0 R) := by
    intro a ha b hb hab
    have h1 : 0 < a / R := div_pos ha.1 hR
    have h2 : 0 < b / R := div_pos hb.1 hR
    have h3 : a / R = b / R := by
      have := (sq_eq_sq₀ h1.le h2.le).1 hab
      exact this
    exact (div_left_inj' hR.ne').1 h3
  rw [← himg, lintegral_image_eq_lintegral_abs_deriv_mul measurableSet_Ioo hder hinj, rayIntegral,
    ← lintegral_const_mul']
  · refine setLIntegral_congr_fun measurableSet_Ioo fun r hr => ?_
    have hr0 : 0 < r / R := div_pos hr.1 hR
    have h1 : R * √((r / R) ^ 2) = r := by
      rw [Real.sqrt_sq hr0.le]; field_simp
    have h2 : |2 * r / R ^ 2| = 2 / R ^ 2 * r := by
      rw [abs_of_pos (by have := hr.1; positivity)]; ring
    rw [h1, h2, ENNReal.ofReal_mul (by positivity), mul_assoc]
  · exact ENNReal.ofReal_ne_top

theorem angle_subst (H : ℝ → ENNReal) (hH : ∀ θ, H (θ + 2 * Real.pi) = H θ) :
    ∫⁻ v in Set.Ico 0 1, H (2 * Real.pi * v) =
      ENNReal.ofReal (1 / (2 * Real.pi)) * ∫⁻ θ in Set.Ioo (-Real.pi) Real.pi, H θ := by
  have hpi : 0 < 2 * Real.pi := by positivity
  have himg : (fun θ : ℝ => θ / (2 * Real.pi)) '' Set.Ico 0 (2 * Real.pi) = Set.Ico 0 1 := by
    ext v
    simp only [Set.mem_image, Set.mem_Ico]
    constructor
    · rintro ⟨θ, ⟨h1, h2⟩, rfl⟩
      exact ⟨by positivity, (div_lt_one hpi).2 h2⟩
    · rintro ⟨h1, h2⟩
      exact ⟨2 * Real.pi * v, ⟨by positivity, by nlinarith⟩, by field_simp⟩
  have hder : ∀ x ∈ Set.Ico 0 (2 * Real.pi), HasDerivWithinAt (fun θ : ℝ => θ / (2 * Real.pi)) (1 / (2 * Real.pi))
      (Set.Ico 0 (2 * Real.pi)) x := fun x _ => ((hasDerivAt_id x).div_const _).hasDerivWithinAt
  have hinj : Set.InjOn (fun θ : ℝ => θ / (2 * Real.pi)) (Set.Ico 0 (2 * Real.pi)) :=
    fun a _ b _ hab => (div_left_inj' hpi.ne').1 hab
  rw [← himg, lintegral_image_eq_lintegral_abs_deriv_mul measurableSet_Ico hder hinj, abs_of_pos (by positivity),
    lintegral_const_mul' _ _ ENNReal.ofReal_ne_top]
  congr 1
  have h1 : ∫⁻ θ in Set.Ico 0 (2 * Real.pi), H (2 * Real.pi * (θ / (2 * Real.pi))) = ∫⁻ θ in Set.Ioc 0 (0 + 2 * Real.pi), H θ := by
    rw [zero_add, setLIntegral_congr Ico_ae_eq_Ioc]
    refine lintegral_congr fun θ => ?_
    congr 1
    field_simp
  rw [h1, setLIntegral_congr (Ioo_ae_eq_Ioc (a := -Real.pi) (b := Real.pi))]
  have h2 : Set.Ioc (-Real.pi) Real.pi = Set.Ioc (-Real.pi) (-Real.pi + 2 * Real.pi) := by
    congr 1; ring
  rw [h2]
  refine (isAddFundamentalDomain_Ioc hpi 0).setLIntegral_eq (isAddFundamentalDomain_Ioc hpi (-Real.pi)) H ?_
  rintro ⟨g, hg⟩ x
  obtain ⟨k, rfl⟩ := AddSubgroup.mem_zmultiples_iff.1 hg
  have hper : Function.Periodic H (2 * Real.pi) := hH
  have := hper.zsmul k x
  simp only [AddSubgroup.mk_vadd, vadd_eq_add]
  rw [add_comm]
  exact this

theorem polar_integral (R : ℝ) (hR : 0 < R) (A : Set (ℝ × ℝ)) (hA : MeasurableSet A) :
    volume (A ∩ discSet 0 0 R) =
      ∫⁻ θ in Set.Ioo (-Real.pi) Real.pi, rayIntegral R (A.indicator fun _ => 1) θ := by
  have hm : MeasurableSet (A ∩ discSet 0 0 R) := hA.inter (measurableSet_discSet 0 0 R)
  rw [← lintegral_indicator_one hm, ← lintegral_comp_polarCoord_symm, polarCoord_target,
    Measure.volume_eq_prod, ← Measure.prod_restrict, lintegral_prod_symm]
  · refine lintegral_congr fun θ => ?_
    unfold rayIntegral
    rw [setLIntegral_congr (Ioo_ae_eq_Ioc (a := (0 : ℝ)) (b := R)), ← Set.Ioi_inter_Iic, Set.inter_comm (Set.Ioi 0) (Set.Iic R),
      ← Measure.restrict_restrict measurableSet_Iic, ← lintegral_indicator measurableSet_Iic]
    refine setLIntegral_congr_fun measurableSet_Ioi fun r hr => ?_
    have hr0 : (0 : ℝ) < r := hr
    dsimp only
    rw [polarCoord_symm_apply]
    dsimp only
    have hmem : ((r * Real.cos θ, r * Real.sin θ) : ℝ × ℝ) ∈ discSet 0 0 R ↔ r ≤ R := by
      simp only [discSet, Set.mem_ofPred_eq, sub_zero]
      have : (r * Real.cos θ) ^ 2 + (r * Real.sin θ) ^ 2 = r ^ 2 := by
        have := Real.sin_sq_add_cos_sq θ
        nlinarith
      rw [this, sq_le_sq₀ hr0.le hR.le]
    by_cases h : r ≤ R
    · rw [Set.indicator_of_mem (Set.mem_Iic.2 h), smul_eq_mul]
      congr 1
      by_cases ha : ((r * Real.cos θ, r * Real.sin θ) : ℝ × ℝ) ∈ A
      · rw [Set.indicator_of_mem (show _ ∈ A ∩ discSet 0 0 R from ⟨ha, hmem.2 h⟩), Set.indicator_of_mem ha]; rfl
      · rw [Set.indicator_of_notMem (show _ ∉ A ∩ discSet 0 0 R from fun hh => ha hh.1), Set.indicator_of_notMem ha]
    · rw [Set.indicator_of_notMem (show r ∉ Set.Iic R from fun hh => h hh),
        Set.indicator_of_notMem (show _ ∉ A ∩ discSet 0 0 R from fun hh => h (hmem.1 hh.2)), smul_zero]
  · refine Measurable.aemeasurable ?_
    refine (ENNReal.measurable_ofReal.comp measurable_fst).smul ?_
    refine (measurable_const.indicator hm).comp ?_
    exact continuous_polarCoord_symm.measurable

/-- Two draws give a uniformly distributed point of the disc. -/
theorem map_polarPoint (R : ℝ) (hR : 0 < R) :
    (unitLaw.prod unitLaw).map (polarPoint R) = ProbabilityTheory.cond volume (discSet 0 0 R) := by
  ext A hA
  rw [Measure.map_apply (measurable_polarPoint R) hA, cond_apply (measurableSet_discSet 0 0 R),
    volume_discSet 0 0 R hR.le, Set.inter_comm, polar_integral R hR A hA,
    ← lintegral_indicator_one (measurable_polarPoint R hA), lintegral_prod_symm]
  · have h1 : ∀ v : ℝ, ∫⁻ u, (polarPoint R ⁻¹' A).indicator 1 (u, v) ∂unitLaw =
        ENNReal.ofReal (2 / R ^ 2) * rayIntegral R (A.indicator fun _ => 1) (2 * Real.pi * v) := by
      intro v
      rw [← radius_subst R hR]
      rfl
    simp_rw [h1]
    rw [lintegral_const_mul' _ _ ENNReal.ofReal_ne_top, unitLaw, angle_subst, ← mul_assoc,
      ← ENNReal.ofReal_mul (by positivity), ← ENNReal.ofReal_inv_of_pos (by positivity)]
    · congr 2
      field_simp
    · intro θ
      simp only [rayIntegral, Real.cos_add_two_pi, Real.sin_add_two_pi]
  · exact (measurable_one.indicator (measurable_polarPoint R hA)).aemeasurable

end Verif

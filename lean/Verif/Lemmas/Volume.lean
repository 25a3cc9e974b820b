/-
Areas and volumes of discs, balls, boxes and cylinders in coordinates.
-/
import Verif.Spec.Region
import Mathlib.MeasureTheory.Measure.Lebesgue.VolumeOfBalls
import Mathlib.MeasureTheory.Measure.Prod
import Mathlib.Analysis.SpecialFunctions.Integrals.Basic
namespace Verif

open MeasureTheory

/-- The points of a disc in coordinates. -/
def discSet (a b R : ℝ) : Set (ℝ × ℝ) := {q | (q.1 - a) ^ 2 + (q.2 - b) ^ 2 ≤ R ^ 2}

theorem measurableSet_discSet (a b R : ℝ) : MeasurableSet (discSet a b R) := by
  unfold discSet
  exact measurableSet_le (by fun_prop) (by fun_prop)

theorem volume_discSet (a b R : ℝ) (hR : 0 ≤ R) : volume (discSet a b R) = ENNReal.ofReal (R ^ 2 * Real.pi) := by
  have h := Complex.volume_preserving_equiv_real_prod.measure_preimage
    (measurableSet_discSet a b R).nullMeasurableSet
  have hpre : Complex.measurableEquivRealProd ⁻¹' discSet a b R = Metric.closedBall (⟨a, b⟩ : ℂ) R := by
    ext z
    simp only [Set.mem_preimage, Complex.measurableEquivRealProd_apply, discSet, Set.mem_ofPred_eq, Metric.mem_closedBall,
      Complex.dist_eq_re_im]
    rw [Real.sqrt_le_left hR]
  rw [hpre, Complex.volume_closedBall] at h
  rw [← h, ENNReal.ofReal_mul (by positivity), ENNReal.ofReal_pow hR]
  congr 1
  rw [← NNReal.coe_real_pi, ENNReal.ofReal_coe_nnreal]

/-- The points of a ball in coordinates. -/
def ballSet (a b c R : ℝ) : Set (ℝ × ℝ × ℝ) := {q | (q.1 - a) ^ 2 + (q.2.1 - b) ^ 2 + (q.2.2 - c) ^ 2 ≤ R ^ 2}

theorem measurableSet_ballSet (a b c R : ℝ) : MeasurableSet (ballSet a b c R) := by
  unfold ballSet
  exact measurableSet_le (by fun_prop) (by fun_prop)

theorem volume_ballSet (a b c R : ℝ) (hR : 0 ≤ R) :
    volume (ballSet a b c R) = ENNReal.ofReal (4 / 3 * R ^ 3 * Real.pi) := by
  rw [Measure.volume_eq_prod, Measure.prod_apply (measurableSet_ballSet a b c R)]
  have hs : ∀ x : ℝ, volume (Prod.mk x ⁻¹' ballSet a b c R) =
      (Set.Icc (a - R) (a + R)).indicator (fun x => ENNReal.ofReal ((R ^ 2 - (x - a) ^ 2) * Real.pi)) x := by
    intro x
    by_cases hx : x ∈ Set.Icc (a - R) (a + R)
    · have h0 : 0 ≤ R ^ 2 - (x - a) ^ 2 := by nlinarith [hx.1, hx.2]
      have : Prod.mk x ⁻¹' ballSet a b c R = discSet b c (√(R ^ 2 - (x - a) ^ 2)) := by
        ext q
        simp only [Set.mem_preimage, ballSet, discSet, Set.mem_ofPred_eq, Real.sq_sqrt h0]
        constructor <;> intro h <;> linarith
      rw [this, volume_discSet _ _ _ (Real.sqrt_nonneg _), Real.sq_sqrt h0, Set.indicator_of_mem hx]
    · have : Prod.mk x ⁻¹' ballSet a b c R = ∅ := by
        ext q
        simp only [Set.mem_preimage, ballSet, Set.mem_ofPred_eq, Set.mem_empty_iff_false, iff_false, not_le]
        rw [Set.mem_Icc, not_and_or, not_le, not_le] at hx
        rcases hx with hx | hx <;> nlinarith [sq_nonneg (q.1 - b), sq_nonneg (q.2 - c)]
      rw [this, measure_empty, Set.indicator_of_notMem hx]
  simp_rw [hs]
  rw [lintegral_indicator measurableSet_Icc, ← ofReal_integral_eq_lintegral_ofReal]
  · congr 1
    rw [integral_Icc_eq_integral_Ioc, ← intervalIntegral.integral_of_le (by linarith),
      intervalIntegral.integral_comp_sub_right (fun y => (R ^ 2 - y ^ 2) * Real.pi) a]
    rw [intervalIntegral.integral_mul_const, intervalIntegral.integral_sub (by simp) (by simp)]
    simp only [intervalIntegral.integral_const, integral_pow, smul_eq_mul]
    ring
  · exact (Continuous.integrableOn_Icc (by fun_prop))
  · filter_upwards [ae_restrict_mem measurableSet_Icc] with x hx
    have h0 : 0 ≤ R ^ 2 - (x - a) ^ 2 := by nlinarith [hx.1, hx.2]
    exact mul_nonneg h0 Real.pi_pos.le

end Verif

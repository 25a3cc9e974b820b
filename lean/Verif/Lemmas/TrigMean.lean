/-
Means of cosines: over a uniformly distributed phase, and over time.
-/
import Verif.Lemmas.Uniform
import Mathlib.Analysis.SpecialFunctions.Integrals.Basic
import Mathlib.Analysis.SpecificLimits.Basic
namespace Verif

open MeasureTheory

/-! ### Over the phase -/

theorem integral_unitLaw (f : ℝ → ℝ) : ∫ u, f u ∂unitLaw = ∫ u in (0 : ℝ)..1, f u := by
  rw [unitLaw, intervalIntegral.integral_of_le zero_le_one, ← integral_Ico_eq_integral_Ioc]

theorem integral_cos_phase (a : ℝ) (n : ℕ) (hn : n ≠ 0) :
    ∫ u in (0 : ℝ)..1, Real.cos (a + 2 * Real.pi * n * u) = 0 := by
  have hc : 2 * Real.pi * n ≠ 0 := by
    have := Real.pi_ne_zero
    have : (n : ℝ) ≠ 0 := by exact_mod_cast hn
    positivity
  rw [intervalIntegral.integral_comp_add_mul (fun x => Real.cos x) hc, integral_cos]
  have : a + 2 * Real.pi * n * 1 = a + 2 * Real.pi * n * 0 + n * (2 * Real.pi) := by ring
  rw [this, Real.sin_add_nat_mul_two_pi]
  simp

theorem mean_cos (a : ℝ) : ∫ u, Real.cos (a + 2 * Real.pi * u) ∂unitLaw = 0 := by
  rw [integral_unitLaw]
  simpa using integral_cos_phase a 1 one_ne_zero

theorem mean_cos_sq (a : ℝ) : ∫ u, Real.cos (a + 2 * Real.pi * u) ^ 2 ∂unitLaw = 1 / 2 := by
  rw [integral_unitLaw]
  have e : ∀ u : ℝ, Real.cos (a + 2 * Real.pi * u) ^ 2 =
      1 / 2 + 1 / 2 * Real.cos (2 * a + 2 * Real.pi * (2 : ℕ) * u) := by
    intro u
    rw [Real.cos_sq]
    push_cast
    ring_nf
  simp only [e]
  rw [intervalIntegral.integral_add (by simp) (Continuous.intervalIntegrable (by fun_prop) _ _),
    intervalIntegral.integral_const_mul, integral_cos_phase _ 2 two_ne_zero]
  simp

/-! ### Over time -/

theorem cos_sum_bound (a b : ℝ) (N : ℕ) :
    |Real.sin (a / 2)| * |∑ k ∈ Finset.range N, Real.cos (a * k + b)| ≤ 1 := by
  have tele : 2 * Real.sin (a / 2) * ∑ k ∈ Finset.range N, Real.cos (a * k + b) =
      Real.sin (a * N + b - a / 2) - Real.sin (b - a / 2) := by
    induction N with
    | zero => simp
    | succ N ih =>
      rw [Finset.sum_range_succ, mul_add, ih]
      have h : 2 * Real.sin (a / 2) * Real.cos (a * N + b) =
          Real.sin (a * N + b + a / 2) - Real.sin (a * N + b - a / 2) := by
        rw [Real.sin_add, Real.sin_sub]
        ring
      rw [h]
      have : a * ((N + 1 : ℕ) : ℝ) + b - a / 2 = a * N + b + a / 2 := by push_cast; ring
      rw [this]
      ring
  have h2 : |2 * Real.sin (a / 2) * ∑ k ∈ Finset.range N, Real.cos (a * k + b)| ≤ 2 := by
    rw [tele]
    calc _ ≤ |Real.sin (a * N + b - a / 2)| + |Real.sin (b - a / 2)| := abs_sub _ _
      _ ≤ 1 + 1 := add_le_add (Real.abs_sin_le_one _) (Real.abs_sin_le_one _)
      _ = 2 := by norm_num
  rw [abs_mul, abs_mul, abs_two] at h2
  linarith

theorem cos_sum_le {a : ℝ} (ha : Real.sin (a / 2) ≠ 0) (b : ℝ) (N : ℕ) :
    |∑ k ∈ Finset.range N, Real.cos (a * k + b)| ≤ 1 / |Real.sin (a / 2)| := by
  rw [le_div_iff₀ (abs_pos.2 ha), mul_comm]
  exact cos_sum_bound a b N

theorem cos_mean_tendsto {a : ℝ} (ha : Real.sin (a / 2) ≠ 0) (b : ℝ) :
    Filter.Tendsto (fun N : ℕ => (∑ k ∈ Finset.range N, Real.cos (a * k + b)) / N) Filter.atTop (nhds 0) := by
  refine squeeze_zero_norm (a := fun N : ℕ => (1 / |Real.sin (a / 2)|) / N) (fun N => ?_) ?_
  · rw [Real.norm_eq_abs, abs_div, abs_of_nonneg (a := (N : ℝ)) (Nat.cast_nonneg N)]
    exact div_le_div_of_nonneg_right (cos_sum_le ha b N) (Nat.cast_nonneg N)
  · exact tendsto_const_div_atTop_nhds_zero_nat _

end Verif

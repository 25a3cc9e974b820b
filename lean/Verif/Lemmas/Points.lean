/-
Lemmas about polar coordinates, angles and floating-point remainders.
-/
import Verif.Spec.Points
import Mathlib.Tactic.Linarith
import Mathlib.Tactic.Ring
import Mathlib.Tactic.FieldSimp
import Mathlib.Tactic.Positivity
namespace Verif

theorem norm_mk (x y : ℝ) : ‖(⟨x, y⟩ : ℂ)‖ = √(x ^ 2 + y ^ 2) := by
  rw [Complex.norm_def, Complex.normSq_mk]; congr 1; ring

theorem hypot_cos (x y : ℝ) : √(x ^ 2 + y ^ 2) * Real.cos (arctan2 y x) = x := by
  have := Complex.norm_mul_cos_arg ⟨x, y⟩
  rwa [norm_mk] at this

theorem hypot_sin (x y : ℝ) : √(x ^ 2 + y ^ 2) * Real.sin (arctan2 y x) = y := by
  have := Complex.norm_mul_sin_arg ⟨x, y⟩
  rwa [norm_mk] at this

theorem arctan2_polar (r θ : ℝ) (hr : 0 < r) (h1 : -Real.pi < θ) (h2 : θ ≤ Real.pi) :
    arctan2 (r * Real.sin θ) (r * Real.cos θ) = θ := by
  have h := Complex.arg_mul_cos_add_sin_mul_I hr (θ := θ) ⟨h1, h2⟩
  have e : (⟨r * Real.cos θ, r * Real.sin θ⟩ : ℂ) = (r : ℂ) * (Complex.cos θ + Complex.sin θ * Complex.I) := by
    apply Complex.ext <;>
      simp [Complex.cos_ofReal_re, Complex.sin_ofReal_re, Complex.cos_ofReal_im, Complex.sin_ofReal_im]
  unfold arctan2; rw [e]; exact h

theorem hypot_polar (r θ : ℝ) (hr : 0 ≤ r) :
    √((r * Real.cos θ) ^ 2 + (r * Real.sin θ) ^ 2) = r := by
  have e : (r * Real.cos θ) ^ 2 + (r * Real.sin θ) ^ 2 = r ^ 2 := by
    have := Real.sin_sq_add_cos_sq θ; nlinarith
  rw [e, Real.sqrt_sq hr]

theorem fmod_spec (a b : ℝ) (hb : 0 < b) : 0 ≤ fmod a b ∧ fmod a b < b := by
  unfold fmod
  have h1 := Int.floor_le (a / b)
  have h2 := Int.lt_floor_add_one (a / b)
  rw [le_div_iff₀ hb] at h1
  rw [div_lt_iff₀ hb] at h2
  constructor <;> nlinarith

theorem fmod_of_lt (a b : ℝ) (h0 : 0 ≤ a) (h : a < b) : fmod a b = a := by
  have hb : 0 < b := lt_of_le_of_lt h0 h
  have : ⌊a / b⌋ = 0 := by
    rw [Int.floor_eq_zero_iff]; exact ⟨by positivity, (div_lt_one hb).2 h⟩
  simp [fmod, this]

theorem fmod_add_nat (a b : ℝ) (hb : 0 < b) (k : Nat) : fmod (a + k * b) b = fmod a b := by
  have : (a + k * b) / b = a / b + (k : ℤ) := by
    have hb' := hb.ne'
    push_cast
    field_simp
  unfold fmod
  rw [this, Int.floor_add_intCast]; push_cast; ring

theorem cos_fmod (a : ℝ) : Real.cos (fmod a (2 * Real.pi)) = Real.cos a := by
  unfold fmod
  rw [show a - 2 * Real.pi * ⌊a / (2 * Real.pi)⌋ = a - ⌊a / (2 * Real.pi)⌋ * (2 * Real.pi) by ring]
  exact Real.cos_sub_int_mul_two_pi _ _

theorem sin_fmod (a : ℝ) : Real.sin (fmod a (2 * Real.pi)) = Real.sin a := by
  unfold fmod
  rw [show a - 2 * Real.pi * ⌊a / (2 * Real.pi)⌋ = a - ⌊a / (2 * Real.pi)⌋ * (2 * Real.pi) by ring]
  exact Real.sin_sub_int_mul_two_pi _ _

theorem uniform_within (radius : Radius) (hr : radius.pair.1 ≤ radius.pair.2) (u : ℝ) (h0 : 0 ≤ u) (h1 : u < 1) :
    radius.Within (uniform radius.pair.1 radius.pair.2 u) := by
  cases radius with
  | one r => simp [Radius.Within, Radius.pair, uniform]
  | range a b =>
    simp only [Radius.pair] at hr
    simp only [Radius.Within, Radius.pair, uniform]
    constructor <;> nlinarith

end Verif

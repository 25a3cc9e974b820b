/-
C102: the samples of noise and sine sources have the requested power.
C103: sources with different generators are independent.
-/
import Verif.Lemmas.SourcePower
import Verif.Lemmas.TrigMean
import Verif.Props.RegionUniform
import Mathlib.Probability.Distributions.Gaussian.Real
import Mathlib.Probability.Independence.Integration
import Mathlib.Probability.StrongLaw
namespace Verif

open MeasureTheory ProbabilityTheory

/-- A random generator: the standard normal numbers it yields are independent. -/
structure NormalDraws {Ω : Type} [MeasurableSpace Ω] (P : Measure Ω) (Z : ℕ → Ω → ℝ) : Prop where
  meas : ∀ k, Measurable (Z k)
  indep : iIndepFun Z P
  normal : ∀ k, P.map (Z k) = gaussianReal 0 1

/-- Such generators exist. -/
theorem normalDraws_exist : NormalDraws (Measure.infinitePi fun _ : ℕ => gaussianReal 0 1) fun k ω => ω k := by
  refine ⟨fun k => measurable_pi_apply k, ?_, fun k => ?_⟩
  · exact iIndepFun_infinitePi (P := fun _ : ℕ => gaussianReal 0 1) (X := fun _ x => x) fun _ => measurable_id
  · exact Measure.infinitePi_map_eval (fun _ : ℕ => gaussianReal 0 1) k

/-- The power that the argument `power` of a source with `ch` channels gives to channel `c`:
the number, the only entry, or the entry of the channel. -/
def GivesPower (power : PowerArg) (ch c : ℕ) (p : ℝ) : Prop :=
  power = .num p ∨ power = .vec [p] ∨ ∃ l, power = .vec l ∧ l.length = ch ∧ l[c]? = some p

theorem whiteStd_of_gives {power : PowerArg} {ch : ℕ} (pw : ℕ → ℝ) (hch : 0 < ch)
    (h : ∀ c, c < ch → GivesPower power ch c (pw c)) :
    ∃ std, whiteStd ch power = some std ∧ ∀ c, c < ch → std c = Real.sqrt (pw c) := by
  cases power with
  | num p =>
    refine ⟨fun _ => Real.sqrt p, rfl, fun c hc => ?_⟩
    rcases h c hc with h1 | h1 | ⟨l, h1, -⟩ <;> simp_all
  | vec l =>
    rcases l with - | ⟨p, - | ⟨q, l⟩⟩
    · rcases h 0 hch with h1 | h1 | ⟨l, h1, h2, -⟩
      · cases h1
      · cases h1
      · cases h1; simp at h2; omega
    · refine ⟨fun _ => Real.sqrt p, rfl, fun c hc => ?_⟩
      rcases h c hc with h1 | h1 | ⟨l, h1, h2, h3⟩
      · cases h1
      · cases h1; rfl
      · cases h1
        simp only [List.length_cons, List.length_nil] at h2
        have : c = 0 := by omega
        subst this
        simp at h3
        rw [h3]
    · have hl : (p :: q :: l).length = ch := by
        rcases h 0 hch with h1 | h1 | ⟨l, h1, h2, -⟩
        · cases h1
        · cases h1
        · cases h1; exact h2
      refine ⟨fun c => Real.sqrt ((p :: q :: l).getD c 0), ?_, fun c hc => ?_⟩
      · rw [whiteStd, if_pos hl]
        simp
      · rcases h c hc with h1 | h1 | ⟨l, h1, h2, h3⟩
        · cases h1
        · cases h1
        · cases h1
          dsimp only
          rw [List.getD_eq_getElem?_getD, h3]
          rfl

theorem whiteObj_create {seeded : ℕ → ℕ → ℝ} {power : PowerArg} {ch : ℕ} (hch : 0 < ch) (pw : ℕ → ℝ)
    (h : ∀ c, c < ch → GivesPower power ch c (pw c)) (rng : Option (Rng ℝ)) :
    WhiteObj.create seeded ch power rng = .ok ⟨ch, power, sourceRng seeded rng⟩ := by
  unfold WhiteObj.create WhiteObj.setPower
  cases power with
  | num p => rfl
  | vec l =>
    have : l.length = ch ∨ l.length = 1 := by
      rcases h 0 hch with h1 | h1 | ⟨l, h1, h2, -⟩
      · cases h1
      · cases h1; right; rfl
      · cases h1; left; exact h2
    simp only [if_pos this]

section
variable {Ω : Type} [MeasurableSpace Ω] {P : Measure Ω} {Z U : ℕ → Ω → ℝ}

/-- **C102** Given a generator of independent standard normal numbers, all samples of all
channels of a white noise source are independent, and each is normally distributed with
mean 0 and the power of its channel as variance; in particular its expected square is that
power.  The samples do not depend on how they are requested. -/
theorem C102_white (h : NormalDraws P Z) (seeded : ℕ → ℕ → ℝ) (ch pos : ℕ) (hch : 0 < ch) (power : PowerArg) (pw : ℕ → ℝ)
    (hp : ∀ c, c < ch → GivesPower power ch c (pw c) ∧ 0 ≤ pw c) :
    ∃ X : ℕ → ℕ → Ω → ℝ,
      (∀ ω, ∃ s, WhiteObj.create seeded ch power (some ⟨fun k => Z k ω, pos⟩) = .ok s ∧
        IsStream WhiteObj.get s ch fun c k => X c k ω) ∧
      iIndepFun (fun q : Fin ch × ℕ => X q.1 q.2) P ∧
      ∀ c k, c < ch → P.map (X c k) = gaussianReal 0 (pw c).toNNReal ∧ ∫ ω, X c k ω ^ 2 ∂P = pw c := by
  obtain ⟨std, hs, hstd⟩ := whiteStd_of_gives pw hch fun c hc => (hp c hc).1
  refine ⟨fun c k ω => std c * Z (pos + (k * ch + c)) ω, fun ω => ⟨_, whiteObj_create hch pw (fun c hc => (hp c hc).1) _,
    whiteObj_stream ch power std hs (fun k => Z k ω) pos⟩, ?_, fun c k hc => ?_⟩
  · have hinj : Function.Injective fun q : Fin ch × ℕ => pos + (q.2 * ch + q.1) := by
      rintro ⟨c, k⟩ ⟨c', k'⟩ he
      dsimp only at he
      have he' : k * ch + c = k' * ch + c' := by omega
      have hm := congrArg (· % ch) he'
      simp only [Nat.mul_add_mod_self_right, Nat.mod_eq_of_lt c.2, Nat.mod_eq_of_lt c'.2] at hm
      have hk : k * ch = k' * ch := by omega
      rw [Prod.mk.injEq]
      exact ⟨Fin.ext hm, Nat.eq_of_mul_eq_mul_right hch hk⟩
    exact (h.indep.precomp hinj).comp (fun q x => std q.1 * x) fun q => measurable_const_mul _
  · have hl : P.map (fun ω => std c * Z (pos + (k * ch + c)) ω) = gaussianReal 0 (pw c).toNNReal := by
      have e : (fun ω => std c * Z (pos + (k * ch + c)) ω) = (fun x => std c * x) ∘ Z (pos + (k * ch + c)) := rfl
      rw [e, ← Measure.map_map (measurable_const_mul _) (h.meas _), h.normal, gaussianReal_map_const_mul]
      congr 1
      · simp
      · rw [hstd c hc, mul_one]
        ext
        rw [NNReal.coe_mk, Real.sq_sqrt (hp c hc).2, Real.coe_toNNReal _ (hp c hc).2]
    refine ⟨hl, ?_⟩
    have e : ∫ ω, (std c * Z (pos + (k * ch + c)) ω) ^ 2 ∂P =
        ∫ x, x ^ 2 ∂(P.map fun ω => std c * Z (pos + (k * ch + c)) ω) := by
      rw [integral_map]
      · exact ((h.meas _).const_mul _).aemeasurable
      · exact (measurable_id.pow_const 2).aestronglyMeasurable
    rw [e, hl]
    have := variance_fun_id_gaussianReal (μ := 0) (v := (pw c).toNNReal)
    rw [variance_eq_integral measurable_id'.aemeasurable, integral_id_gaussianReal] at this
    simp only [sub_zero] at this
    rw [this, Real.coe_toNNReal _ (hp c hc).2]

/-- **C102** Over time, the mean square of the first `N` samples of every channel of a white
noise source tends to the power of the channel, with probability 1. -/
theorem C102_white_average (h : NormalDraws P Z) (seeded : ℕ → ℕ → ℝ) (ch pos : ℕ) (hch : 0 < ch) (power : PowerArg)
    (pw : ℕ → ℝ) (hp : ∀ c, c < ch → GivesPower power ch c (pw c) ∧ 0 ≤ pw c) :
    ∀ᵐ ω ∂P, ∃ (s : WhiteObj) (x : ℕ → ℕ → ℝ),
      WhiteObj.create seeded ch power (some ⟨fun k => Z k ω, pos⟩) = .ok s ∧ IsStream WhiteObj.get s ch x ∧
      ∀ c, c < ch → Filter.Tendsto (fun N : ℕ => (∑ k ∈ Finset.range N, x c k ^ 2) / N) Filter.atTop (nhds (pw c)) := by
  obtain ⟨X, h1, h2, h3⟩ := C102_white h seeded ch pos hch power pw hp
  have hP : IsProbabilityMeasure P := h.indep.isProbabilityMeasure
  have hm : ∀ c k, c < ch → AEMeasurable (X c k) P := by
    intro c k hc
    by_contra hn
    have := (h3 c k hc).1
    rw [Measure.map_of_not_aemeasurable hn] at this
    have h0 := congrArg (fun μ : Measure ℝ => μ Set.univ) this
    simp at h0
  have key : ∀ c : Fin ch, ∀ᵐ ω ∂P, Filter.Tendsto (fun N : ℕ => (∑ k ∈ Finset.range N, X c k ω ^ 2) / N) Filter.atTop
      (nhds (pw c)) := by
    intro c
    have hsl := strong_law_ae_real (μ := P) (fun k ω => X c k ω ^ 2) ?_ ?_ ?_
    · simp only [(h3 c 0 c.2).2] at hsl
      exact hsl
    · have hi : Integrable (fun x : ℝ => x ^ 2) (gaussianReal 0 (pw c).toNNReal) := by
        have := (memLp_id_gaussianReal (μ := 0) (v := (pw c).toNNReal) 2).integrable_sq
        simpa using this
      rw [← (h3 c 0 c.2).1] at hi
      exact hi.comp_aemeasurable (hm c 0 c.2)
    · intro i j hij
      have := h2.indepFun (i := (c, i)) (j := (c, j)) (by simpa using hij)
      exact this.comp (measurable_id.pow_const 2) (measurable_id.pow_const 2)
    · intro i
      have : IdentDistrib (X c i) (X c 0) P P := ⟨hm c i c.2, hm c 0 c.2, by rw [(h3 c i c.2).1, (h3 c 0 c.2).1]⟩
      exact this.comp (measurable_id.pow_const 2)
  filter_upwards [ae_all_iff.2 key] with ω hω
  obtain ⟨s, hs1, hs2⟩ := h1 ω
  exact ⟨s, _, hs1, hs2, fun c hc => hω ⟨c, hc⟩⟩

example (c : ℕ) (hc : c < 2) : GivesPower (.vec [3, 5]) 2 c (if c = 0 then 3 else 5) ∧ (0 : ℝ) ≤ if c = 0 then 3 else 5 := by
  have : c = 0 ∨ c = 1 := by omega
  rcases this with rfl | rfl
  · exact ⟨Or.inr (Or.inr ⟨_, rfl, rfl, rfl⟩), by norm_num⟩
  · exact ⟨Or.inr (Or.inr ⟨_, rfl, rfl, rfl⟩), by norm_num⟩

/-! ### Sines -/

theorem mean_of_draw (h : UniformDraws P U) (k : ℕ) (f : ℝ → ℝ) (hf : Measurable f) :
    ∫ ω, f (U k ω) ∂P = ∫ u, f u ∂unitLaw := by
  rw [← h.law k, integral_map (h.meas k).aemeasurable hf.aestronglyMeasurable]

/-- **C102** Given a generator of independent uniform numbers, every sample of a sine source
has expectation 0 and expected square `power`, and the channels are independent. -/
theorem C102_sine (h : UniformDraws P U) (ch : ℕ) (power freq samplerate : ℝ) (hp : 0 ≤ power) :
    ∃ X : ℕ → ℕ → Ω → ℝ,
      (∀ ω, IsStream SineObj.get (SineObj.create ch (.num power) freq samplerate fun k => U k ω) ch fun c k => X c k ω) ∧
      (∀ c k, c < ch → ∫ ω, X c k ω ∂P = 0 ∧ ∫ ω, X c k ω ^ 2 ∂P = power) ∧
      iIndepFun (fun (c : Fin ch) ω (k : ℕ) => X c k ω) P := by
  refine ⟨fun c k ω => Real.sqrt (2 * power) * Real.cos (2 * Real.pi * freq / samplerate * k + 2 * Real.pi * U c ω),
    fun ω => ?_, fun c k hc => ⟨?_, ?_⟩, ?_⟩
  · refine isStream_congr (fun c k hc => ?_) (sineObj_stream ch power freq samplerate fun k => U k ω)
    rw [getD_range_map ch _ _ hc]
    simp [uniform]
  · rw [mean_of_draw h c (fun u => Real.sqrt (2 * power) * Real.cos (2 * Real.pi * freq / samplerate * k + 2 * Real.pi * u))
      (by fun_prop), integral_const_mul, mean_cos, mul_zero]
  · rw [mean_of_draw h c (fun u => (Real.sqrt (2 * power) *
      Real.cos (2 * Real.pi * freq / samplerate * k + 2 * Real.pi * u)) ^ 2) (by fun_prop)]
    simp only [mul_pow]
    rw [integral_const_mul, mean_cos_sq, Real.sq_sqrt (by linarith)]
    ring
  · refine (h.indep.precomp (g := fun c : Fin ch => (c : ℕ)) Fin.val_injective).comp
      (fun _ u (k : ℕ) => Real.sqrt (2 * power) * Real.cos (2 * Real.pi * freq / samplerate * k + 2 * Real.pi * u))
      fun c => measurable_pi_lambda _ fun k => ?_
    fun_prop

example : ∃ (Ω : Type) (_ : MeasurableSpace Ω) (P : Measure Ω) (U : ℕ → Ω → ℝ), UniformDraws P U :=
  ⟨_, _, _, _, uniformDraws_exist⟩

/-- **C102** Each sine source has the requested power over time: if the frequency lies
strictly between 0 and half the samplerate, the mean square of the first `N` samples of every
channel differs from `power` by at most `power / (N sin(2 pi freq / samplerate))`, whatever
the phases. -/
theorem C102_sine_average (ch : ℕ) (power freq samplerate : ℝ) (hp : 0 ≤ power) (hf : 0 < freq)
    (hfs : 2 * freq < samplerate) (u : ℕ → ℝ) :
    ∃ x : ℕ → ℕ → ℝ, IsStream SineObj.get (SineObj.create ch (.num power) freq samplerate u) ch x ∧
      0 < Real.sin (2 * Real.pi * freq / samplerate) ∧
      ∀ c N, c < ch → 0 < N → |(∑ k ∈ Finset.range N, x c k ^ 2) / N - power| ≤
        power / (N * Real.sin (2 * Real.pi * freq / samplerate)) := by
  have hsr : 0 < samplerate := by linarith
  obtain ⟨w, hw⟩ : ∃ w, w = 2 * Real.pi * freq / samplerate := ⟨_, rfl⟩
  have hpi := Real.pi_pos
  have hw0 : 0 < w := by rw [hw]; positivity
  have hw1 : w < Real.pi := by
    rw [hw, div_lt_iff₀ hsr]
    nlinarith
  have hsin := Real.sin_pos_of_pos_of_lt_pi hw0 hw1
  rw [← hw]
  refine ⟨_, sineObj_stream ch power freq samplerate u, hsin, fun c N hc hN => ?_⟩
  obtain ⟨φ, hφ⟩ : ∃ φ, φ = ((List.range ch).map fun c => uniform 0 (2 * Real.pi) (u c)).getD c 0 := ⟨_, rfl⟩
  rw [← hφ, ← hw]
  have e : ∀ k : ℕ, (Real.sqrt (2 * power) * Real.cos (w * k + φ)) ^ 2 =
      power + power * Real.cos (2 * w * k + 2 * φ) := by
    intro k
    rw [mul_pow, Real.sq_sqrt (by linarith), Real.cos_sq]
    ring_nf
  simp only [e]
  rw [Finset.sum_add_distrib, ← Finset.mul_sum, Finset.sum_const, Finset.card_range, nsmul_eq_mul]
  have hN' : (0 : ℝ) < N := by exact_mod_cast hN
  have hb := cos_sum_le (a := 2 * w) (by rw [mul_div_cancel_left₀ _ two_ne_zero]; exact hsin.ne') (2 * φ) N
  rw [mul_div_cancel_left₀ _ two_ne_zero, abs_of_pos hsin] at hb
  have e2 : (N * power + power * ∑ k ∈ Finset.range N, Real.cos (2 * w * k + 2 * φ)) / N - power =
      power * (∑ k ∈ Finset.range N, Real.cos (2 * w * k + 2 * φ)) / N := by
    field_simp
    ring
  rw [e2, abs_div, abs_mul, abs_of_nonneg hp, abs_of_pos hN']
  calc _ ≤ power * (1 / Real.sin w) / N :=
        div_le_div_of_nonneg_right (mul_le_mul_of_nonneg_left hb hp) hN'.le
    _ = power / (N * Real.sin w) := by field_simp

example : (0 : ℝ) < 440 ∧ 2 * 440 < (48000 : ℝ) := by norm_num

/-! ### Several sines -/

theorem multiSine_stream (power samplerate : ℝ) (freqs : List ℝ) (u : ℕ → ℝ) :
    IsStream MultiSineSt.get (MultiSineSt.create power samplerate freqs u) 1 fun _ k =>
      ∑ i : Fin freqs.length, Real.sqrt (2 * power / freqs.length) *
        Real.cos (2 * Real.pi * freqs.get i / samplerate * k + 2 * Real.pi * u i) := by
  refine isStream_congr (fun c k hc => ?_)
    (C34_multisine power samplerate (freqs.zipIdx.map fun q : ℝ × ℕ => (q.1, uniform 0 (2 * Real.pi) (u q.2))))
  rw [List.map_map, zipIdx_map_ofFn, List.sum_ofFn]
  refine Finset.sum_congr rfl fun i _ => ?_
  simp [uniform]

/-- **C102** Given a generator of independent uniform numbers, every sample of a source with
several sines has expectation 0 and expected square `power`. -/
theorem C102_multisine (h : UniformDraws P U) (power samplerate : ℝ) (freqs : List ℝ) (hp : 0 ≤ power) (hf : freqs ≠ []) :
    ∃ X : ℕ → Ω → ℝ,
      (∀ ω, IsStream MultiSineSt.get (MultiSineSt.create power samplerate freqs fun k => U k ω) 1 fun _ k => X k ω) ∧
      ∀ k, ∫ ω, X k ω ∂P = 0 ∧ ∫ ω, X k ω ^ 2 ∂P = power := by
  have hP : IsProbabilityMeasure P := h.indep.isProbabilityMeasure
  refine ⟨fun k ω => _, fun ω => multiSine_stream power samplerate freqs fun k => U k ω, fun k => ?_⟩
  have hn : (0 : ℝ) < freqs.length := by exact_mod_cast List.length_pos_of_ne_nil hf
  obtain ⟨A, hA⟩ : ∃ A, A = Real.sqrt (2 * power / freqs.length) := ⟨_, rfl⟩
  have hA2 : A ^ 2 = 2 * power / freqs.length := by
    rw [hA, Real.sq_sqrt (by positivity)]
  simp only [← hA]
  obtain ⟨g, hg⟩ : ∃ g : Fin freqs.length → ℝ → ℝ, g = fun i u =>
      A * Real.cos (2 * Real.pi * freqs.get i / samplerate * k + 2 * Real.pi * u) := ⟨_, rfl⟩
  have hgm : ∀ i, Measurable (g i) := by intro i; rw [hg]; fun_prop
  have e : ∀ (i : Fin freqs.length) ω, A * Real.cos (2 * Real.pi * freqs.get i / samplerate * k + 2 * Real.pi * U i ω) = g i (U i ω) := by
    intro i ω; rw [hg]
  simp only [e]
  have hb : ∀ i u, ‖g i u‖ ≤ |A| := by
    intro i u
    rw [hg, Real.norm_eq_abs, abs_mul]
    exact mul_le_of_le_one_right (abs_nonneg _) (Real.abs_cos_le_one _)
  have hmean : ∀ i : Fin freqs.length, ∫ ω, g i (U i ω) ∂P = 0 := by
    intro i
    rw [mean_of_draw h i (g i) (hgm i), hg]
    dsimp only
    rw [integral_const_mul, mean_cos, mul_zero]
  have hsq : ∀ i : Fin freqs.length, ∫ ω, g i (U i ω) * g i (U i ω) ∂P = A ^ 2 / 2 := by
    intro i
    rw [mean_of_draw h i (fun u => g i u * g i u) ((hgm i).mul (hgm i)), hg]
    have e3 : ∀ u, A * Real.cos (2 * Real.pi * freqs.get i / samplerate * k + 2 * Real.pi * u) *
        (A * Real.cos (2 * Real.pi * freqs.get i / samplerate * k + 2 * Real.pi * u)) =
        A ^ 2 * Real.cos (2 * Real.pi * freqs.get i / samplerate * k + 2 * Real.pi * u) ^ 2 := by intro u; ring
    simp only [e3]
    rw [integral_const_mul, mean_cos_sq]
    ring
  have hint : ∀ i : Fin freqs.length, Integrable (fun ω => g i (U i ω)) P := by
    intro i
    refine Integrable.of_bound ((hgm i).comp (h.meas i)).aestronglyMeasurable |A| (.of_forall fun ω => hb i _)
  have hint2 : ∀ i j : Fin freqs.length, Integrable (fun ω => g i (U i ω) * g j (U j ω)) P := by
    intro i j
    refine Integrable.of_bound (((hgm i).comp (h.meas i)).mul ((hgm j).comp (h.meas j))).aestronglyMeasurable
      (|A| * |A|) (.of_forall fun ω => ?_)
    rw [norm_mul]
    exact mul_le_mul (hb i _) (hb j _) (norm_nonneg _) (abs_nonneg _)
  constructor
  · rw [integral_finsetSum _ fun i _ => hint i]
    exact Finset.sum_eq_zero fun i _ => hmean i
  · simp only [sq, Finset.sum_mul_sum]
    rw [integral_finsetSum _ fun i _ => integrable_finsetSum _ fun j _ => hint2 i j]
    have hrow : ∀ i : Fin freqs.length, ∫ ω, ∑ j, g i (U i ω) * g j (U j ω) ∂P = A ^ 2 / 2 := by
      intro i
      rw [integral_finsetSum _ fun j _ => hint2 i j, Finset.sum_eq_single i]
      · exact hsq i
      · intro j _ hij
        have hind := ((h.indep.indepFun (i := (i : ℕ)) (j := (j : ℕ)) fun hc => hij (Fin.ext hc.symm)).comp (hgm i) (hgm j))
        have := hind.integral_fun_mul_eq_mul_integral ((hgm i).comp (h.meas i)).aestronglyMeasurable
          ((hgm j).comp (h.meas j)).aestronglyMeasurable
        simp only [Function.comp] at this
        rw [this, hmean i, zero_mul]
      · intro hni
        exact absurd (Finset.mem_univ i) hni
    simp only [hrow]
    rw [Finset.sum_const, Finset.card_univ, Fintype.card_fin, nsmul_eq_mul, hA2]
    field_simp

/-- **C102** A source with several sines has the requested power over time: if the
frequencies are different and lie strictly between 0 and half the samplerate, the mean
square of the first `N` samples tends to `power`, whatever the phases. -/
theorem C102_multisine_average (power samplerate : ℝ) (freqs : List ℝ) (hp : 0 ≤ power) (hf : freqs ≠ [])
    (hnd : freqs.Nodup) (hlim : ∀ f ∈ freqs, 0 < f ∧ 2 * f < samplerate) (u : ℕ → ℝ) :
    ∃ x : ℕ → ℝ, IsStream MultiSineSt.get (MultiSineSt.create power samplerate freqs u) 1 (fun _ k => x k) ∧
      Filter.Tendsto (fun N : ℕ => (∑ k ∈ Finset.range N, x k ^ 2) / N) Filter.atTop (nhds power) := by
  refine ⟨fun k => _, multiSine_stream power samplerate freqs u, ?_⟩
  have hn : (0 : ℝ) < freqs.length := by exact_mod_cast List.length_pos_of_ne_nil hf
  obtain ⟨A, hA⟩ : ∃ A, A = Real.sqrt (2 * power / freqs.length) := ⟨_, rfl⟩
  have hA2 : A ^ 2 = 2 * power / freqs.length := by
    rw [hA, Real.sq_sqrt (by positivity)]
  simp only [← hA]
  obtain ⟨w, hw⟩ : ∃ w : Fin freqs.length → ℝ, w = fun i => 2 * Real.pi * freqs.get i / samplerate := ⟨_, rfl⟩
  have hpi := Real.pi_pos
  have hwlim : ∀ i, 0 < w i ∧ w i < Real.pi := by
    intro i
    obtain ⟨h1, h2⟩ := hlim (freqs.get i) (List.get_mem _ _)
    have hsr : 0 < samplerate := by linarith
    constructor
    · rw [hw]; dsimp only; positivity
    · rw [hw]; dsimp only; rw [div_lt_iff₀ hsr]; nlinarith
  have hwne : ∀ i j, i ≠ j → w i ≠ w j := by
    intro i j hij he
    obtain ⟨h1, h2⟩ := hlim (freqs.get i) (List.get_mem _ _)
    have hsr : 0 < samplerate := by linarith
    rw [hw] at he
    dsimp only at he
    rw [div_left_inj' hsr.ne', mul_right_inj' (by positivity)] at he
    exact hij (Fin.ext ((List.Nodup.getElem_inj_iff hnd).1 he))
  have hwi : ∀ i : Fin freqs.length, 2 * Real.pi * freqs.get i / samplerate = w i := by intro i; rw [hw]
  simp only [hwi]
  have e : ∀ k : ℕ, (∑ i, A * Real.cos (w i * k + 2 * Real.pi * u i)) ^ 2 =
      ∑ i, ∑ j, (A ^ 2 / 2 * Real.cos ((w i + w j) * k + (2 * Real.pi * u i + 2 * Real.pi * u j)) +
        A ^ 2 / 2 * Real.cos ((w i - w j) * k + (2 * Real.pi * u i - 2 * Real.pi * u j))) := by
    intro k
    rw [sq, Finset.sum_mul_sum]
    refine Finset.sum_congr rfl fun i _ => Finset.sum_congr rfl fun j _ => ?_
    have h1 : (w i + w j) * k + (2 * Real.pi * u i + 2 * Real.pi * u j) =
        (w i * k + 2 * Real.pi * u i) + (w j * k + 2 * Real.pi * u j) := by ring
    have h2 : (w i - w j) * k + (2 * Real.pi * u i - 2 * Real.pi * u j) =
        (w i * k + 2 * Real.pi * u i) - (w j * k + 2 * Real.pi * u j) := by ring
    rw [h1, h2]
    generalize w i * k + 2 * Real.pi * u i = x
    generalize w j * k + 2 * Real.pi * u j = y
    rw [Real.cos_add, Real.cos_sub]
    ring
  simp only [e]
  have hcomm : ∀ N : ℕ, (∑ k ∈ Finset.range N,
      ∑ i, ∑ j, (A ^ 2 / 2 * Real.cos ((w i + w j) * k + (2 * Real.pi * u i + 2 * Real.pi * u j)) +
        A ^ 2 / 2 * Real.cos ((w i - w j) * k + (2 * Real.pi * u i - 2 * Real.pi * u j)))) / (N : ℝ) =
      ∑ i, ∑ j, (A ^ 2 / 2 * ((∑ k ∈ Finset.range N, Real.cos ((w i + w j) * k + (2 * Real.pi * u i + 2 * Real.pi * u j))) / N) +
        A ^ 2 / 2 * ((∑ k ∈ Finset.range N, Real.cos ((w i - w j) * k + (2 * Real.pi * u i - 2 * Real.pi * u j))) / N)) := by
    intro N
    rw [Finset.sum_comm, Finset.sum_div]
    refine Finset.sum_congr rfl fun i _ => ?_
    rw [Finset.sum_comm, Finset.sum_div]
    refine Finset.sum_congr rfl fun j _ => ?_
    rw [Finset.sum_add_distrib, ← Finset.mul_sum, ← Finset.mul_sum]
    ring
  simp only [hcomm]
  have hlimit : power = ∑ i : Fin freqs.length, ∑ j, (A ^ 2 / 2 * 0 + A ^ 2 / 2 * if i = j then 1 else 0) := by
    simp only [mul_zero, zero_add, mul_ite, mul_one, Finset.sum_ite_eq, Finset.mem_univ, if_true]
    rw [Finset.sum_const, Finset.card_univ, Fintype.card_fin, nsmul_eq_mul, hA2]
    field_simp
  rw [hlimit]
  refine tendsto_finsetSum _ fun i _ => tendsto_finsetSum _ fun j _ => Filter.Tendsto.add
    (Filter.Tendsto.const_mul _ (cos_mean_tendsto ?_ _)) (Filter.Tendsto.const_mul _ ?_)
  · have h1 := hwlim i
    have h2 := hwlim j
    exact (Real.sin_pos_of_pos_of_lt_pi (by linarith) (by linarith)).ne'
  · split_ifs with hij
    · subst hij
      simp only [sub_self, zero_mul, add_zero, Real.cos_zero, Finset.sum_const, Finset.card_range, nsmul_eq_mul, mul_one]
      refine tendsto_const_nhds.congr' ?_
      filter_upwards [Filter.eventually_gt_atTop 0] with N hN
      rw [div_self]
      exact_mod_cast hN.ne'
    · refine cos_mean_tendsto ?_ _
      have h1 := hwlim i
      have h2 := hwlim j
      rcases lt_or_gt_of_ne (hwne i j hij) with h3 | h3
      · exact (Real.sin_neg_of_neg_of_neg_pi_lt (by linarith) (by linarith)).ne
      · exact (Real.sin_pos_of_pos_of_lt_pi (by linarith) (by linarith)).ne'

example : ([200, 300, 1000] : List ℝ).Nodup ∧ ∀ f ∈ ([200, 300, 1000] : List ℝ), 0 < f ∧ 2 * f < 8000 := by
  norm_num

/-! ### C103 -/

/-- **C103** White noise sources with generators of their own are independent of each other,
if the generators are: the samples of two sources are independent families. -/
theorem C103_own_partial {Z' : ℕ → Ω → ℝ}
    (hind : IndepFun (fun ω k => Z k ω) (fun ω k => Z' k ω) P) (seeded : ℕ → ℕ → ℝ) (ch ch' pos pos' : ℕ)
    (hch : 0 < ch) (hch' : 0 < ch') (power power' : PowerArg) (pw pw' : ℕ → ℝ)
    (hp : ∀ c, c < ch → GivesPower power ch c (pw c)) (hp' : ∀ c, c < ch' → GivesPower power' ch' c (pw' c)) :
    ∃ X X' : Ω → ℕ → ℕ → ℝ,
      (∀ ω, ∃ s, WhiteObj.create seeded ch power (some ⟨fun k => Z k ω, pos⟩) = .ok s ∧ IsStream WhiteObj.get s ch (X ω)) ∧
      (∀ ω, ∃ s, WhiteObj.create seeded ch' power' (some ⟨fun k => Z' k ω, pos'⟩) = .ok s ∧
        IsStream WhiteObj.get s ch' (X' ω)) ∧
      IndepFun X X' P := by
  obtain ⟨std, hs, -⟩ := whiteStd_of_gives pw hch hp
  obtain ⟨std', hs', -⟩ := whiteStd_of_gives pw' hch' hp'
  refine ⟨fun ω c k => std c * Z (pos + (k * ch + c)) ω, fun ω c k => std' c * Z' (pos' + (k * ch' + c)) ω,
    fun ω => ⟨_, whiteObj_create hch pw hp _, whiteObj_stream ch power std hs (fun k => Z k ω) pos⟩,
    fun ω => ⟨_, whiteObj_create hch' pw' hp' _, whiteObj_stream ch' power' std' hs' (fun k => Z' k ω) pos'⟩, ?_⟩
  refine hind.comp (φ := fun z c k => std c * z (pos + (k * ch + c))) (ψ := fun z c k => std' c * z (pos' + (k * ch' + c)))
    (measurable_pi_lambda _ fun c => measurable_pi_lambda _ fun k => ?_)
    (measurable_pi_lambda _ fun c => measurable_pi_lambda _ fun k => ?_)
  · exact (measurable_pi_apply _).const_mul _
  · exact (measurable_pi_apply _).const_mul _

example : IndepFun (fun (ω : (ℕ → ℝ) × (ℕ → ℝ)) k => ω.1 k) (fun ω k => ω.2 k)
    ((Measure.infinitePi fun _ : ℕ => gaussianReal 0 1).prod (Measure.infinitePi fun _ : ℕ => gaussianReal 0 1)) :=
  indepFun_prod (X := fun z : ℕ → ℝ => z) (Y := fun z : ℕ → ℝ => z) measurable_id measurable_id

end

/-- **C103** is violated for sources created without a generator: two white noise sources of
the same number of channels deliver the same noise, up to the square root of the power. -/
theorem C103_violated (seeded : ℕ → ℕ → ℝ) (ch : ℕ) (p q : ℝ) :
    ∃ s t x y, WhiteObj.create seeded ch (.num p) none = .ok s ∧ WhiteObj.create seeded ch (.num q) none = .ok t ∧
      IsStream WhiteObj.get s ch x ∧ IsStream WhiteObj.get t ch y ∧
      ∀ c k, Real.sqrt q * x c k = Real.sqrt p * y c k :=
  ⟨_, _, _, _, rfl, rfl, whiteObj_stream ch (.num p) _ rfl _ _, whiteObj_stream ch (.num q) _ rfl _ _,
    fun c k => by ring⟩

end Verif

/-
Rejection sampling: the accepted elements of a sequence of independent, identically
distributed candidates.
-/
import Mathlib.Probability.BorelCantelli
import Mathlib.Probability.ConditionalProbability
import Mathlib.Probability.Distributions.Uniform
import Mathlib.Data.Nat.Nth
import Mathlib.Order.Interval.Finset.Fin
namespace Verif

open MeasureTheory ProbabilityTheory

/-! ### The accepted indices -/

open Classical in
theorem filter_range_nth (p : ℕ → Prop) (N : ℕ) :
    (List.range N).filter (fun k => decide (p k)) = (List.range (Nat.count p N)).map (Nat.nth p) := by
  induction N with
  | zero => simp
  | succ N ih =>
    rw [List.range_succ, List.filter_append, ih, Nat.count_succ]
    by_cases h : p N
    · simp only [h, if_true, List.range_succ, List.map_append, List.map_cons, List.map_nil, Nat.nth_count h]
      simp [h]
    · simp [h]

open Classical in
/-- When the first accepted indices are the members of a given increasing sequence. -/
theorem nth_eq_iff {p : ℕ → Prop} (hp : (Set.ofPred p).Infinite) {n : ℕ} {t : Fin n → ℕ} (ht : StrictMono t) {m : ℕ}
    (hm : ∀ k, k < m ↔ ∃ j, k ≤ t j) :
    (∀ j : Fin n, Nat.nth p j = t j) ↔ ∀ k < m, (p k ↔ ∃ j, t j = k) := by
  constructor
  · intro h k hk
    constructor
    · intro hpk
      obtain ⟨j, hj⟩ := (hm k).1 hk
      have h1 : Nat.count p k ≤ j := by
        rw [Nat.count_le_iff_le_nth hp, h j]
        exact hj
      exact ⟨⟨Nat.count p k, lt_of_le_of_lt h1 j.2⟩, by rw [← h, Nat.nth_count hpk]⟩
    · rintro ⟨j, rfl⟩
      rw [← h]
      exact Nat.nth_mem_of_infinite hp j
  · intro h j
    have hpj : p (t j) := (h (t j) ((hm _).2 ⟨j, le_refl _⟩)).2 ⟨j, rfl⟩
    have hc : Nat.count p (t j) = j := by
      rw [Nat.count_eq_card_filter_range]
      have : (Finset.range (t j)).filter p = (Finset.univ.filter fun i : Fin n => i < j).image t := by
        ext k
        simp only [Finset.mem_filter, Finset.mem_range, Finset.mem_image, Finset.mem_univ, true_and]
        constructor
        · rintro ⟨h1, h2⟩
          obtain ⟨i, rfl⟩ := (h k ((hm k).2 ⟨j, h1.le⟩)).1 h2
          exact ⟨i, ht.lt_iff_lt.1 h1, rfl⟩
        · rintro ⟨i, h1, rfl⟩
          exact ⟨ht h1, (h _ ((hm _).2 ⟨i, le_refl _⟩)).2 ⟨i, rfl⟩⟩
      rw [this, Finset.card_image_of_injective _ ht.injective]
      rw [show (Finset.univ.filter fun i : Fin n => i < j) = Finset.Iio j by ext; simp, Fin.card_Iio]
    have := Nat.nth_count hpj
    rw [hc] at this
    exact this

section
variable {Ω E : Type} [MeasurableSpace Ω] [MeasurableSpace E] {P : Measure Ω}

open Classical in
theorem measurable_count {p : Ω → ℕ → Prop} (hp : ∀ k, MeasurableSet {ω | p ω k}) (m : ℕ) :
    Measurable fun ω => Nat.count (p ω) m := by
  induction m with
  | zero => simp
  | succ m ih =>
    simp only [Nat.count_succ]
    exact ih.add (Measurable.ite (hp m) measurable_const measurable_const)

open Classical in
theorem measurable_nth {p : Ω → ℕ → Prop} (hp : ∀ k, MeasurableSet {ω | p ω k}) (j : ℕ) :
    Measurable fun ω => Nat.nth (p ω) j := by
  have key : ∀ m, m ≠ 0 → MeasurableSet {ω | Nat.nth (p ω) j = m} := by
    intro m hm
    have : {ω | Nat.nth (p ω) j = m} = {ω | p ω m} ∩ {ω | Nat.count (p ω) m = j} := by
      ext ω
      simp only [Set.mem_ofPred_eq, Set.mem_inter_iff]
      constructor
      · rintro rfl
        refine ⟨Nat.nth_mem_of_ne_zero hm, ?_⟩
        exact Nat.count_nth fun hf => Nat.lt_card_toFinset_of_nth_ne_zero hm hf
      · rintro ⟨h1, rfl⟩
        exact Nat.nth_count h1
    rw [this]
    exact (hp m).inter (measurable_count hp m (MeasurableSet.singleton j))
  refine measurable_to_countable' fun m => ?_
  rcases eq_or_ne m 0 with rfl | hm
  · have : (fun ω => Nat.nth (p ω) j) ⁻¹' {0} = (⋃ m ∈ {m : ℕ | m ≠ 0}, {ω | Nat.nth (p ω) j = m})ᶜ := by
      ext ω
      simp only [Set.mem_preimage, Set.mem_singleton_iff, Set.mem_compl_iff, Set.mem_iUnion, Set.mem_ofPred_eq,
        exists_prop, not_exists, not_and]
      constructor
      · intro h i hi h'
        exact hi (h'.symm.trans h)
      · intro h
        by_contra hc
        exact h _ hc rfl
    rw [this]
    exact (MeasurableSet.biUnion (Set.to_countable _) fun m hm => key m hm).compl
  · exact key m hm

/-- The accepted element number `j`. -/
noncomputable def accepted (Y : ℕ → Ω → E) (B : Set E) (j : ℕ) (ω : Ω) : E :=
  Y (Nat.nth (fun k => Y k ω ∈ B) j) ω

theorem measurable_accepted {Y : ℕ → Ω → E} (hY : ∀ k, Measurable (Y k)) {B : Set E} (hB : MeasurableSet B) (j : ℕ) :
    Measurable (accepted Y B j) := by
  have h1 : Measurable fun q : ℕ × Ω => Y q.1 q.2 := measurable_from_prod_countable_right hY
  exact h1.comp ((measurable_nth (fun k => hY k hB) j).prodMk measurable_id)

/-- Infinitely many candidates are accepted. -/
theorem ae_infinite {Y : ℕ → Ω → E} (hY : ∀ k, Measurable (Y k)) (hind : iIndepFun Y P) {ν : Measure E}
    (hlaw : ∀ k, P.map (Y k) = ν) {B : Set E} (hB : MeasurableSet B) (h0 : ν B ≠ 0) :
    ∀ᵐ ω ∂P, (Set.ofPred fun k => Y k ω ∈ B).Infinite := by
  have := hind.isProbabilityMeasure
  have hs : iIndepSet (fun k => Y k ⁻¹' B) P := by
    rw [iIndepSet_iff_meas_biInter fun k => hY k hB]
    intro S
    exact hind.measure_inter_preimage_eq_mul S fun _ _ => hB
  have h1 : P (Filter.limsup (fun k => Y k ⁻¹' B) Filter.atTop) = 1 := by
    refine measure_limsup_eq_one (fun k => hY k hB) hs ?_
    have : ∀ k, P (Y k ⁻¹' B) = ν B := fun k => by rw [← hlaw k, Measure.map_apply (hY k) hB]
    simp only [this]
    exact ENNReal.tsum_const_eq_top_of_ne_zero h0
  have hm : MeasurableSet (Filter.limsup (fun k => Y k ⁻¹' B) Filter.atTop) :=
    MeasurableSet.measurableSet_limsup fun k => hY k hB
  have h2 := (prob_compl_eq_zero_iff hm).2 h1
  filter_upwards [compl_mem_ae_iff.2 h2] with ω hω
  have h3 : ω ∈ Filter.limsup (fun k => Y k ⁻¹' B) Filter.atTop := by simpa using hω
  rw [Filter.mem_limsup_iff_frequently_mem] at h3
  exact Nat.frequently_atTop_iff_infinite.1 h3

open Classical in
/-- The joint law of the first accepted elements. -/
theorem accepted_law {Y : ℕ → Ω → E} (hY : ∀ k, Measurable (Y k)) (hind : iIndepFun Y P) {ν : Measure E}
    (hlaw : ∀ k, P.map (Y k) = ν) {B : Set E} (hB : MeasurableSet B) (h0 : ν B ≠ 0) (n : ℕ)
    (A : Fin n → Set E) (hA : ∀ j, MeasurableSet (A j)) :
    P {ω | ∀ j : Fin n, accepted Y B j ω ∈ A j} = ∏ j, ProbabilityTheory.cond ν B (A j) := by
  have hP := hind.isProbabilityMeasure
  have hν : IsProbabilityMeasure ν := by
    rw [← hlaw 0]; exact Measure.isProbabilityMeasure_map (hY 0).aemeasurable
  have hinf := ae_infinite hY hind hlaw hB h0
  -- the events
  obtain ⟨I, hI⟩ : ∃ I : Set Ω, I = {ω | (Set.ofPred fun k => Y k ω ∈ B).Infinite} := ⟨_, rfl⟩
  have hIae : ∀ᵐ ω ∂P, ω ∈ I := by rw [hI]; exact hinf
  obtain ⟨T, hT⟩ : ∃ T : Ω → Fin n → ℕ, T = fun ω (j : Fin n) => Nat.nth (fun k => Y k ω ∈ B) (j : ℕ) := ⟨_, rfl⟩
  have hTm : ∀ t, MeasurableSet {ω | T ω = t} := by
    intro t
    have : Measurable T := by
      rw [hT]
      exact measurable_pi_lambda _ fun j => measurable_nth (fun k => hY k hB) j
    exact this (MeasurableSet.singleton t)
  have hAm : ∀ A : Fin n → Set E, (∀ j, MeasurableSet (A j)) →
      MeasurableSet {ω | ∀ j : Fin n, accepted Y B j ω ∈ A j} := by
    intro A hA
    have : {ω | ∀ j : Fin n, accepted Y B j ω ∈ A j} = ⋂ j : Fin n, accepted Y B j ⁻¹' A j := by
      ext ω; simp
    rw [this]
    exact MeasurableSet.iInter fun j => measurable_accepted hY hB j (hA j)
  -- one sequence of indices
  have hone : ∀ (A : Fin n → Set E), (∀ j, MeasurableSet (A j)) → ∀ t : Fin n → ℕ,
      P ({ω | T ω = t} ∩ {ω | ∀ j : Fin n, accepted Y B j ω ∈ A j}) =
        P {ω | T ω = t} * ∏ j, ProbabilityTheory.cond ν B (A j) := by
    intro A hA t
    by_cases ht : StrictMono t
    swap
    · have hz : P {ω | T ω = t} = 0 := by
        refine measure_mono_null ?_ (ae_iff.1 hIae)
        intro ω hω hc
        rw [hI] at hc
        refine ht ?_
        have : T ω = t := hω
        rw [← this, hT]
        exact fun i j hij => Nat.nth_strictMono hc hij
      rw [measure_mono_null Set.inter_subset_left hz, hz, zero_mul]
    obtain ⟨m, hm⟩ : ∃ m, ∀ k, k < m ↔ ∃ j, k ≤ t j := by
      refine ⟨Finset.univ.sup fun j => t j + 1, fun k => ?_⟩
      rw [Finset.lt_sup_iff]
      simp
    obtain ⟨D, hD⟩ : ∃ D : (Fin n → Set E) → ℕ → Set E,
        D = fun A k => {x | (x ∈ B ↔ ∃ j, t j = k) ∧ ∀ j, t j = k → x ∈ A j} := ⟨_, rfl⟩
    have hDcase : ∀ A : Fin n → Set E, ∀ k, (∀ j, t j = k → D A k = B ∩ A j) ∧ ((¬ ∃ j, t j = k) → D A k = Bᶜ) := by
      intro A k
      constructor
      · rintro j rfl
        ext x
        rw [hD]
        simp only [Set.mem_ofPred_eq, Set.mem_inter_iff]
        constructor
        · rintro ⟨h1, h2⟩
          exact ⟨h1.2 ⟨j, rfl⟩, h2 j rfl⟩
        · rintro ⟨h1, h2⟩
          refine ⟨⟨fun _ => ⟨j, rfl⟩, fun _ => h1⟩, fun i hi => ?_⟩
          rw [ht.injective hi]
          exact h2
      · intro h
        ext x
        rw [hD]
        simp only [Set.mem_ofPred_eq, Set.mem_compl_iff]
        constructor
        · rintro ⟨h1, _⟩ h2
          exact h (h1.1 h2)
        · intro h1
          exact ⟨⟨fun h2 => absurd h2 h1, fun h2 => absurd h2 h⟩, fun j hj => absurd ⟨j, hj⟩ h⟩
    have hDm : ∀ A : Fin n → Set E, (∀ j, MeasurableSet (A j)) → ∀ k, MeasurableSet (D A k) := by
      intro A hA k
      by_cases h : ∃ j, t j = k
      · obtain ⟨j, hj⟩ := h
        rw [(hDcase A k).1 j hj]
        exact hB.inter (hA j)
      · rw [(hDcase A k).2 h]
        exact hB.compl
    have hprod : ∀ A : Fin n → Set E, (∀ j, MeasurableSet (A j)) →
        P ({ω | T ω = t} ∩ {ω | ∀ j : Fin n, accepted Y B j ω ∈ A j}) = ∏ k ∈ Finset.range m, ν (D A k) := by
      intro A hA
      have h1 : P ({ω | T ω = t} ∩ {ω | ∀ j : Fin n, accepted Y B j ω ∈ A j}) =
          P (⋂ k ∈ Finset.range m, Y k ⁻¹' D A k) := by
        refine measure_congr ?_
        filter_upwards [hIae] with ω hω
        rw [hI] at hω
        refine propext ?_
        change (T ω = t ∧ ∀ j : Fin n, accepted Y B j ω ∈ A j) ↔ ω ∈ ⋂ k ∈ Finset.range m, Y k ⁻¹' D A k
        have h2 := nth_eq_iff (p := fun k => Y k ω ∈ B) hω ht hm
        have h3 : T ω = t ↔ ∀ j : Fin n, Nat.nth (fun k => Y k ω ∈ B) j = t j := by
          rw [hT]; exact funext_iff
        simp only [Set.mem_iInter, Finset.mem_range, Set.mem_preimage]
        constructor
        · rintro ⟨h4, h5⟩ k hk
          have h6 := h2.1 (h3.1 h4) k hk
          rw [hD]
          refine ⟨h6, ?_⟩
          rintro j rfl
          have := h5 j
          unfold accepted at this
          rw [h3.1 h4 j] at this
          exact this
        · intro h4
          rw [hD] at h4
          have h5 : ∀ j : Fin n, Nat.nth (fun k => Y k ω ∈ B) j = t j := h2.2 fun k hk => (h4 k hk).1
          refine ⟨h3.2 h5, fun j => ?_⟩
          unfold accepted
          rw [h5 j]
          exact (h4 (t j) ((hm _).2 ⟨j, le_refl _⟩)).2 j rfl
      rw [h1, hind.measure_inter_preimage_eq_mul _ fun k _ => hDm A hA k]
      refine Finset.prod_congr rfl fun k _ => ?_
      rw [← hlaw k, Measure.map_apply (hY k) (hDm A hA k)]
    have hT0 : P {ω | T ω = t} = ∏ k ∈ Finset.range m, ν (D (fun _ => Set.univ) k) := by
      rw [← hprod _ fun _ => MeasurableSet.univ]
      congr 1
      ext ω
      simp
    have hfac : ∀ k, ν (D A k) = ν (D (fun _ => Set.univ) k) *
        ∏ j, if t j = k then ProbabilityTheory.cond ν B (A j) else 1 := by
      intro k
      by_cases h : ∃ j, t j = k
      · obtain ⟨j, rfl⟩ := h
        rw [(hDcase A _).1 j rfl, (hDcase _ _).1 j rfl, Set.inter_univ, Finset.prod_eq_single j]
        · rw [if_pos rfl, cond_apply hB, ← mul_assoc, ENNReal.mul_inv_cancel h0 (measure_ne_top ν B), one_mul]
        · intro i _ hi
          rw [if_neg fun h => hi (ht.injective h)]
        · intro h; exact absurd (Finset.mem_univ j) h
      · rw [(hDcase A k).2 h, (hDcase _ k).2 h, Finset.prod_eq_one, mul_one]
        intro j _
        rw [if_neg fun hj => h ⟨j, hj⟩]
    rw [hprod A hA, hT0, Finset.prod_congr rfl fun k _ => hfac k, Finset.prod_mul_distrib, Finset.prod_comm]
    congr 1
    refine Finset.prod_congr rfl fun j _ => ?_
    rw [Finset.prod_ite_eq, if_pos]
    rw [Finset.mem_range]
    exact (hm _).2 ⟨j, le_refl _⟩
  have hsum : ∀ S : Set Ω, MeasurableSet S → P S = ∑' t : Fin n → ℕ, P ({ω | T ω = t} ∩ S) := by
    intro S hS
    rw [← measure_iUnion]
    · congr 1
      ext ω
      simp
    · intro t t' htt
      refine Set.disjoint_left.2 ?_
      rintro ω ⟨h1, _⟩ ⟨h2, _⟩
      exact htt (h1.symm.trans h2)
    · exact fun t => (hTm t).inter hS
  rw [hsum _ (hAm A hA)]
  simp_rw [hone A hA]
  rw [ENNReal.tsum_mul_right]
  have : ∑' t : Fin n → ℕ, P {ω | T ω = t} = 1 := by
    have := hsum Set.univ MeasurableSet.univ
    simp only [Set.inter_univ, measure_univ] at this
    exact this.symm
  rw [this, one_mul]

/-- The first accepted elements are independent. -/
theorem accepted_indep {Y : ℕ → Ω → E} (hY : ∀ k, Measurable (Y k)) (hind : iIndepFun Y P) {ν : Measure E}
    (hlaw : ∀ k, P.map (Y k) = ν) {B : Set E} (hB : MeasurableSet B) (h0 : ν B ≠ 0) (n : ℕ) :
    iIndepFun (fun (j : Fin n) => accepted Y B j) P ∧
      ∀ j : Fin n, P.map (accepted Y B j) = ProbabilityTheory.cond ν B := by
  classical
  have hP := hind.isProbabilityMeasure
  have hν : IsProbabilityMeasure ν := by
    rw [← hlaw 0]; exact Measure.isProbabilityMeasure_map (hY 0).aemeasurable
  have hc : IsProbabilityMeasure (ProbabilityTheory.cond ν B) := cond_isProbabilityMeasure h0
  have key : ∀ (S : Finset (Fin n)) (A : Fin n → Set E), (∀ j ∈ S, MeasurableSet (A j)) →
      P (⋂ j ∈ S, accepted Y B j ⁻¹' A j) = ∏ j ∈ S, ProbabilityTheory.cond ν B (A j) := by
    intro S A hA
    have := accepted_law hY hind hlaw hB h0 n (fun j => if j ∈ S then A j else Set.univ) (by
      intro j
      split_ifs with h
      · exact hA j h
      · exact MeasurableSet.univ)
    have hset : {ω | ∀ j : Fin n, accepted Y B j ω ∈ if j ∈ S then A j else Set.univ} =
        ⋂ j ∈ S, accepted Y B j ⁻¹' A j := by
      ext ω
      simp only [Set.mem_ofPred_eq, Set.mem_iInter, Set.mem_preimage]
      refine forall_congr' fun j => ?_
      split_ifs with h <;> simp [h]
    rw [hset] at this
    rw [this, ← Finset.prod_subset (Finset.subset_univ S)]
    · exact Finset.prod_congr rfl fun j hj => by rw [if_pos hj]
    · intro j _ hj
      rw [if_neg hj, measure_univ]
  have hl : ∀ j : Fin n, P.map (accepted Y B j) = ProbabilityTheory.cond ν B := by
    intro j
    ext A hA
    rw [Measure.map_apply (measurable_accepted hY hB j) hA]
    have := key {j} (fun _ => A) fun _ _ => hA
    simpa using this
  refine ⟨?_, hl⟩
  rw [iIndepFun_iff_measure_inter_preimage_eq_mul]
  intro S A hA
  rw [key S A hA]
  refine Finset.prod_congr rfl fun j hj => ?_
  rw [← hl j, Measure.map_apply (measurable_accepted hY hB j) (hA j hj)]

end

end Verif

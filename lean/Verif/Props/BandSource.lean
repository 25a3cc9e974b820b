/-
C108: the power of band-limited noise.
-/
import Verif.Lemmas.BandSource
import Verif.Props.SourcePower
namespace Verif

open MeasureTheory ProbabilityTheory

section
variable {Ω : Type} [MeasurableSpace Ω] {P : Measure Ω} {Z : ℕ → Ω → ℝ}

theorem draw_mean (h : NormalDraws P Z) (i : ℕ) : ∫ ω, Z i ω ∂P = 0 := by
  have e : ∫ ω, Z i ω ∂P = ∫ x, x ∂(P.map (Z i)) := by
    rw [integral_map (h.meas i).aemeasurable measurable_id'.aestronglyMeasurable]
  rw [e, h.normal, integral_id_gaussianReal]

theorem draw_sq (h : NormalDraws P Z) (i : ℕ) : ∫ ω, Z i ω * Z i ω ∂P = 1 := by
  have e : ∫ ω, Z i ω * Z i ω ∂P = ∫ x, x * x ∂(P.map (Z i)) := by
    rw [integral_map (h.meas i).aemeasurable (by fun_prop)]
  rw [e, h.normal]
  have := variance_fun_id_gaussianReal (μ := 0) (v := 1)
  rw [variance_eq_integral measurable_id'.aemeasurable, integral_id_gaussianReal] at this
  simp only [sub_zero, sq] at this
  rw [this]
  simp

theorem draw_memLp (h : NormalDraws P Z) (i : ℕ) : MemLp (Z i) 2 P := by
  have := memLp_id_gaussianReal (μ := 0) (v := 1) 2
  rw [← h.normal i] at this
  exact (memLp_map_measure_iff measurable_id.aestronglyMeasurable (h.meas i).aemeasurable).1 this

theorem draw_prod (h : NormalDraws P Z) (i j : ℕ) : ∫ ω, Z i ω * Z j ω ∂P = if i = j then 1 else 0 := by
  split_ifs with hij
  · subst hij; exact draw_sq h i
  · have := (h.indep.indepFun hij).integral_fun_mul_eq_mul_integral (h.meas i).aestronglyMeasurable
      (h.meas j).aestronglyMeasurable
    rw [this, draw_mean h i, zero_mul]

/-- The moments of a constant plus a combination of different draws. -/
theorem comb_moments (h : NormalDraws P Z) (t : ℝ) (n : ℕ) (a : ℕ → ℝ) (idx : ℕ → ℕ)
    (hinj : ∀ i j, i < n → j < n → idx i = idx j → i = j) :
    ∫ ω, (t + ∑ j ∈ Finset.range n, a j * Z (idx j) ω) ∂P = t ∧
      ∫ ω, (t + ∑ j ∈ Finset.range n, a j * Z (idx j) ω) ^ 2 ∂P = t ^ 2 + ∑ j ∈ Finset.range n, a j ^ 2 := by
  have hP : IsProbabilityMeasure P := h.indep.isProbabilityMeasure
  have hi : ∀ j, Integrable (fun ω => a j * Z (idx j) ω) P := fun j => ((draw_memLp h (idx j)).integrable one_le_two).const_mul _
  have hs : Integrable (fun ω => ∑ j ∈ Finset.range n, a j * Z (idx j) ω) P := integrable_finsetSum _ fun j _ => hi j
  have hm : ∫ ω, ∑ j ∈ Finset.range n, a j * Z (idx j) ω ∂P = 0 := by
    rw [integral_finsetSum _ fun j _ => hi j]
    refine Finset.sum_eq_zero fun j _ => ?_
    rw [integral_const_mul, draw_mean h, mul_zero]
  have hij : ∀ i j, Integrable (fun ω => a i * Z (idx i) ω * (a j * Z (idx j) ω)) P := fun i j =>
    ((draw_memLp h (idx i)).const_mul (a i)).integrable_mul ((draw_memLp h (idx j)).const_mul (a j))
  have hss : Integrable (fun ω => ∑ i ∈ Finset.range n, ∑ j ∈ Finset.range n, a i * Z (idx i) ω * (a j * Z (idx j) ω)) P :=
    integrable_finsetSum _ fun i _ => integrable_finsetSum _ fun j _ => hij i j
  have hq : ∫ ω, (∑ i ∈ Finset.range n, ∑ j ∈ Finset.range n, a i * Z (idx i) ω * (a j * Z (idx j) ω)) ∂P =
      ∑ j ∈ Finset.range n, a j ^ 2 := by
    rw [integral_finsetSum _ fun i _ => integrable_finsetSum _ fun j _ => hij i j]
    refine Finset.sum_congr rfl fun i hi' => ?_
    rw [integral_finsetSum _ fun j _ => hij i j, Finset.sum_eq_single i]
    · have e : ∀ ω, a i * Z (idx i) ω * (a i * Z (idx i) ω) = a i ^ 2 * (Z (idx i) ω * Z (idx i) ω) := fun ω => by ring
      simp only [e]
      rw [integral_const_mul, draw_sq h, mul_one]
    · intro j hj hne
      have e : ∀ ω, a i * Z (idx i) ω * (a j * Z (idx j) ω) = a i * a j * (Z (idx i) ω * Z (idx j) ω) := fun ω => by ring
      simp only [e]
      rw [integral_const_mul, draw_prod h, if_neg, mul_zero]
      exact fun hc => hne (hinj _ _ (Finset.mem_range.1 hi') (Finset.mem_range.1 hj) hc).symm
    · exact fun hn => absurd hi' hn
  constructor
  · rw [integral_add (integrable_const _) hs, hm]
    simp
  · have e : ∀ ω, (t + ∑ j ∈ Finset.range n, a j * Z (idx j) ω) ^ 2 =
        (t ^ 2 + 2 * t * ∑ j ∈ Finset.range n, a j * Z (idx j) ω) +
          ∑ i ∈ Finset.range n, ∑ j ∈ Finset.range n, a i * Z (idx i) ω * (a j * Z (idx j) ω) := by
      intro ω
      rw [← Finset.sum_mul_sum]
      ring
    simp only [e]
    have h1 : Integrable (fun ω => t ^ 2 + 2 * t * ∑ j ∈ Finset.range n, a j * Z (idx j) ω) P :=
      (integrable_const _).add (hs.const_mul _)
    rw [integral_add h1 hss, integral_add (integrable_const _) (hs.const_mul _), integral_const_mul, hm, hq]
    simp

end

/-! ### The test signal -/

section
variable {S : Type} [AddCommGroup S] [Module ℝ S]

theorem transient_zero (L : S × ℝ →ₗ[ℝ] S × ℝ) (k : ℕ) : transient L 0 k = 0 := by
  have : ∀ k, freeState L 0 k = 0 := by
    intro k
    induction k with
    | zero => rfl
    | succ k ih =>
      rw [freeState, ih]
      have : ((0, 0) : S × ℝ) = 0 := rfl
      rw [this, map_zero]
      rfl
  rw [transient, this]
  have : ((0, 0) : S × ℝ) = 0 := rfl
  rw [this, map_zero]
  rfl

theorem meanSquare_rows (ch n : ℕ) (f : ℕ → ℕ → ℝ) :
    meanSquare ((List.range ch).map fun c => (List.range n).map (f c)) =
      (∑ c ∈ Finset.range ch, ∑ k ∈ Finset.range n, f c k ^ 2) / (ch * n : ℕ) := by
  unfold meanSquare
  congr 1
  · induction ch with
    | zero => simp
    | succ ch ih =>
      rw [List.range_succ, Finset.sum_range_succ, List.map_append, List.flatten_append, List.map_append, List.sum_append, ih]
      congr 1
      simp only [List.map_cons, List.map_nil, List.flatten_cons, List.flatten_nil, List.append_nil, List.map_map]
      rw [← List.sum_toFinset _ List.nodup_range, List.toFinset_range]
      rfl
  · congr 1
    induction ch with
    | zero => simp
    | succ ch ih =>
      rw [List.range_succ, List.map_append, List.flatten_append, List.length_append, ih]
      simp
      ring

/-- The mean square of the test signal that the filter `L` makes of the draws `w`. -/
noncomputable def testPower (L : S × ℝ →ₗ[ℝ] S × ℝ) (ch : ℕ) (w : ℕ → ℝ) : ℝ :=
  (∑ c ∈ Finset.range ch, ∑ k ∈ Finset.range 10000,
    (∑ j ∈ Finset.range (k + 1), impulse L (k - j) * w (c * 10000 + j)) ^ 2) / (ch * 10000 : ℕ)

theorem band_create (L : S × ℝ →ₗ[ℝ] S × ℝ) (zi : S) (ch : ℕ) (lim : ℝ × ℝ) (hl : lim.1 < lim.2) (p : PowerArg) (d : ℕ → ℝ) :
    BandObj.create ch p lim (fun z x => L (z, x)) 0 zi ⟨d, 0⟩ = .ok
      ⟨p, testPower L ch d, fun z x => L (z, x), (List.range ch).map fun _ => zi, ⟨d, ch * 10000⟩⟩ := by
  unfold BandObj.create testPower
  rw [if_neg (not_not.2 hl)]
  generalize 10000 = n
  simp only [Rng.normal, Nat.zero_add]
  congr 2
  · rw [List.map_map]
    have hrow : ∀ c, (filtRow (fun z x => L (z, x)) 0 ((List.range n).map fun j => d (c * n + j))).2 =
        (List.range n).map fun k => ∑ j ∈ Finset.range (k + 1), impulse L (k - j) * d (c * n + j) := by
      intro c
      have := filtRow_iter (fun z x => L (z, x)) (0 : S) (fun j => d (c * n + j)) n 0
      simp only [Nat.zero_add] at this
      have e0 : filtIter (fun z x => L (z, x)) (0 : S) (fun j => d (c * n + j)) 0 = 0 := rfl
      rw [e0] at this
      rw [this]
      refine List.map_congr_left fun k _ => ?_
      rw [filter_output L 0 (fun j => d (c * n + j)) k, transient_zero, zero_add]
    simp only [Function.comp_def, hrow]
    exact meanSquare_rows ch n _
  · rw [List.map_const', List.length_range]

theorem testPower_congr (L : S × ℝ →ₗ[ℝ] S × ℝ) (ch : ℕ) (w d : ℕ → ℝ) (h : ∀ k < ch * 10000, d k = w k) :
    testPower L ch d = testPower L ch w := by
  unfold testPower
  revert h
  generalize 10000 = n
  intro h
  congr 1
  refine Finset.sum_congr rfl fun c hc => Finset.sum_congr rfl fun k hk => ?_
  congr 1
  refine Finset.sum_congr rfl fun j hj => ?_
  rw [h]
  have h1 := Finset.mem_range.1 hc
  have h2 := Finset.mem_range.1 hk
  have h3 := Finset.mem_range.1 hj
  have := Nat.mul_le_mul_right n (Nat.succ_le_of_lt h1)
  rw [Nat.succ_mul] at this
  omega

variable {Ω : Type} [MeasurableSpace Ω] {P : Measure Ω} {Z : ℕ → Ω → ℝ}

/-- **C108** (partial: the power is reached up to a transient, and relative to the power of
the test signal.)  A band-limited noise source whose filter is linear with impulse response
`h`: given the draws `w` of the test signal, whatever is requested and however the power is
changed in between, all calls succeed.  Sample `k` of every channel has the expectation
`transient k`, which does not depend on the powers, and the expected square
`transient k ^ 2 + ∑ h (k-j)^2 * p j / testPower`, with `p j` the power in force at sample
`j`.  Different channels are independent. -/
theorem C108_partial (h : NormalDraws P Z) (L : S × ℝ →ₗ[ℝ] S × ℝ) (zi : S) (ch : ℕ) (lim : ℝ × ℝ) (hl : lim.1 < lim.2)
    (w : ℕ → ℝ) (hw : 0 < testPower L ch w) (p : ℝ) (ops : List SrcOp) (hp : 0 ≤ p)
    (hops : ∀ q, SrcOp.power q ∈ ops → ∃ r, q = .num r ∧ 0 ≤ r) :
    ∃ X : ℕ → ℕ → Ω → ℝ,
      (∀ ω, ∃ s s' bs,
        BandObj.create ch (.num p) lim (fun z x => L (z, x)) 0 zi ⟨fun i => if i < ch * 10000 then w i else Z i ω, 0⟩ = .ok s ∧
        runOps BandObj.get BandObj.setPower s ops = .ok (s', bs) ∧
        joinBlocks ch bs = (List.range ch).map fun c => (List.range (powersOf p ops).length).map fun k => X c k ω) ∧
      (∀ c k, c < ch → k < (powersOf p ops).length →
        ∫ ω, X c k ω ∂P = transient L zi k ∧
        ∫ ω, X c k ω ^ 2 ∂P = transient L zi k ^ 2 +
          ∑ j ∈ Finset.range (k + 1), impulse L (k - j) ^ 2 * (powersOf p ops).getD j 0 / testPower L ch w) ∧
      ∀ c c', c < ch → c' < ch → c ≠ c' →
        IndepFun (fun ω (k : Fin (powersOf p ops).length) => X c k ω)
          (fun ω (k : Fin (powersOf p ops).length) => X c' k ω) P := by
  obtain ⟨a, ha⟩ : ∃ a : ℕ → ℕ → ℝ, a = fun k j => impulse L (k - j) * Real.sqrt ((powersOf p ops).getD j 0 / testPower L ch w) :=
    ⟨_, rfl⟩
  obtain ⟨idx, hidx⟩ : ∃ idx : ℕ → ℕ → ℕ, idx = fun c j => bandDraw ch ops (ch * 10000) c j := ⟨_, rfl⟩
  have hnn : ∀ (ops : List SrcOp) (p : ℝ), 0 ≤ p → (∀ q, SrcOp.power q ∈ ops → ∃ r, q = .num r ∧ 0 ≤ r) →
      ∀ x ∈ powersOf p ops, 0 ≤ x := by
    intro ops
    induction ops with
    | nil => intro p _ _ x hx; simp [powersOf] at hx
    | cons o ops ih =>
      intro p hp h x hx
      cases o with
      | get n =>
        simp only [powersOf, List.mem_append, List.mem_replicate] at hx
        rcases hx with hx | hx
        · rw [hx.2]; exact hp
        · exact ih p hp (fun q hq => h q (by simp [hq])) x hx
      | power q =>
        obtain ⟨r, rfl, hr⟩ := h q (by simp)
        exact ih r hr (fun q hq => h q (by simp [hq])) x hx
  refine ⟨fun c k ω => transient L zi k + ∑ j ∈ Finset.range (k + 1), a k j * Z (idx c j) ω, fun ω => ?_, fun c k hc hk => ?_,
    fun c c' hc hc' hne => ?_⟩
  · obtain ⟨s', bs, h1, h2⟩ := band_ops (fun z x => L (z, x)) (testPower L ch w)
      (fun i => if i < ch * 10000 then w i else Z i ω) ch ops p (ch * 10000) (fun _ => zi)
      fun q hq => (hops q hq).imp fun r hr => hr.1
    refine ⟨_, s', bs, band_create L zi ch lim hl _ _, ?_, ?_⟩
    · rw [testPower_congr L ch w _ fun k hk => if_pos hk]
      exact h1
    · rw [h2]
      refine List.map_congr_left fun c hc => List.map_congr_left fun k hk => ?_
      have hc := List.mem_range.1 hc
      have hk := List.mem_range.1 hk
      rw [filter_output L zi]
      congr 1
      refine Finset.sum_congr rfl fun j hj => ?_
      have hj := Finset.mem_range.1 hj
      have := bandDraw_ge ch ops (ch * 10000) c j p hc (by omega)
      rw [ha, hidx]
      simp only [bandInput]
      rw [if_neg (by omega)]
      ring
  · have := comb_moments h (transient L zi k) (k + 1) (a k) (idx c) fun i j hi hj e => by
      rw [hidx] at e
      exact (bandDraw_inj ch ops (ch * 10000) c i c j p hc hc (by omega) (by omega) e).2
    refine ⟨this.1, this.2.trans ?_⟩
    congr 1
    refine Finset.sum_congr rfl fun j hj => ?_
    have hj := Finset.mem_range.1 hj
    rw [ha]
    dsimp only
    rw [mul_pow, Real.sq_sqrt, mul_div_assoc]
    refine div_nonneg ?_ hw.le
    rw [List.getD_eq_getElem _ _ (by omega)]
    exact hnn ops p hp hops _ (List.getElem_mem _)
  · obtain ⟨n, hn⟩ : ∃ n, n = (powersOf p ops).length := ⟨_, rfl⟩
    rw [← hn]
    have hmem : ∀ (c : ℕ) (k j : ℕ), k < n → j ∈ Finset.range (k + 1) → idx c j ∈ (Finset.range n).image (idx c) := by
      intro c k j hk hj
      have := Finset.mem_range.1 hj
      exact Finset.mem_image_of_mem _ (Finset.mem_range.2 (by omega))
    have hd : Disjoint ((Finset.range n).image (idx c)) ((Finset.range n).image (idx c')) := by
      rw [Finset.disjoint_left]
      intro i h1 h2
      obtain ⟨j, hj, rfl⟩ := Finset.mem_image.1 h1
      obtain ⟨j', hj', e⟩ := Finset.mem_image.1 h2
      rw [hidx] at e
      refine hne (bandDraw_inj ch ops (ch * 10000) c' j' c j p hc' hc ?_ ?_ e).1.symm
      · rw [← hn]; exact Finset.mem_range.1 hj'
      · rw [← hn]; exact Finset.mem_range.1 hj
    have hI := h.indep.indepFun_finset _ _ hd h.meas
    have e : ∀ c, (fun ω (k : Fin n) => transient L zi k + ∑ j ∈ Finset.range (k + 1), a k j * Z (idx c j) ω) =
        (fun (v : ((Finset.range n).image (idx c)) → ℝ) (k : Fin n) => transient L zi k +
          ∑ j ∈ (Finset.range (k + 1)).attach, a k j * v ⟨idx c j, hmem c k j k.2 j.2⟩) ∘
        (fun ω (i : ((Finset.range n).image (idx c))) => Z i ω) := by
      intro c
      funext ω k
      simp only [Function.comp]
      congr 1
      exact (Finset.sum_attach (Finset.range (k + 1)) fun j => a k j * Z (idx c j) ω).symm
    rw [e c, e c']
    refine hI.comp ?_ ?_
    · refine measurable_pi_lambda _ fun k => measurable_const.add (Finset.measurable_sum _ fun j _ => ?_)
      exact (measurable_pi_apply _).const_mul _
    · refine measurable_pi_lambda _ fun k => measurable_const.add (Finset.measurable_sum _ fun j _ => ?_)
      exact (measurable_pi_apply _).const_mul _

/-- **C108** (partial) What the test power and the transient are: the expected power of the
test signal is the mean, over its 10000 samples, of the energy of the impulse response up to
that sample; and if `zi` is the steady state for a constant input 1, with response `g`, then
the transient is `g` minus the sum of the impulse response so far. -/
theorem C108_test_partial (h : NormalDraws P Z) (L : S × ℝ →ₗ[ℝ] S × ℝ) (ch : ℕ) (hch : 0 < ch) :
    ∫ ω, testPower L ch (fun i => Z i ω) ∂P =
      (∑ k ∈ Finset.range 10000, ∑ j ∈ Finset.range (k + 1), impulse L j ^ 2) / 10000 ∧
    ∀ zi g, L (zi, 1) = (zi, g) → ∀ k, transient L zi k = g - ∑ j ∈ Finset.range (k + 1), impulse L j := by
  refine ⟨?_, fun zi g hz k => impulse_sum L zi g hz k⟩
  have hP : IsProbabilityMeasure P := h.indep.isProbabilityMeasure
  unfold testPower
  have h10 : (10000 : ℝ) = ((10000 : ℕ) : ℝ) := by norm_num
  rw [h10]
  have hpos : 0 < 10000 := by norm_num
  revert hpos
  clear h10
  generalize 10000 = n
  intro hpos
  have hsq : ∀ c k, Integrable (fun ω => (∑ j ∈ Finset.range (k + 1), impulse L (k - j) * Z (c * n + j) ω) ^ 2) P := by
    intro c k
    have : MemLp (fun ω => ∑ j ∈ Finset.range (k + 1), impulse L (k - j) * Z (c * n + j) ω) 2 P :=
      memLp_finsetSum _ fun j _ => (draw_memLp h (c * n + j)).const_mul _
    exact this.integrable_sq
  have hone : ∀ c k, ∫ ω, (∑ j ∈ Finset.range (k + 1), impulse L (k - j) * Z (c * n + j) ω) ^ 2 ∂P =
      ∑ j ∈ Finset.range (k + 1), impulse L j ^ 2 := by
    intro c k
    have := (comb_moments h 0 (k + 1) (fun j => impulse L (k - j)) (fun j => c * n + j) fun i j _ _ e => by omega).2
    simp only [zero_add, ne_eq, OfNat.ofNat_ne_zero, not_false_eq_true, zero_pow] at this
    rw [this, ← Finset.sum_range_reflect]
    refine Finset.sum_congr rfl fun j hj => ?_
    have := Finset.mem_range.1 hj
    congr 2
    omega
  rw [integral_div, integral_finsetSum _ fun c _ => integrable_finsetSum _ fun k _ => hsq c k]
  have hrow : ∀ c ∈ Finset.range ch, ∫ ω, ∑ k ∈ Finset.range n,
      (∑ j ∈ Finset.range (k + 1), impulse L (k - j) * Z (c * n + j) ω) ^ 2 ∂P =
        ∑ k ∈ Finset.range n, ∑ j ∈ Finset.range (k + 1), impulse L j ^ 2 := by
    intro c _
    rw [integral_finsetSum _ fun k _ => hsq c k]
    exact Finset.sum_congr rfl fun k _ => hone c k
  rw [Finset.sum_congr rfl hrow, Finset.sum_const, Finset.card_range, nsmul_eq_mul]
  have hn : (n : ℝ) ≠ 0 := by exact_mod_cast hpos.ne'
  have hc : (ch : ℝ) ≠ 0 := by exact_mod_cast hch.ne'
  push_cast
  field_simp

theorem powersOf_gets (p : ℝ) : ∀ ops : List SrcOp, (∀ q, SrcOp.power q ∉ ops) → ∀ j < (powersOf p ops).length,
    (powersOf p ops).getD j 0 = p := by
  intro ops hq
  have : ∀ x ∈ powersOf p ops, x = p := by
    induction ops with
    | nil => intro x hx; simp [powersOf] at hx
    | cons o ops ih =>
      cases o with
      | get n =>
        intro x hx
        simp only [powersOf, List.mem_append, List.mem_replicate] at hx
        rcases hx with hx | hx
        · exact hx.2
        · exact ih (fun q hh => hq q (by simp [hh])) x hx
      | power q => exact absurd (by simp) (hq q)
  intro j hj
  rw [List.getD_eq_getElem _ _ hj]
  exact this _ (List.getElem_mem _)

/-- **C108** (partial) Once the transient has died out, the power is right relative to the
test signal: if the energy of the impulse response is `E` and the transient tends to 0, the
expected squares of late samples come arbitrarily close to `power * E / testPower`, however
the samples are requested. -/
theorem C108_late_partial (h : NormalDraws P Z) (L : S × ℝ →ₗ[ℝ] S × ℝ) (zi : S) (ch : ℕ) (lim : ℝ × ℝ)
    (hl : lim.1 < lim.2) (w : ℕ → ℝ) (hw : 0 < testPower L ch w) (p : ℝ) (hp : 0 ≤ p) (E : ℝ)
    (hE : HasSum (fun j => impulse L j ^ 2) E)
    (ht : Filter.Tendsto (transient L zi) Filter.atTop (nhds 0)) (ε : ℝ) (hε : 0 < ε) :
    ∃ K, ∀ ops : List SrcOp, (∀ q, SrcOp.power q ∉ ops) →
      ∃ X : ℕ → ℕ → Ω → ℝ,
        (∀ ω, ∃ s s' bs,
          BandObj.create ch (.num p) lim (fun z x => L (z, x)) 0 zi ⟨fun i => if i < ch * 10000 then w i else Z i ω, 0⟩ = .ok s ∧
          runOps BandObj.get BandObj.setPower s ops = .ok (s', bs) ∧
          joinBlocks ch bs = (List.range ch).map fun c => (List.range (powersOf p ops).length).map fun k => X c k ω) ∧
        ∀ c k, c < ch → K ≤ k → k < (powersOf p ops).length →
          |∫ ω, X c k ω ^ 2 ∂P - p * E / testPower L ch w| < ε := by
  have hlim : Filter.Tendsto (fun k => transient L zi k ^ 2 + p / testPower L ch w * ∑ j ∈ Finset.range (k + 1), impulse L j ^ 2)
      Filter.atTop (nhds (0 ^ 2 + p / testPower L ch w * E)) :=
    (ht.pow 2).add (((Filter.tendsto_add_atTop_iff_nat 1).2 hE.tendsto_sum_nat).const_mul _)
  obtain ⟨K, hK⟩ := Metric.tendsto_atTop.1 hlim ε hε
  refine ⟨K, fun ops hq => ?_⟩
  obtain ⟨X, h1, h2, -⟩ := C108_partial h L zi ch lim hl w hw p ops hp fun q hh => absurd hh (hq q)
  refine ⟨X, h1, fun c k hc hKk hk => ?_⟩
  have := hK k hKk
  rw [Real.dist_eq] at this
  rw [(h2 c k hc hk).2]
  have e : ∑ j ∈ Finset.range (k + 1), impulse L (k - j) ^ 2 * (powersOf p ops).getD j 0 / testPower L ch w =
      p / testPower L ch w * ∑ j ∈ Finset.range (k + 1), impulse L j ^ 2 := by
    rw [Finset.mul_sum, ← Finset.sum_range_reflect]
    refine Finset.sum_congr rfl fun j hj => ?_
    have hj := Finset.mem_range.1 hj
    rw [powersOf_gets p ops hq _ (by omega)]
    have : k - (k + 1 - 1 - j) = j := by omega
    rw [this]
    ring
  rw [e]
  have e2 : p * E / testPower L ch w = 0 ^ 2 + p / testPower L ch w * E := by ring
  rw [e2]
  exact this

/-- **C108** is violated at the start: `zi` is the steady state for the constant input 1,
whatever the power.  A band-pass filter answers a constant input with 0; the first samples of
a source of power 0 are then not 0 but minus the step response of the filter, and the first
sample is `- h 0`. -/
theorem C108_violated (L : S × ℝ →ₗ[ℝ] S × ℝ) (zi : S) (hz : L (zi, 1) = (zi, 0)) (ch : ℕ) (lim : ℝ × ℝ)
    (hl : lim.1 < lim.2) (d : ℕ → ℝ) (n : ℕ) :
    ∃ s s', BandObj.create ch (.num 0) lim (fun z x => L (z, x)) 0 zi ⟨d, 0⟩ = .ok s ∧
      BandObj.get s n = .ok (s', (List.range ch).map fun _ => (List.range n).map fun k =>
        - ∑ j ∈ Finset.range (k + 1), impulse L j) := by
  obtain ⟨s', bs, h1, h2⟩ := band_ops (fun z x => L (z, x)) (testPower L ch d) d ch [.get n] 0 (ch * 10000) (fun _ => zi) (by simp)
  refine ⟨_, s', band_create L zi ch lim hl _ _, ?_⟩
  simp only [runOps] at h1
  cases hg : BandObj.get ⟨.num 0, testPower L ch d, fun z x => L (z, x), (List.range ch).map fun _ => zi, ⟨d, ch * 10000⟩⟩ n with
  | error e => rw [hg] at h1; cases h1
  | ok r =>
    obtain ⟨s1, b⟩ := r
    rw [hg] at h1
    simp only [Except.ok.injEq, Prod.mk.injEq] at h1
    obtain ⟨rfl, rfl⟩ := h1
    have hlen : b.length = ch := by
      unfold BandObj.get at hg
      simp only [scalePower] at hg
      simp only [Except.ok.injEq, Prod.mk.injEq] at hg
      rw [← hg.2]
      simp [Rng.normal]
    have hb : b = joinBlocks ch [b] := by
      unfold joinBlocks
      refine List.ext_getElem (by simp [hlen]) fun i h3 h4 => ?_
      simp [List.getD_eq_getElem?_getD, h3]
    rw [hb, h2]
    congr 2
    refine List.map_congr_left fun c _ => ?_
    simp only [powersOf, List.append_nil, List.length_replicate]
    refine List.map_congr_left fun k _ => ?_
    rw [filter_output L zi, impulse_sum L zi 0 hz, zero_sub, add_eq_left]
    refine Finset.sum_eq_zero fun j _ => ?_
    have : bandInput (testPower L ch d) d ch [.get n] 0 (ch * 10000) c j = 0 := by
      unfold bandInput
      have : (powersOf 0 [.get n]).getD j 0 = 0 := by
        simp only [powersOf, List.append_nil, List.getD_eq_getElem?_getD, List.getElem?_replicate]
        split <;> rfl
      rw [this]
      simp
    rw [this, mul_zero]

end

/-! ### An example: the filter `y k = x k - x (k-1)` -/

/-- The difference filter: a section with the coefficients `[1, -1, 0, 1, 0, 0]`. -/
def diffFilter : ℝ × ℝ →ₗ[ℝ] ℝ × ℝ where
  toFun q := (-q.2, q.2 + q.1)
  map_add' a b := by ext <;> simp <;> ring
  map_smul' a b := by ext <;> simp <;> ring

example : diffFilter (-1, 1) = (-1, 0) := by simp [diffFilter]

theorem diff_impulse : impulse diffFilter 0 = 1 ∧ impulse diffFilter 1 = -1 ∧ ∀ k, impulse diffFilter (k + 2) = 0 := by
  have hs : ∀ k, impulseState diffFilter (k + 1) = 0 := by
    intro k
    simp [impulseState, diffFilter]
  refine ⟨by simp [impulse, diffFilter], by simp [impulse, impulseState, diffFilter], fun k => ?_⟩
  show (diffFilter (impulseState diffFilter (k + 1), 0)).2 = 0
  rw [hs]
  simp [diffFilter]

example : HasSum (fun j => impulse diffFilter j ^ 2) 2 := by
  have : HasSum (fun j => impulse diffFilter j ^ 2) (∑ j ∈ Finset.range 2, impulse diffFilter j ^ 2) :=
      hasSum_sum_of_ne_finset_zero fun j hj => by
    obtain ⟨k, rfl⟩ : ∃ k, j = k + 2 := ⟨j - 2, by simp at hj; omega⟩
    rw [diff_impulse.2.2 k]
    norm_num
  rw [Finset.sum_range_succ, Finset.sum_range_one, diff_impulse.1, diff_impulse.2.1] at this
  norm_num at this
  exact this

example : Filter.Tendsto (transient diffFilter (-1)) Filter.atTop (nhds 0) := by
  refine tendsto_const_nhds.congr' ?_
  filter_upwards [Filter.eventually_gt_atTop 0] with k hk
  rw [impulse_sum diffFilter (-1) 0 (by simp [diffFilter]), Finset.sum_range_succ']
  obtain ⟨m, rfl⟩ : ∃ m, k = m + 1 := ⟨k - 1, by omega⟩
  rw [Finset.sum_range_succ']
  simp [diff_impulse.1, diff_impulse.2.1, diff_impulse.2.2]

/-- The first draw is 1, the others are 0: the test signal is not 0. -/
example : 0 < testPower diffFilter 1 fun i => if i = 0 then 1 else 0 := by
  unfold testPower
  refine div_pos ?_ (by norm_num)
  rw [Finset.sum_range_one]
  refine Finset.sum_pos' (fun k _ => sq_nonneg _) ⟨0, Finset.mem_range.2 (by norm_num), ?_⟩
  simp [diff_impulse.1]

example (d : ℕ → ℝ) : ∃ s s', BandObj.create 2 (.num 0) (100, 200) (fun z x => diffFilter (z, x)) 0 (-1) ⟨d, 0⟩ = .ok s ∧
    BandObj.get s 2 = .ok (s', [[-1, 0], [-1, 0]]) := by
  obtain ⟨s, s', h1, h2⟩ := C108_violated diffFilter (-1) (by simp [diffFilter]) 2 (100, 200) (by norm_num) d 2
  refine ⟨s, s', h1, ?_⟩
  rw [h2]
  simp [List.range_succ, Finset.sum_range_succ, diff_impulse.1, diff_impulse.2.1]

end Verif

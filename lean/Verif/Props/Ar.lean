/-
C96: noise with a given autocorrelation.
-/
import Verif.Lemmas.Ar
import Verif.Lemmas.Total
import Mathlib.Analysis.SpecialFunctions.Sqrt
namespace Verif

section
variable {R : Type} [Field R]

/-- What `scipy.linalg.solve_toeplitz(c, b)` returns: the solution of the system with the
symmetric Toeplitz matrix whose first column is `c`. -/
def SolvesToeplitz (solve : List R → List R → Except PyErr (List R)) : Prop :=
  ∀ c b a, solve c b = .ok a → a.length = c.length ∧
    ∀ i < c.length, ∑ j ∈ Finset.range c.length, c.getD ((i : Int) - j).natAbs 0 * a.getD j 0 = b.getD i 0

/-- C96, coefficients: for every lag `k` up to the order `p` the given autocorrelation has the
form it must have for the process `y(n) = a_1 y(n-1) + ... + a_p y(n-p) + s(n)` driven by
white noise of the returned power: `r(k) = a_1 r(|k-1|) + ... + a_p r(|k-p|)`, plus the
noise power for `k = 0`. -/
theorem C96_coefficients {solve : List R → List R → Except PyErr (List R)} (hs : SolvesToeplitz solve)
    {r a : List R} {q : R} (h : arCoeffs solve r = .ok (a, q)) :
    a.length + 1 = r.length ∧ ∀ k ≤ a.length, r.getD k 0 =
      ∑ j ∈ Finset.range a.length, a.getD j 0 * r.getD ((k : Int) - (j + 1)).natAbs 0 + if k = 0 then q else 0 := by
  unfold arCoeffs at h
  cases hsol : solve r.dropLast r.tail with
  | error x => rw [hsol] at h; cases h
  | ok a' =>
    rw [hsol] at h
    cases r with
    | nil => cases h
    | cons r0 rest =>
      have h := Except.ok.inj h
      have ha : a' = a := congrArg Prod.fst h
      have hq : r0 - (List.zipWith (· * ·) rest a').sum = q := congrArg Prod.snd h
      subst ha
      obtain ⟨hlen, heq⟩ := hs _ _ _ hsol
      rw [List.length_dropLast, List.length_cons, Nat.add_sub_cancel] at hlen
      refine ⟨by simp [hlen], ?_⟩
      intro k hk
      cases k with
      | zero =>
        simp only [Nat.cast_zero, if_true, List.getD_cons_zero]
        have e : (List.zipWith (· * ·) rest a').sum = ∑ j ∈ Finset.range a'.length,
            a'.getD j 0 * (r0 :: rest).getD ((0 : Int) - (j + 1)).natAbs 0 := by
          rw [← sum_range_list]
          congr 1
          apply List.ext_getElem
          · simp [hlen]
          · intro i h1 h2
            simp only [List.length_zipWith, List.length_map, List.length_range] at h1 h2
            simp only [List.getElem_zipWith, List.getElem_map, List.getElem_range]
            rw [show ((0 : Int) - (i + 1)).natAbs = i + 1 by omega, List.getD_cons_succ,
              List.getD_eq_getElem?_getD, List.getD_eq_getElem?_getD, List.getElem?_eq_getElem h2,
              List.getElem?_eq_getElem (by omega), Option.getD_some, Option.getD_some, mul_comm]
        rw [← e, ← hq]
        ring
      | succ k =>
        rw [if_neg (by omega), add_zero]
        have := heq k (by simp; omega)
        rw [List.tail_cons] at this
        rw [List.getD_cons_succ, ← this]
        rw [List.length_dropLast, List.length_cons, Nat.add_sub_cancel, hlen]
        refine Finset.sum_congr rfl fun j hj => ?_
        rw [Finset.mem_range] at hj
        rw [mul_comm]
        congr 1
        rw [show (((k + 1 : Nat) : Int) - (j + 1)).natAbs = ((k : Int) - j).natAbs by omega]
        rw [List.getD_eq_getElem?_getD, List.getD_eq_getElem?_getD, List.getElem?_dropLast, if_pos]
        simp only [List.length_cons]
        omega

theorem mapM_get {α β : Type} (f : α → Except PyErr β) : ∀ (l : List α) {l' : List β}, l.mapM f = .ok l' →
    l'.length = l.length ∧ ∀ (i : Nat) (x : α), l[i]? = some x → ∃ y, f x = .ok y ∧ l'[i]? = some y
  | [], l', h => by cases h; simp
  | a :: l, l', h => by
    rw [List.mapM_cons] at h
    cases ha : f a with
    | error x => rw [ha] at h; cases h
    | ok y =>
      cases hl : l.mapM f with
      | error x => rw [ha, hl] at h; cases h
      | ok ys =>
        rw [ha, hl] at h
        cases h
        obtain ⟨h1, h2⟩ := mapM_get f l hl
        refine ⟨by simp [h1], ?_⟩
        intro i x hx
        cases i with
        | zero => simp at hx; subst hx; exact ⟨y, ha, rfl⟩
        | succ i => exact h2 i x (by simpa using hx)

theorem arPrepare_spec {ord : Nat → Nat} {s : FiltNoiseSt R (List R × List R)} (A : Nat → List R)
    (hstep : ∀ c < s.zi.length, s.step c = iirStep (arTransfer (A c)).1 (arTransfer (A c)).2) :
    ∃ s', arPrepare ord s = .ok s' ∧ s'.scale = s.scale ∧ s'.step = s.step ∧ s'.zi.length = s.zi.length ∧
      s'.rng.z = s.rng.z := by
  unfold arPrepare
  refine foldlM_ok (fun t : FiltNoiseSt R (List R × List R) => t.scale = s.scale ∧ t.step = s.step ∧
    t.zi.length = s.zi.length ∧ t.rng.z = s.rng.z) _ _ s ?_ ⟨rfl, rfl, rfl, rfl⟩
  rintro t c hc ⟨h1, h2, h3, h4⟩
  obtain ⟨t', out, g1, g2, g3, g4, g5, _⟩ := filtNoise_get_ar
    (s := ({ t with scale := fun _ => s.scale c } : FiltNoiseSt R (List R × List R))) A
    (by simp only [h3, h2]; exact hstep) (ord c)
  simp only [g1]
  exact ⟨_, rfl, rfl, by rw [g3]; exact h2, by rw [g4]; exact h3, by rw [g5]; exact h4⟩

/-- C96, samples: whatever the sizes of the requests, every sample of a channel, from the
`p`-th on, is `a_1 y(n-1) + ... + a_p y(n-p)` with the coefficients of the channel, plus a draw
scaled to the noise power of the channel; no draw is used for two samples. -/
theorem C96_recursion {solve : List R → List R → Except PyErr (List R)} {sqrt : R → R}
    {valid : List (List R) → Bool} {ord : Nat → Nat} {ch : Nat} {autocorr : List (List R)} {rng : Rng R}
    {s : FiltNoiseSt R (List R × List R)}
    (h : autocorrInit solve sqrt valid ord ch autocorr rng = .ok s) (ns : List Nat) :
    ∃ s' bs, runRequests FiltNoiseSt.get s ns = .ok (s', bs) ∧ ∃ idx : Nat → Nat → Nat,
      (∀ c c' k k' : Nat, c < ch → c' < ch → k < ns.sum → k' < ns.sum → idx c k = idx c' k' → c = c' ∧ k = k') ∧
      ∀ c < ch, ∃ r a q row, autocorr[c]? = some r ∧ arCoeffs solve r = .ok (a, q) ∧
        (joinBlocks ch bs)[c]? = some row ∧ row.length = ns.sum ∧
        ∀ k < ns.sum, a.length ≤ k → row.getD k 0 =
          ∑ j ∈ Finset.range a.length, a.getD j 0 * row.getD (k - (j + 1)) 0 + sqrt q * rng.z (idx c k) := by
  unfold autocorrInit at h
  split at h
  · cases h
  split at h
  · cases h
  next hch _ =>
  simp only [ne_eq, not_not] at hch
  cases hm : autocorr.mapM (arCoeffs solve) with
  | error x => rw [hm] at h; cases h
  | ok coeffs =>
    rw [hm] at h
    simp only at h
    obtain ⟨s1, e1, e2, e3, e4, e5⟩ := arPrepare_spec (ord := ord)
      (s := { scale := fun c => sqrt (coeffs.getD c ([], 0)).2,
              step := fun c => iirStep (arTransfer (coeffs.getD c ([], 0)).1).1 (arTransfer (coeffs.getD c ([], 0)).1).2,
              zi := List.replicate ch ([], []), rng := rng }) (fun c => (coeffs.getD c ([], 0)).1) (fun _ _ => rfl)
    rw [h] at e1
    cases e1
    simp only [List.length_replicate] at e4
    obtain ⟨hlen, hco⟩ := mapM_get _ _ hm
    obtain ⟨s', bs, h1, h2⟩ := filtNoise_requests_ar (fun c => (coeffs.getD c ([], 0)).1) ns (s := s)
      (by intro c hc; rw [e3])
    refine ⟨s', bs, h1, drawIdx ch s.rng.pos ns, ?_, ?_⟩
    · intro c c' k k' hc hc' hk hk' he
      exact drawIdx_inj ch ns _ c k c' k' hc hc' hk hk' he
    · intro c hc
      rw [e4] at h2
      obtain ⟨r, hr⟩ : ∃ r, autocorr[c]? = some r := ⟨_, List.getElem?_eq_getElem (by omega)⟩
      obtain ⟨⟨a, q⟩, haq, hc2⟩ := hco c r hr
      obtain ⟨z, hz⟩ : ∃ z, s.zi[c]? = some z := ⟨_, List.getElem?_eq_getElem (by omega)⟩
      obtain ⟨row, k1, k2, k3⟩ := h2 c hc z hz
      refine ⟨r, a, q, row, hr, haq, k1, k2, ?_⟩
      intro k hk hak
      have hcd : coeffs.getD c ([], 0) = (a, q) := by
        rw [List.getD_eq_getElem?_getD, hc2, Option.getD_some]
      have := k3 k hk
      rw [e2, e5] at this
      simp only [hcd] at this
      rw [List.getD_eq_getElem?_getD, this, Option.getD_some, add_comm]
      congr 1
      unfold arSum
      rw [sum_range_list]
      refine Finset.sum_congr rfl fun j hj => ?_
      rw [Finset.mem_range] at hj
      congr 1
      rw [List.getD_eq_getElem?_getD, List.getElem?_append_left (by simp; omega),
        List.getElem?_reverse (by simp; omega), List.length_take, List.getElem?_take_of_lt (by omega),
        List.getD_eq_getElem?_getD]
      congr 2
      omega

end

/-- Sample `k` of a recursion of order 1 that starts from silence. -/
theorem ar1_closed {ρ σ : ℝ} {z y : Nat → ℝ} (h0 : y 0 = σ * z 0) (h : ∀ k, y (k + 1) = σ * z (k + 1) + ρ * y k) :
    ∀ k, y k = ∑ i ∈ Finset.range (k + 1), (σ * ρ ^ (k - i)) * z i
  | 0 => by simp [h0]
  | k + 1 => by
    rw [h, ar1_closed h0 h k, Finset.sum_range_succ _ (k + 1), Nat.sub_self, pow_zero, mul_one, Finset.mul_sum, add_comm]
    congr 1
    refine Finset.sum_congr rfl fun i hi => ?_
    rw [Finset.mem_range] at hi
    rw [show k + 1 - i = (k - i) + 1 by omega, pow_succ]
    ring

/-- C96, the claim that the source has the given autocorrelation is violated by its first
samples: it starts from silence and only runs as many samples ahead as the filter has
coefficients.  For every autocorrelation `[r0, r1]` with `0 < |r1| < r0`, and whatever the
length `ord 0` of the run ahead, the first sample is a combination of independent draws of
variance 1 whose variance, the sum of the squared coefficients, is less than `r0`. -/
theorem C96_violated {r0 r1 : ℝ} (h1 : |r1| < r0) (hne : r1 ≠ 0)
    {solve : List ℝ → List ℝ → Except PyErr (List ℝ)} (hs : SolvesToeplitz solve)
    (hok : ∃ a, solve [r0] [r1] = .ok a) (ord : Nat → Nat) :
    ∃ coef : Nat → ℝ, (∀ z : Nat → ℝ, ∃ s s' y,
      autocorrInit solve Real.sqrt (fun _ => true) ord 1 [[r0, r1]] ⟨z, 0⟩ = .ok s ∧
      s.get 1 = .ok (s', [[y]]) ∧ y = ∑ i ∈ Finset.range (ord 0 + 1), coef i * z i) ∧
      ∑ i ∈ Finset.range (ord 0 + 1), coef i ^ 2 < r0 := by
  have hr0 : 0 < r0 := (abs_nonneg r1).trans_lt h1
  obtain ⟨a, ha⟩ := hok
  obtain ⟨hl, heq⟩ := hs _ _ _ ha
  have ha1 : a = [r1 / r0] := by
    match a, hl with
    | [x], _ =>
      have := heq 0 (by simp)
      simp at this
      rw [← this]
      congr 1
      field_simp
  subst ha1
  obtain ⟨ρ, hρ⟩ : ∃ ρ, ρ = r1 / r0 := ⟨_, rfl⟩
  obtain ⟨q, hq⟩ : ∃ q, q = r0 - r1 * (r1 / r0) := ⟨_, rfl⟩
  have hq' : q = r0 * (1 - ρ ^ 2) := by
    rw [hq, hρ]; field_simp
  have hρ1 : ρ ^ 2 < 1 := by
    rw [hρ, sq_lt_one_iff_abs_lt_one, abs_div, abs_of_pos hr0, div_lt_one hr0]
    exact h1
  have hρ0 : 0 < ρ ^ 2 := by
    rw [hρ]
    have : r1 / r0 ≠ 0 := div_ne_zero hne hr0.ne'
    positivity
  have hqpos : 0 ≤ q := by
    rw [hq']
    exact mul_nonneg hr0.le (by linarith)
  have hco : arCoeffs solve [r0, r1] = .ok ([ρ], q) := by
    unfold arCoeffs
    rw [show [r0, r1].dropLast = [r0] from rfl, show [r0, r1].tail = [r1] from rfl, ha]
    simp [hρ, hq]
  refine ⟨fun i => Real.sqrt q * ρ ^ (ord 0 - i), ?_, ?_⟩
  · intro z
    obtain ⟨s0, hs0⟩ : ∃ s0 : FiltNoiseSt ℝ (List ℝ × List ℝ), s0 =
        { scale := fun c => Real.sqrt (([([ρ], q)] : List (List ℝ × ℝ)).getD c ([], 0)).2,
          step := fun c => iirStep (arTransfer (([([ρ], q)] : List (List ℝ × ℝ)).getD c ([], 0)).1).1
            (arTransfer (([([ρ], q)] : List (List ℝ × ℝ)).getD c ([], 0)).1).2,
          zi := List.replicate 1 ([], []), rng := ⟨z, 0⟩ } := ⟨_, rfl⟩
    have hstep0 : ∀ c < s0.zi.length, s0.step c = iirStep (arTransfer [ρ]).1 (arTransfer [ρ]).2 := by
      intro c hc
      rw [hs0] at hc ⊢
      have : c = 0 := by simpa using hc
      subst this
      rfl
    have hzl : s0.zi.length = 1 := by rw [hs0]; rfl
    have hsc : s0.scale 0 = Real.sqrt q := by rw [hs0]; rfl
    obtain ⟨s1, out, g1, g2, g3, g4, g5, g6, g7, g8⟩ := filtNoise_get_ar
      (s := ({ s0 with scale := fun _ => s0.scale 0 } : FiltNoiseSt ℝ (List ℝ × List ℝ))) (fun _ => [ρ]) hstep0 (ord 0)
    obtain ⟨row, z1, k1, k2, k3, k4, k5⟩ := g8 0 (by simp [hzl]) ([], []) (by rw [hs0]; rfl)
    obtain ⟨s2, out2, l1, l2, l3, l4, l5, l6, l7, l8⟩ := filtNoise_get_ar
      (s := ({ s1 with scale := s0.scale } : FiltNoiseSt ℝ (List ℝ × List ℝ))) (fun _ => [ρ])
      (by simp only [g3, g4]; exact hstep0) 1
    obtain ⟨row2, z2, m1, m2, m3, m4, m5⟩ := l8 0 (by simp only [g4, hzl]; decide) z1 k2
    have hm5 := m5 0 (by decide)
    have hout2 : out2 = [[s0.scale 0 * z (ord 0) + arSum [ρ] row.reverse]] := by
      have hlen2 : out2.length = 1 := by rw [l7]; simp only [g4, hzl]
      match out2, hlen2 with
      | [x], _ =>
        have hx : x = row2 := by simpa using m1
        subst hx
        match x, m3 with
        | [v], _ =>
          simp only [List.getElem?_cons_zero, Option.some.injEq] at hm5
          rw [hm5, g5, g6, k4, hzl]
          simp only [hs0]
          simp
    refine ⟨{ s1 with scale := s0.scale }, s2, s0.scale 0 * z (ord 0) + arSum [ρ] row.reverse, ?_, ?_, ?_⟩
    · unfold autocorrInit
      have hmap : [[r0, r1]].mapM (arCoeffs solve) = .ok [([ρ], q)] := by
        rw [List.mapM_cons, hco]
        rfl
      rw [if_neg (by simp), if_neg (by simp), hmap]
      simp only [← hs0]
      unfold arPrepare
      rw [hzl, show List.range 1 = [0] from rfl, List.foldlM_cons, g1]
      rfl
    · rw [l1, hout2]
    · -- the recursion
      have hrow : ∀ k (hk : k < row.length), row[k]? = some (Real.sqrt q * z k +
          if k = 0 then 0 else ρ * row.getD (k - 1) 0) := by
        intro k hk
        rw [k5 k (by omega)]
        have hsum : arSum [ρ] ((row.take k).reverse ++ []) = if k = 0 then 0 else ρ * row.getD (k - 1) 0 := by
          unfold arSum
          simp only [List.append_nil, List.length_singleton, List.range_one, List.map_cons, List.map_nil,
            List.sum_singleton, List.getD_cons_zero]
          cases k with
          | zero => simp
          | succ k =>
            rw [if_neg (by omega), List.getD_eq_getElem?_getD, List.getElem?_reverse (by simp; omega),
              List.length_take, List.getElem?_take_of_lt (by omega), List.getD_eq_getElem?_getD]
            congr 3
            omega
        rw [hsum]
        simp [hs0]
      have hy : ∀ w, w ≤ row.length → ∃ y : Nat → ℝ, y 0 = Real.sqrt q * z 0 ∧
          (∀ k, y (k + 1) = Real.sqrt q * z (k + 1) + ρ * y k) ∧ ∀ k < w, row.getD k 0 = y k := by
        intro w hw
        refine ⟨fun k => Nat.rec (Real.sqrt q * z 0) (fun k v => Real.sqrt q * z (k + 1) + ρ * v) k, rfl,
          fun _ => rfl, ?_⟩
        intro k hk
        induction k with
        | zero => rw [List.getD_eq_getElem?_getD, hrow 0 (by omega)]; simp
        | succ k ih =>
          rw [List.getD_eq_getElem?_getD, hrow (k + 1) (by omega), if_neg (by omega), Option.getD_some,
            Nat.add_sub_cancel, ih (by omega)]
      obtain ⟨y, y0, y1, y2⟩ := hy row.length le_rfl
      rw [← ar1_closed y0 y1 (ord 0), hsc]
      have hsum : arSum [ρ] row.reverse = if ord 0 = 0 then 0 else ρ * y (ord 0 - 1) := by
        unfold arSum
        simp only [List.length_singleton, List.range_one, List.map_cons, List.map_nil,
          List.sum_singleton, List.getD_cons_zero]
        by_cases h0 : ord 0 = 0
        · rw [if_pos h0]
          have : row = [] := List.eq_nil_of_length_eq_zero (by omega)
          rw [this]
          simp
        · rw [if_neg h0, List.getD_eq_getElem?_getD, List.getElem?_reverse (by omega), Nat.sub_zero,
            ← List.getD_eq_getElem?_getD, k3, y2 _ (by omega)]
      rw [hsum]
      by_cases h0 : ord 0 = 0
      · rw [if_pos h0, h0, y0, add_zero]
      · rw [if_neg h0]
        obtain ⟨w, hw⟩ : ∃ w, ord 0 = w + 1 := ⟨ord 0 - 1, by omega⟩
        rw [hw, y1, Nat.add_sub_cancel]
  · have e : ∀ i ∈ Finset.range (ord 0 + 1), (Real.sqrt q * ρ ^ (ord 0 - i)) ^ 2 = q * (ρ ^ 2) ^ (ord 0 - i) := by
      intro i _
      rw [mul_pow, Real.sq_sqrt hqpos, ← pow_mul, ← pow_mul, mul_comm 2]
    rw [Finset.sum_congr rfl e, ← Finset.mul_sum]
    have e2 := Finset.sum_range_reflect (fun i => (ρ ^ 2) ^ i) (ord 0 + 1)
    simp only [Nat.add_sub_cancel] at e2
    rw [e2, hq', mul_assoc, mul_neg_geom_sum]
    have : 0 < (ρ ^ 2) ^ (ord 0 + 1) := pow_pos hρ0 _
    nlinarith

/-! ### Examples -/

/-- The solution of systems of one equation. -/
noncomputable def solveOne : List ℝ → List ℝ → Except PyErr (List ℝ)
  | [x], [y] => if x = 4 then .ok [y / 4] else .error .value
  | _, _ => .error .value

theorem solveOne_solves : SolvesToeplitz solveOne := by
  intro c b a h
  match c, b with
  | [x], [y] =>
    simp only [solveOne] at h
    split at h
    · next hx =>
      cases h
      refine ⟨rfl, ?_⟩
      intro i hi
      have : i = 0 := by simpa using hi
      subst this
      simp [hx]
      ring
    · cases h
  | [], _ => simp [solveOne] at h
  | [_], [] => simp [solveOne] at h
  | [_], _ :: _ :: _ => simp [solveOne] at h
  | _ :: _ :: _, _ => simp [solveOne] at h

/-- Autocorrelation `[4, 2]`. -/
example : arCoeffs solveOne [4, 2] = .ok ([2 / 4], 4 - (2 * (2 / 4) + 0)) := by
  simp [arCoeffs, solveOne]

example : ∃ coef : Nat → ℝ, (∀ z : Nat → ℝ, ∃ s s' y,
      autocorrInit solveOne Real.sqrt (fun _ => true) (fun _ => 1) 1 [[4, 2]] ⟨z, 0⟩ = .ok s ∧
      s.get 1 = .ok (s', [[y]]) ∧ y = ∑ i ∈ Finset.range 2, coef i * z i) ∧
      ∑ i ∈ Finset.range 2, coef i ^ 2 < 4 :=
  C96_violated (by norm_num [abs_of_pos]) (by norm_num) solveOne_solves ⟨[2 / 4], by simp [solveOne]⟩ fun _ => 1

/-- Two channels of order 1 over the rational numbers (a "square root" that halves): the
requests 2 and 1. -/
example : ((autocorrInit (fun c b => match c, b with
      | [x], [y] => .ok [y / x]
      | _, _ => .error .value) (fun x => x / 2) (fun _ => true) (fun _ => 1) 2 [[4, 2], [2, -1]]
      ⟨fun k => ((k : Nat) : ℚ), 0⟩).toOption.bind fun s =>
        (runRequests FiltNoiseSt.get s [2, 1]).toOption.map fun r => joinBlocks 2 r.2) =
    some [[27 / 4, 87 / 8, 279 / 16], [15 / 4, 27 / 8, 81 / 16]] := by
  decide +kernel

end Verif

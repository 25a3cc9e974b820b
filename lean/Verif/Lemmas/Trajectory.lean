/-
Lemmas about trajectories.
-/
import Verif.Spec.Trajectory
import Verif.Lemmas.Points
import Mathlib.Algebra.Order.BigOperators.Group.Finset
namespace Verif

section
variable {d : Nat}

theorem vdist_pos {p q : Vec d} (h : p ≠ q) : 0 < vdist p q := by
  unfold vdist
  apply Real.sqrt_pos.2
  obtain ⟨i, hi⟩ := Function.ne_iff.1 h
  apply Finset.sum_pos' (fun j _ => sq_nonneg _)
  exact ⟨i, Finset.mem_univ i, by have : p i - q i ≠ 0 := sub_ne_zero.2 hi
                                  positivity⟩

theorem blend_eq (p q : Vec d) (f : ℝ) : blend p q f = between p q f := by
  funext i; unfold blend between; ring

theorem between_zero (p q : Vec d) : between p q 0 = p := by funext i; simp [between]
theorem between_one (p q : Vec d) : between p q 1 = q := by funext i; simp [between]

theorem dist_between (p q : Vec d) (x y : ℝ) :
    √(∑ i, (between p q x i - between p q y i) ^ 2) = |x - y| * vdist p q := by
  have : ∀ i, (between p q x i - between p q y i) ^ 2 = (x - y) ^ 2 * (p i - q i) ^ 2 := by
    intro i; unfold between; ring
  simp only [this]
  rw [← Finset.mul_sum, Real.sqrt_mul (sq_nonneg _), Real.sqrt_sq_eq_abs]; rfl

theorem segLengths_cons (p q : Vec d) (rest : List (Vec d)) :
    segLengths (p :: q :: rest) = vdist p q :: segLengths (q :: rest) := by
  simp [segLengths]

theorem segLengths_length (pts : List (Vec d)) : (segLengths pts).length = pts.length - 1 := by
  simp [segLengths]

theorem segLengths_get (pts : List (Vec d)) (k : Nat) (p q : Vec d) (h1 : pts[k]? = some p) (h2 : pts[k + 1]? = some q) :
    (segLengths pts)[k]? = some (vdist p q) := by
  unfold segLengths
  rw [List.getElem?_zipWith, h1, List.getElem?_tail, h2]

theorem pathLength_eq : ∀ (pts : List (Vec d)), pathLength pts = (segLengths pts).sum
  | [] => by simp [pathLength, segLengths]
  | [p] => by simp [pathLength, segLengths]
  | p :: q :: rest => by
    rw [segLengths_cons, List.sum_cons, ← pathLength_eq (q :: rest)]; rfl

theorem segLengths_take : ∀ (pts : List (Vec d)) (k : Nat), (segLengths pts).take k = segLengths (pts.take (k + 1))
  | [], k => by simp [segLengths]
  | [p], k => by cases k <;> simp [segLengths]
  | p :: q :: rest, 0 => by simp [segLengths]
  | p :: q :: rest, k + 1 => by
    rw [segLengths_cons, List.take_succ_cons, segLengths_take (q :: rest) k]
    simp only [List.take_succ_cons, segLengths_cons]

theorem sum_map_div (l : List ℝ) (c : ℝ) : (l.map fun s => s / c).sum = l.sum / c := by
  induction l with
  | nil => simp
  | cons a l ih => simp [ih]; ring

theorem cumul_get (l : List ℝ) (k : Nat) (hk : k ≤ l.length) : (cumul l)[k]? = some (l.take k).sum := by
  unfold cumul
  rw [List.getElem?_map, List.getElem?_range (by omega)]; rfl

theorem cumul_length (l : List ℝ) : (cumul l).length = l.length + 1 := by simp [cumul]

/-- The first index above a time between two neighbouring values of a non-decreasing list. -/
theorem firstAbove_eq (cum : List ℝ) (t : ℝ) (k : Nat) (c : ℝ) (h1 : ∀ j ≤ k, ∀ c', cum[j]? = some c' → c' ≤ t)
    (h2 : cum[k + 1]? = some c) (h3 : t < c) : firstAbove cum t = k + 1 := by
  obtain ⟨hk, hc⟩ := List.getElem?_eq_some_iff.1 h2
  have : cum.findIdx (fun c => decide (t < c)) = k + 1 := by
    rw [List.findIdx_eq hk]
    constructor
    · rw [hc]; simpa using h3
    · intro j hj
      simpa using h1 j (by omega) _ (List.getElem?_eq_getElem (by omega))
  unfold firstAbove
  simp only [this]
  rw [if_pos hk]

theorem firstAbove_none (cum : List ℝ) (t : ℝ) (h : ∀ c ∈ cum, c ≤ t) : firstAbove cum t = 0 := by
  unfold firstAbove
  have : cum.findIdx (fun c => decide (t < c)) = cum.length := by
    rw [List.findIdx_eq_length]
    intro x hx
    simpa using h x hx
  simp [this]

/-- The values of `cumulative_samples` are the arrival times. -/
theorem cum_arrival (pts : List (Vec d)) (T : ℝ) (k : Nat) (hk : k + 1 ≤ pts.length) :
    (cumul ((segLengths pts).map fun s => s / ((segLengths pts).sum / T)))[k]? = some (arrival pts T k) := by
  rw [cumul_get _ _ (by simp [segLengths_length]; omega), ← List.map_take, sum_map_div, segLengths_take,
    ← pathLength_eq, ← pathLength_eq]
  congr 1
  unfold arrival
  rw [div_div_eq_mul_div, mul_div_assoc', mul_comm]

theorem arrival_zero (pts : List (Vec d)) (T : ℝ) : arrival pts T 0 = 0 := by
  unfold arrival
  cases pts with
  | nil => simp [pathLength]
  | cons p rest => simp [pathLength]

theorem arrival_succ (pts : List (Vec d)) (T : ℝ) (k : Nat) (p q : Vec d) (h1 : pts[k]? = some p)
    (h2 : pts[k + 1]? = some q) : arrival pts T (k + 1) = arrival pts T k + T * (vdist p q / pathLength pts) := by
  have h := segLengths_get pts k p q h1 h2
  unfold arrival
  have e : pathLength (pts.take (k + 1 + 1)) = pathLength (pts.take (k + 1)) + vdist p q := by
    rw [pathLength_eq, pathLength_eq, ← segLengths_take, ← segLengths_take, List.take_add_one, h]
    simp
  rw [e]; ring

theorem arrival_last (pts : List (Vec d)) (T : ℝ) (h : pathLength pts ≠ 0) : arrival pts T (pts.length - 1) = T := by
  unfold arrival
  rw [List.take_of_length_le (by omega), div_self h, mul_one]

theorem segLengths_pos {pts : List (Vec d)} (hd : ∀ (k : Nat) (p q : Vec d), pts[k]? = some p → pts[k + 1]? = some q → p ≠ q) :
    ∀ s ∈ segLengths pts, 0 < s := by
  intro s hs
  obtain ⟨k, hk⟩ := List.mem_iff_getElem?.1 hs
  have hlt := (List.getElem?_eq_some_iff.1 hk).1
  rw [segLengths_length] at hlt
  have h1 := List.getElem?_eq_getElem (l := pts) (i := k) (by omega)
  have h2 := List.getElem?_eq_getElem (l := pts) (i := k + 1) (by omega)
  have := segLengths_get pts k _ _ h1 h2
  rw [this] at hk
  rw [← Option.some.inj hk]
  exact vdist_pos (hd k _ _ h1 h2)

theorem pathLength_pos {pts : List (Vec d)} (h2 : 2 ≤ pts.length)
    (hd : ∀ (k : Nat) (p q : Vec d), pts[k]? = some p → pts[k + 1]? = some q → p ≠ q) : 0 < pathLength pts := by
  rw [pathLength_eq]
  apply List.sum_pos _ (segLengths_pos hd)
  intro h
  have := segLengths_length pts
  rw [h] at this; simp at this; omega

theorem arrival_le {pts : List (Vec d)} {T : ℝ} (hT : 0 < T)
    (hd : ∀ (k : Nat) (p q : Vec d), pts[k]? = some p → pts[k + 1]? = some q → p ≠ q) (j : Nat) :
    ∀ k, j ≤ k → k < pts.length → arrival pts T j ≤ arrival pts T k := by
  intro k hjk
  induction hjk with
  | refl => intro _; exact le_rfl
  | step h ih =>
    intro hk
    rename_i k
    refine le_trans (ih (by omega)) ?_
    have h1 := List.getElem?_eq_getElem (l := pts) (i := k) (by omega)
    have h2 := List.getElem?_eq_getElem (l := pts) (i := k + 1) (by omega)
    rw [arrival_succ pts T k _ _ h1 h2]
    have hp := vdist_pos (hd k _ _ h1 h2)
    have hl := pathLength_pos (by omega) hd
    have : 0 ≤ T * (vdist pts[k] pts[k + 1] / pathLength pts) := by positivity
    linarith

/-- Every time of a period is between two neighbouring arrivals. -/
theorem exists_segment {pts : List (Vec d)} {T : ℝ} (t : ℝ) (h0 : 0 ≤ t) :
    ∀ m, t < arrival pts T m → ∃ k, k < m ∧ arrival pts T k ≤ t ∧ t < arrival pts T (k + 1)
  | 0, h => by rw [arrival_zero] at h; linarith
  | m + 1, h => by
    by_cases h' : t < arrival pts T m
    · obtain ⟨k, h1, h2⟩ := exists_segment t h0 m h'
      exact ⟨k, by omega, h2⟩
    · exact ⟨m, by omega, not_lt.1 h', h⟩

/-- What the position function computes at a time of the period. -/
theorem constantSpeed_eq (pts : List (Vec d)) (period samplerate : ℝ) (hT : 0 < period * samplerate)
    (hd : ∀ (k : Nat) (p q : Vec d), pts[k]? = some p → pts[k + 1]? = some q → p ≠ q) (h2 : 2 ≤ pts.length) :
    ∃ f, constantSpeed pts period samplerate = .ok f ∧
      (∀ n m, fmod n (period * samplerate) = fmod m (period * samplerate) → f n = f m) ∧
      ∀ (n : ℝ) (k : Nat) (p q : Vec d), pts[k]? = some p → pts[k + 1]? = some q →
        arrival pts (period * samplerate) k ≤ fmod n (period * samplerate) →
        fmod n (period * samplerate) < arrival pts (period * samplerate) (k + 1) →
        f n = .ok (between p q ((fmod n (period * samplerate) - arrival pts (period * samplerate) k) /
          (arrival pts (period * samplerate) (k + 1) - arrival pts (period * samplerate) k))) := by
  refine ⟨_, by unfold constantSpeed; rw [if_neg (not_not.2 (segLengths_pos hd))], ?_, ?_⟩
  · intro n m h
    simp only [h]
  · intro n k p q hp hq ha hb
    have hk := (List.getElem?_eq_some_iff.1 hq).1
    have hcom : samplerate * period = period * samplerate := mul_comm _ _
    simp only [hcom]
    obtain ⟨T, hTe⟩ : ∃ T, T = period * samplerate := ⟨_, rfl⟩
    rw [← hTe] at ha hb hT ⊢
    have hcum := fun k hk => cum_arrival pts T k hk
    have hfirst : firstAbove (cumul ((segLengths pts).map fun s => s / ((segLengths pts).sum / T))) (fmod n T) = k + 1 := by
      apply firstAbove_eq _ _ k _ _ (hcum (k + 1) hk) hb
      intro j hj c' hc'
      rw [hcum j (by omega)] at hc'
      rw [← Option.some.inj hc']
      exact le_trans (arrival_le hT hd j k hj (by omega)) ha
    have hseg := segLengths_get pts k p q hp hq
    simp only [hfirst, prevIdx, Nat.add_sub_cancel, hcum k (by omega), List.getElem?_map, hseg, Option.map_some, hp, hq]
    rw [if_neg (by omega), if_neg (by omega), if_neg (by omega)]
    dsimp only
    rw [blend_eq]
    congr 3
    rw [arrival_succ pts T k p q hp hq, ← pathLength_eq]
    rw [add_sub_cancel_left, div_div_eq_mul_div, mul_div_assoc', mul_comm T]

theorem timeCum_get (N : Nat) (s : ℝ) (k : Nat) (hk : k < N) :
    ((List.range N).map fun (k : Nat) => (k : ℝ) * s)[k]? = some ((k : ℝ) * s) := by
  rw [List.getElem?_map, List.getElem?_range hk]; rfl

theorem constantTime_low (poly : List (Vec d)) (period samplerate : ℝ) (hT : 0 < period * samplerate) (n : ℝ) (k : Nat) (p q : Vec d)
    (hp : poly[k]? = some p) (hq : poly[k + 1]? = some q)
    (h1 : k * (period * samplerate / poly.length) ≤ fmod n (period * samplerate))
    (h2 : fmod n (period * samplerate) < (k + 1) * (period * samplerate / poly.length)) :
    constantTime poly period samplerate n = .ok (between p q
      ((fmod n (period * samplerate) - k * (period * samplerate / poly.length)) / (period * samplerate / poly.length))) := by
  have hk := (List.getElem?_eq_some_iff.1 hq).1
  have e : period / (poly.length : ℝ) * samplerate = period * samplerate / poly.length := by ring
  unfold constantTime
  simp only [e]
  have hN : (0 : ℝ) < poly.length := by exact_mod_cast (by omega : 0 < poly.length)
  have hs : 0 < period * samplerate / poly.length := by positivity
  obtain ⟨s, hse⟩ : ∃ s, s = period * samplerate / poly.length := ⟨_, rfl⟩
  rw [← hse] at h1 h2 hs ⊢
  have hfirst : firstAbove ((List.range poly.length).map fun (k : Nat) => (k : ℝ) * s) (fmod n (period * samplerate)) = k + 1 := by
    apply firstAbove_eq _ _ k _ _ (timeCum_get poly.length s (k + 1) hk) (by push_cast; exact h2)
    intro j hj c' hc'
    rw [timeCum_get poly.length s j (by omega)] at hc'
    rw [← Option.some.inj hc']
    have : (j : ℝ) ≤ k := by exact_mod_cast hj
    nlinarith
  simp only [hfirst, prevIdx, Nat.add_sub_cancel, timeCum_get poly.length s k (by omega), hp, hq]
  rw [if_neg (by omega), if_neg (by omega)]
  dsimp only
  rw [blend_eq]

theorem constantTime_high (poly : List (Vec d)) (period samplerate : ℝ) (hT : 0 < period * samplerate) (n : ℝ) (p q : Vec d)
    (hp : poly.getLast? = some p) (hq : poly.head? = some q)
    (h1 : (poly.length - 1) * (period * samplerate / poly.length) ≤ fmod n (period * samplerate)) :
    constantTime poly period samplerate n = .ok (between p q
      ((fmod n (period * samplerate) - (poly.length - 1) * (period * samplerate / poly.length)) /
        (period * samplerate / poly.length))) := by
  have hlen : 0 < poly.length := by
    cases poly with
    | nil => simp at hq
    | cons _ _ => simp
  have e : period / (poly.length : ℝ) * samplerate = period * samplerate / poly.length := by ring
  unfold constantTime
  simp only [e]
  have hN : (0 : ℝ) < poly.length := by exact_mod_cast hlen
  have hs : 0 < period * samplerate / poly.length := by positivity
  obtain ⟨s, hse⟩ : ∃ s, s = period * samplerate / poly.length := ⟨_, rfl⟩
  rw [← hse] at h1 hs ⊢
  have hfirst : firstAbove ((List.range poly.length).map fun (k : Nat) => (k : ℝ) * s) (fmod n (period * samplerate)) = 0 := by
    apply firstAbove_none
    intro c hc
    obtain ⟨j, hj, rfl⟩ := List.mem_map.1 hc
    have hj := List.mem_range.1 hj
    have : (j : ℝ) + 1 ≤ poly.length := by exact_mod_cast hj
    nlinarith
  have hcl : ((List.range poly.length).map fun (k : Nat) => (k : ℝ) * s).getLast? = some ((poly.length - 1) * s) := by
    rw [List.getLast?_eq_getElem?, List.length_map, List.length_range, timeCum_get _ _ _ (by omega)]
    congr 2
    rw [Nat.cast_sub (by omega)]; simp
  rw [List.head?_eq_getElem?] at hq
  simp only [hfirst, prevIdx, if_true, hcl, hp, hq]
  rw [blend_eq]

end
end Verif

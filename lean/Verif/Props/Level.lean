/-
C199: levels in decibels.
-/
import Verif.Model.Level
import Verif.Props.Export
import Mathlib.Analysis.SpecialFunctions.Pow.Real
namespace Verif

noncomputable section

open Classical in
/-- The level of a power in decibels: the number `y` with `10^(y/10)` the power, and `-inf` for no power. -/
def IsLevel (p : ℝ) : LevelVal → Prop
  | .val y => p = (10 : ℝ) ^ (y / 10)
  | .negInf => p = 0
  | .nan => p < 0

theorem npLog_level (x : ℝ) : IsLevel x ((npLog (Real.logb 10) (.val x)).times 10) := by
  unfold npLog
  dsimp only
  split
  · rename_i h
    change x = (10 : ℝ) ^ (10 * Real.logb 10 x / 10)
    rw [mul_div_cancel_left₀ _ (by norm_num), Real.rpow_logb (by norm_num) (by norm_num) h]
  · split
    · assumption
    · rename_i h0 h1
      exact lt_of_le_of_ne (not_lt.mp h0) h1

theorem isLevel_unique {p : ℝ} {a b : LevelVal} (ha : IsLevel p a) (hb : IsLevel p b) : a = b := by
  have pos : ∀ y : ℝ, (0 : ℝ) < (10 : ℝ) ^ y := fun y => Real.rpow_pos_of_pos (by norm_num) y
  cases a with
  | val y =>
    cases b with
    | val z =>
      have h : (10 : ℝ) ^ (y / 10) = (10 : ℝ) ^ (z / 10) := ha.symm.trans hb
      have := congrArg (Real.logb 10) h
      rw [Real.logb_rpow (by norm_num) (by norm_num), Real.logb_rpow (by norm_num) (by norm_num)] at this
      congr 1
      linarith
    | negInf =>
      have h1 : p = (10 : ℝ) ^ (y / 10) := ha
      have h2 : p = 0 := hb
      have := pos (y / 10)
      linarith
    | nan =>
      have h1 : p = (10 : ℝ) ^ (y / 10) := ha
      have h2 : p < 0 := hb
      have := pos (y / 10)
      linarith
  | negInf =>
    have h1 : p = 0 := ha
    cases b with
    | val z =>
      have h2 : p = (10 : ℝ) ^ (z / 10) := hb
      have := pos (z / 10)
      linarith
    | negInf => rfl
    | nan =>
      have h2 : p < 0 := hb
      linarith
  | nan =>
    have h1 : p < 0 := ha
    cases b with
    | val z =>
      have h2 : p = (10 : ℝ) ^ (z / 10) := hb
      have := pos (z / 10)
      linarith
    | negInf =>
      have h2 : p = 0 := hb
      linarith
    | nan => rfl

theorem forall₂_map_same {α β : Type} {R : α → β → Prop} {f : α → β} (l : List α) (h : ∀ a ∈ l, R a (f a)) :
    List.Forall₂ R l (l.map f) := by
  induction l with
  | nil => exact .nil
  | cons a l ih => exact .cons (h a List.mem_cons_self) (ih fun b hb => h b (List.mem_cons_of_mem _ hb))

/-- **C199** `db_power` gives the level of each entry, and only that: the power is `10^(level/10)`; 0 has the level `-inf`;
only negative entries become `nan`. -/
theorem C199_power (x : List ℝ) : List.Forall₂ IsLevel x (dbPowerRow (x.map .val)) ∧
    ∀ l, List.Forall₂ IsLevel x l → l = dbPowerRow (x.map .val) := by
  have h : List.Forall₂ IsLevel x (dbPowerRow (x.map .val)) := by
    unfold dbPowerRow
    rw [List.map_map]
    exact forall₂_map_same x fun a _ => npLog_level a
  refine ⟨h, fun l hl => ?_⟩
  generalize dbPowerRow (x.map .val) = m at h
  induction hl generalizing m with
  | nil =>
    cases h
    rfl
  | cons ha _ ih =>
    cases h with
    | cons hb hm => rw [isLevel_unique ha hb, ih _ hm]

/-- **C199** `db_amplitude` of magnitudes is `db_power` of their squares. -/
theorem C199_amplitude (x : List ℝ) :
    dbAmplitudeRow (x.map fun a => .val |a|) = dbPowerRow (x.map fun a => .val (a ^ 2)) := by
  unfold dbAmplitudeRow dbPowerRow
  rw [List.map_map, List.map_map]
  apply List.map_congr_left
  intro a _
  dsimp only [Function.comp, npLog]
  rcases eq_or_ne a 0 with rfl | ha
  · simp [LevelVal.times]
  · rw [if_pos (abs_pos.mpr ha), if_pos (by positivity)]
    change LevelVal.val _ = LevelVal.val _
    congr 1
    rw [← sq_abs, Real.logb_pow]
    push_cast
    ring

/-- **C199** A signal that is `g` times as strong has levels that are higher by one and the same number, `20 log10 |g|`. -/
theorem C199_gain (g : ℝ) (hg : g ≠ 0) (x : List ℝ) (hx : ∀ a ∈ x, 0 ≤ a) :
    List.Forall₂ (fun u v => v = match u with
        | .val y => LevelVal.val (y + 20 * Real.logb 10 |g|)
        | .negInf => .negInf
        | .nan => .nan)
      (dbPowerRow (x.map .val)) (dbPowerRow (x.map fun a => .val (g ^ 2 * a))) := by
  unfold dbPowerRow
  rw [List.map_map, List.map_map]
  induction x with
  | nil => exact .nil
  | cons a x ih =>
    refine .cons ?_ (ih fun b hb => hx b (List.mem_cons_of_mem _ hb))
    have ha := hx a List.mem_cons_self
    have hg2 : 0 < g ^ 2 := by positivity
    dsimp only [Function.comp, npLog]
    rcases eq_or_lt_of_le ha with h0 | h0
    · subst h0
      simp [LevelVal.times]
    · rw [if_pos h0, if_pos (mul_pos hg2 h0)]
      change LevelVal.val _ = LevelVal.val _
      congr 1
      rw [Real.logb_mul hg2.ne' h0.ne', ← sq_abs g, Real.logb_pow]
      push_cast
      ring

/-- **C199** Levels keep the order: the greater power has the greater level. -/
theorem C199_order {p q y z : ℝ} (hp : IsLevel p (.val y)) (hq : IsLevel q (.val z)) : p < q ↔ y < z := by
  have hp' : p = (10 : ℝ) ^ (y / 10) := hp
  have hq' : q = (10 : ℝ) ^ (z / 10) := hq
  rw [hp', hq', Real.rpow_lt_rpow_left_iff (by norm_num)]
  constructor <;> intro h <;> linarith

/-- **C199** `natural_log` is undone by the exponential function; -inf and nan as for the others. -/
theorem C199_natural (x : List ℝ) : List.Forall₂ (fun p v => match v with
    | .val y => p = Real.exp y
    | .negInf => p = 0
    | .nan => p < 0) x (naturalLogRow (x.map .val)) := by
  unfold naturalLogRow
  rw [List.map_map]
  refine forall₂_map_same x fun a _ => ?_
  dsimp only [Function.comp, npLog]
  split
  · rename_i y h
    split at h
    · cases h
      exact (Real.exp_log (by assumption)).symm
    · split at h <;> cases h
  · rename_i h
    split at h
    · cases h
    · split at h
      · assumption
      · cases h
  · rename_i h
    split at h
    · cases h
    · split at h
      · cases h
      · rename_i h0 h1
        exact lt_of_le_of_ne (not_lt.mp h0) h1

/-- **C199** What `power_of_all_signals` exports, `preprocess=[[smooth(q), db_power]]`: entry `n` is the level of the mean
power of the `q` samples up to `n`, `-inf` exactly if they are all 0, and never `nan`. -/
theorem C199_smoothed (q : Nat) (hq : 0 < q) (x : List ℝ) (hx : ∀ a ∈ x, 0 ≤ a) :
    (dbPowerRow (smoothLevels q x)).length = x.length ∧
    ∀ n < x.length, ∃ v, (dbPowerRow (smoothLevels q x))[n]? = some v ∧ v ≠ .nan ∧
      IsLevel (((List.range q).map fun k => if k ≤ n then x.getD (n - k) 0 else 0).sum / q) v ∧
      (v = .negInf ↔ ∀ k < q, k ≤ n → x[n - k]? = some 0) := by
  have hlen := (C94_smooth q x).1
  refine ⟨by simp [dbPowerRow, smoothLevels, hlen], fun n hn => ?_⟩
  have hs := (C94_smooth q x).2 n hn
  have hx' : ∀ i, 0 ≤ x.getD i 0 := by
    intro i
    rw [List.getD_eq_getElem?_getD]
    rcases h : x[i]? with _ | a
    · simp
    · exact hx a (List.mem_of_getElem? h)
  have hsum : 0 ≤ ((List.range q).map fun k => if k ≤ n then x.getD (n - k) 0 else 0).sum := by
    apply List.sum_nonneg
    intro a ha
    obtain ⟨k, _, rfl⟩ := List.mem_map.mp ha
    split
    · exact hx' _
    · exact le_rfl
  have hzero : ((List.range q).map fun k => if k ≤ n then x.getD (n - k) 0 else 0).sum = 0 ↔
      ∀ k < q, k ≤ n → x[n - k]? = some 0 := by
    constructor
    · intro h k hk hkn
      have hmem := List.mem_map (f := fun k => if k ≤ n then x.getD (n - k) 0 else 0).mpr ⟨k, List.mem_range.mpr hk, rfl⟩
      have hle := List.single_le_sum ?_ _ hmem
      · rw [h, if_pos hkn] at hle
        have he := le_antisymm hle (hx' _)
        rw [List.getD_eq_getElem?_getD, List.getElem?_eq_getElem (by omega)] at he
        rw [List.getElem?_eq_getElem (by omega)]
        exact congrArg some he
      · intro a ha
        obtain ⟨k, _, rfl⟩ := List.mem_map.mp ha
        split
        · exact hx' _
        · exact le_rfl
    · intro h
      apply List.sum_eq_zero
      intro a ha
      obtain ⟨k, hk, rfl⟩ := List.mem_map.mp ha
      split
      · rename_i hkn
        rw [List.getD_eq_getElem?_getD, h k (List.mem_range.mp hk) hkn]
        rfl
      · rfl
  generalize ((List.range q).map fun k => if k ≤ n then x.getD (n - k) 0 else 0).sum = s at hs hsum hzero ⊢
  have hq0 : (0 : ℝ) < q := by exact_mod_cast hq
  refine ⟨(npLog (Real.logb 10) (.val (s / q))).times 10, ?_, ?_, npLog_level _, ?_⟩
  · unfold dbPowerRow smoothLevels
    rw [List.getElem?_map, List.getElem?_map, hs]
    rfl
  · intro h
    have := npLog_level (s / q)
    rw [h] at this
    have h' : s / q < 0 := this
    exact absurd (div_nonneg hsum hq0.le) (not_le.mpr h')
  · rw [← hzero]
    constructor
    · intro h
      have := npLog_level (s / q)
      rw [h] at this
      have h' : s / q = 0 := this
      rcases div_eq_zero_iff.mp h' with h' | h'
      · exact h'
      · exact absurd h' hq0.ne'
    · intro h
      subst h
      simp [npLog, LevelVal.times]

/-- **C199** With `clip(low, high)` after `db_power`, powers that are not negative give numbers between the limits, silence the
lower limit, and levels between the limits are kept. -/
theorem C199_clipped (lo hi : ℝ) (h : lo ≤ hi) (x : List ℝ) (hx : ∀ a ∈ x, 0 ≤ a) :
    List.Forall₂ (fun p v => ∃ w : ℝ, v = .val w ∧ lo ≤ w ∧ w ≤ hi ∧ (p ≤ (10 : ℝ) ^ (lo / 10) → w = lo) ∧
      ((10 : ℝ) ^ (hi / 10) ≤ p → w = hi) ∧
      ((10 : ℝ) ^ (lo / 10) ≤ p → p ≤ (10 : ℝ) ^ (hi / 10) → p = (10 : ℝ) ^ (w / 10)))
      x (clipLevels lo hi (dbPowerRow (x.map .val))) := by
  have pos : ∀ y : ℝ, (0 : ℝ) < (10 : ℝ) ^ y := fun y => Real.rpow_pos_of_pos (by norm_num) y
  unfold clipLevels dbPowerRow
  rw [List.map_map, List.map_map]
  refine forall₂_map_same x fun a ha => ?_
  have hl := npLog_level a
  dsimp only [Function.comp]
  have hmono : ∀ y z : ℝ, (10 : ℝ) ^ (y / 10) ≤ (10 : ℝ) ^ (z / 10) → y ≤ z := by
    intro y z hyz
    rw [Real.rpow_le_rpow_left_iff (by norm_num)] at hyz
    linarith
  generalize (npLog (Real.logb 10) (.val a)).times 10 = v at hl
  cases v with
  | val y =>
    have hy : a = (10 : ℝ) ^ (y / 10) := hl
    subst hy
    refine ⟨min hi (max y lo), rfl, le_min h (le_max_right _ _), min_le_left _ _, fun h1 => ?_, fun h1 => ?_, fun h1 h2 => ?_⟩
    · rw [max_eq_right (hmono _ _ h1), min_eq_right h]
    · rw [min_eq_left ((hmono _ _ h1).trans (le_max_left _ _))]
    · rw [max_eq_left (hmono _ _ h1), min_eq_right (hmono _ _ h2)]
  | negInf =>
    have hy : a = 0 := hl
    subst hy
    have := pos (lo / 10)
    have := pos (hi / 10)
    exact ⟨min hi lo, rfl, le_min h le_rfl, min_le_left _ _, fun _ => min_eq_right h, fun h1 => by linarith, fun h1 => by linarith⟩
  | nan =>
    have hy : a < 0 := hl
    exact absurd (hx a ha) (not_le.mpr hy)

example : IsLevel 100 (.val 20) ∧ IsLevel 0 .negInf ∧ IsLevel (1 / 10) (.val (-10)) := by
  refine ⟨?_, rfl, ?_⟩
  · change (100 : ℝ) = (10 : ℝ) ^ ((20 : ℝ) / 10)
    norm_num
  · change (1 / 10 : ℝ) = (10 : ℝ) ^ ((-10 : ℝ) / 10)
    rw [show (-10 : ℝ) / 10 = -1 by norm_num, Real.rpow_neg_one]
    norm_num

example : dbPowerRow [.val 100, .val 0, .val (-1), .nan] = [.val 20, .negInf, .nan, .nan] := by
  have h : Real.logb 10 (100 : ℝ) = 2 := by
    rw [show (100 : ℝ) = 10 ^ (2 : ℝ) by norm_num, Real.logb_rpow (by norm_num) (by norm_num)]
  simp [dbPowerRow, npLog, LevelVal.times, h]
  norm_num

end
end Verif

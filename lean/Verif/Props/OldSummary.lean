/-
C136, C137, C138: the summary diagnostics of `diagnosticsummary.py` and its helpers.
-/
import Verif.Model.OldSummary
import Mathlib.Algebra.BigOperators.Group.Finset.Basic
import Mathlib.Algebra.BigOperators.Intervals
import Mathlib.Algebra.BigOperators.Field
import Mathlib.Tactic.Ring
import Mathlib.Tactic.NormNum
import Mathlib.Tactic.FieldSimp
import Mathlib.Tactic.Linarith
import Mathlib.Data.Rat.Cast.CharZero
namespace Verif

open Finset

/-- C136 is violated: none of the diagnostics can be constructed, whatever the range; the base
class passes one argument too many to its own base class. -/
theorem C136_violated (arg : RangeArg) : oldPowerInit arg = .error .typeErr := by
  cases arg <;> rfl

/-- Nor can the base class. -/
theorem C136_violated_base (a b : Int) : oldSummaryInit (.pair a b) = .error .typeErr := rfl

section
variable {R : Type} [Field R]

/-- The selected channels `chan` of the signal `name` are, over the interval `c`, the samples
number `t, ..., t + n - 1` of the `C` signals `x`. -/
def ShowsPiece (S : Sigs R) (name : String) (chan : Option (List Int)) (c : Int × Int) (C : Nat)
    (x : Nat → Nat → R) (t n : Nat) : Prop :=
  sigSelect S name chan c.1 c.2 = .ok ((List.range C).map fun ch => (List.range n).map fun k => x ch (t + k))

/-- The saves of the range `[a, b)`, one after the other, in pieces of any lengths. -/
inductive Tiles (name : String) (chan : Option (List Int)) (C : Nat) (x : Nat → Nat → R) :
    Nat → Nat → List (Sigs R × (Int × Int)) → Prop
  | nil (a : Nat) : Tiles name chan C x a a []
  | cons {a n b : Nat} {S : Sigs R} {c : Int × Int} {l : List (Sigs R × (Int × Int))} :
      ShowsPiece S name chan c C x a n → Tiles name chan C x (a + n) b l → Tiles name chan C x a b ((S, c) :: l)

/-- Mean of the squares over `C` channels and the samples `a, ..., b - 1`. -/
def meanPower (C : Nat) (x : Nat → Nat → R) (a b : Nat) : R :=
  (∑ ch ∈ range C, ∑ t ∈ Ico a b, x ch t ^ 2) / ((C : R) * ((b - a : Nat) : R))

theorem foldr_some (f : Nat → R) (l : List Nat) :
    (l.map fun k => some (f k)).foldr addNan (some 0) = some (l.map f).sum := by
  induction l with
  | nil => rfl
  | cons k l ih =>
    rw [List.map_cons, List.foldr_cons, ih, List.map_cons, List.sum_cons]
    rfl

theorem oldPowerOf_piece {C : Nat} (hC : C ≠ 0) (x : Nat → Nat → R) (t n : Nat) {N : Int} (hN : N ≠ 0) :
    oldPowerOf ((List.range C).map fun ch => (List.range n).map fun k => x ch (t + k)) N =
      some ((∑ s ∈ Ico t (t + n), (∑ ch ∈ range C, x ch s ^ 2) / C) / N) := by
  unfold oldPowerOf
  rw [if_neg hN]
  have hcol : colPower ((List.range C).map fun ch => (List.range n).map fun k => x ch (t + k)) 0 =
      (List.range n).map fun k => some ((∑ ch ∈ range C, x ch (t + k) ^ 2) / C) := by
    obtain ⟨C', rfl⟩ : ∃ C', C = C' + 1 := ⟨C - 1, by omega⟩
    unfold colPower
    have hw : widthOr ((List.range (C' + 1)).map fun ch => (List.range n).map fun k => x ch (t + k)) 0 = n := by
      rw [List.range_succ_eq_map, List.map_cons]
      simp [widthOr]
    rw [hw]
    refine List.map_congr_left fun k hk => ?_
    rw [List.mem_range] at hk
    have hne : (List.range (C' + 1)).map (fun ch => (List.range n).map fun k => x ch (t + k)) ≠ [] := by simp
    generalize hm : (List.range (C' + 1)).map (fun ch => (List.range n).map fun k => x ch (t + k)) = m at hne ⊢
    have : some ((m.map fun r => r.getD k 0 * r.getD k 0).sum / (m.length : R)) =
        some ((∑ ch ∈ range (C' + 1), x ch (t + k) ^ 2) / ((C' + 1 : Nat) : R)) := by
      rw [← hm, List.map_map, List.length_map, List.length_range]
      refine congrArg (fun s => some (s / ((C' + 1 : Nat) : R))) ?_
      rw [Finset.sum_eq_multiset_sum]
      show _ = (Multiset.map _ (Multiset.range (C' + 1))).sum
      rw [← Multiset.coe_range, Multiset.map_coe, Multiset.sum_coe]
      refine congrArg List.sum (List.map_congr_left fun ch _ => ?_)
      simp [List.getD, hk, pow_two]
    cases m with
    | nil => exact absurd rfl hne
    | cons r m => exact this
  rw [hcol, foldr_some, Option.map_some]
  refine congrArg (fun s => some (s / (N : R))) ?_
  rw [Finset.sum_Ico_eq_sum_range, Nat.add_sub_cancel_left, Finset.sum_eq_multiset_sum]
  show _ = (Multiset.map _ (Multiset.range n)).sum
  rw [← Multiset.coe_range, Multiset.map_coe, Multiset.sum_coe]

theorem oldPowerSaves_tiles {name : String} {chan : Option (List Int)} {C : Nat} (hC : C ≠ 0)
    {x : Nat → Nat → R} {N : Int} (hN : N ≠ 0) {a b : Nat} {l : List (Sigs R × (Int × Int))}
    (h : Tiles name chan C x a b l) (p : R) :
    a ≤ b ∧ oldPowerSaves name chan N l (some p) =
      .ok (some (p + (∑ s ∈ Ico a b, (∑ ch ∈ range C, x ch s ^ 2) / C) / N)) := by
  induction h generalizing p with
  | nil a => simp [oldPowerSaves]
  | @cons a n b S c l hp _ ih =>
    obtain ⟨h1, h2⟩ := ih (p + (∑ s ∈ Ico a (a + n), (∑ ch ∈ range C, x ch s ^ 2) / C) / N)
    refine ⟨by omega, ?_⟩
    unfold oldPowerSaves oldPowerSave
    rw [hp]
    dsimp only
    rw [oldPowerOf_piece hC x a n hN]
    dsimp only [addNan]
    rw [h2, ← Finset.sum_Ico_consecutive _ (Nat.le_add_right a n) h1]
    refine congrArg (fun s => Except.ok (some s)) ?_
    ring

theorem meanPower_eq {C : Nat} (x : Nat → Nat → R) {a b : Nat} (hab : a < b) :
    (∑ s ∈ Ico a b, (∑ ch ∈ range C, x ch s ^ 2) / (C : R)) / (((b : Int) - a : Int) : R) = meanPower C x a b := by
  unfold meanPower
  rw [← Finset.sum_div, div_div, Finset.sum_comm]
  refine congrArg (fun s => _ / ((C : R) * s)) ?_
  rw [← Int.cast_natCast (b - a), Nat.cast_sub hab.le]

/-- C136, the part of the claim that holds of the `save` method of `SignalPowerSummary`, were there
an object to call it on: over saves that tile `[a, b)` in pieces of any lengths, `power` becomes the
mean over channels and samples of the squares. -/
theorem C136_power_partial {name : String} {chan : Option (List Int)} {C : Nat} (hC : C ≠ 0)
    {x : Nat → Nat → R} {a b : Nat} (hab : a < b) {l : List (Sigs R × (Int × Int))}
    (h : Tiles name chan C x a b l) :
    oldPowerSaves name chan ((b : Int) - a) l (some 0) = .ok (some (meanPower C x a b)) := by
  rw [(oldPowerSaves_tiles hC (by omega) h 0).2, zero_add, meanPower_eq x hab]

/-- C136, the same for `SignalPowerRatioSummary`: the ratio of the two mean powers. -/
theorem C136_ratio_partial [DecidableEq R] {num den : String} {nchan dchan : Option (List Int)} {C D : Nat}
    (hC : C ≠ 0) (hD : D ≠ 0) {x y : Nat → Nat → R} {a b : Nat} (hab : a < b) {l : List (Sigs R × (Int × Int))}
    (hx : Tiles num nchan C x a b l) (hy : Tiles den dchan D y a b l) (h0 : meanPower D y a b ≠ 0) :
    oldRatio num den nchan dchan ((b : Int) - a) l = .ok (some (meanPower C x a b / meanPower D y a b)) := by
  unfold oldRatio
  rw [C136_power_partial hC hab hx, C136_power_partial hD hab hy]
  dsimp only
  rw [if_neg h0]

/-! ### `mean_near_time_idx` -/

/-- Mean of a list of values. -/
def meanOf (l : List R) : R := l.sum / l.length

/-- The numbers among the samples `lo, ..., hi - 1` of all rows. -/
def numbersIn (m : Mat (Option R)) (lo hi : Nat) : List R :=
  (m.map fun r => ((r.drop lo).take (hi - lo)).filterMap id).flatten

theorem slice_ge {α : Type} (r : List α) {t : Nat} (ht : 3000 ≤ t) (h : t ≤ r.length) :
    pySlice r ((t : Int) - 3000) t = (r.drop (t - 3000)).take (t - (t - 3000)) := by
  have h1 : pyClamp r.length t = t := by
    unfold pyClamp
    rw [if_neg (by omega), Int.toNat_natCast, Nat.min_eq_left h]
  have h2 : pyClamp r.length ((t : Int) - 3000) = t - 3000 := by
    unfold pyClamp
    rw [if_neg (by omega)]
    omega
  unfold pySlice
  rw [h1, h2, List.drop_take]

/-- C137 for time indices from 3000 on: the mean of the numbers among the last 3000 samples
before the time index. -/
theorem C137_mean_partial {outputs : List (String × Mat (Option R))} {t : Nat} (ht : 3000 ≤ t)
    (hlen : ∀ p ∈ outputs, ∀ r ∈ p.2, t ≤ r.length) :
    meanNearTimeIdx outputs t = outputs.map fun p => (p.1,
      if numbersIn p.2 (t - 3000) t = [] then none else some (meanOf (numbersIn p.2 (t - 3000) t))) := by
  unfold meanNearTimeIdx
  refine List.map_congr_left fun p hp => ?_
  refine congrArg (Prod.mk p.1) ?_
  unfold meanNear
  have : (p.2.map fun r => (pySlice r ((t : Int) - 3000) t).filterMap id).flatten =
      numbersIn p.2 (t - 3000) t := by
    unfold numbersIn
    refine congrArg List.flatten (List.map_congr_left fun r hr => ?_)
    rw [slice_ge r ht (hlen p hp r hr)]
  dsimp only
  rw [this]
  by_cases h0 : numbersIn p.2 (t - 3000) t = []
  · rw [if_pos h0, if_pos (by rw [h0]; rfl)]
  · rw [if_neg h0, if_neg (fun h => h0 (List.length_eq_zero_iff.1 h))]
    rfl

/-- C137 is violated for earlier time indices: the lower bound `t - 3000` is negative and counts from
the end of the recording, so that of a recording of at least 3000 samples nothing is left: the result
is `nan` although there are `t` samples before the time index. -/
theorem C137_violated {outputs : List (String × Mat (Option R))} {t : Nat} (ht : t < 3000)
    (hlen : ∀ p ∈ outputs, ∀ r ∈ p.2, 3000 ≤ r.length) :
    ∀ q ∈ meanNearTimeIdx outputs t, q.2 = none := by
  intro q hq
  unfold meanNearTimeIdx at hq
  obtain ⟨p, hp, rfl⟩ := List.mem_map.1 hq
  have : (p.2.map fun r => (pySlice r ((t : Int) - 3000) t).filterMap id).flatten = ([] : List R) := by
    rw [List.flatten_eq_nil_iff]
    intro l hl
    obtain ⟨r, hr, rfl⟩ := List.mem_map.1 hl
    have h3 := hlen p hp r hr
    have : pySlice r ((t : Int) - 3000) t = [] := by
      unfold pySlice pyClamp
      rw [if_pos (by omega), if_neg (by omega), List.drop_eq_nil_iff, List.length_take]
      omega
    rw [this]
    rfl
  show meanNear p.2 t = none
  unfold meanNear
  dsimp only
  rw [this]
  rfl

end

/-! ### `add_to_summary` -/

/-- A call of `add_to_summary`: name of the diagnostic, values, time index. -/
structure SummaryCall (V : Type) where
  diag : String
  vals : V
  time : Int

/-- The last call with this name and time index. -/
def lastCall {V : Type} (calls : List (SummaryCall V)) (diag : String) (time : Int) : Option V :=
  (calls.reverse.find? fun c => c.diag = diag ∧ c.time = time).map SummaryCall.vals

/-- C138. After any sequence of calls, the file of a time index contains for a diagnostic the values of
the last call with this name and time index; without such a call it contains what it did before.  A file
exists if it did before or there was a call with its time index. -/
theorem C138_summary {V : Type} (files : Int → Option (String → Option V)) (calls : List (SummaryCall V)) (t : Int) :
    let fin := calls.foldl (fun f c => addToSummary f c.diag c.vals c.time) files
    ((fin t).isSome ↔ (files t).isSome ∨ ∃ c ∈ calls, c.time = t) ∧
    ∀ k, (fin t).bind (· k) = (lastCall calls k t).or ((files t).bind (· k)) := by
  induction calls using List.reverseRecOn with
  | nil => simp [lastCall]
  | append_singleton l c ih =>
    obtain ⟨h1, h2⟩ := ih
    dsimp only at h1 h2 ⊢
    rw [List.foldl_append]
    generalize l.foldl (fun f c => addToSummary f c.diag c.vals c.time) files = g at h1 h2
    constructor
    · simp only [List.foldl_cons, List.foldl_nil, addToSummary, List.mem_append, List.mem_singleton]
      by_cases hc : t = c.time
      · rw [if_pos hc]
        simp [hc]
      · rw [if_neg hc, h1]
        constructor
        · rintro (h | ⟨d, hd, rfl⟩)
          · exact .inl h
          · exact .inr ⟨d, .inl hd, rfl⟩
        · rintro (h | ⟨d, hd | rfl, h⟩)
          · exact .inl h
          · exact .inr ⟨d, hd, h⟩
          · exact absurd h.symm hc
    · intro k
      have hlast : lastCall (l ++ [c]) k t = if c.diag = k ∧ c.time = t then some c.vals else lastCall l k t := by
        unfold lastCall
        rw [List.reverse_append, List.reverse_singleton, List.singleton_append, List.find?_cons]
        split
        · rename_i h
          rw [if_pos (of_decide_eq_true h)]
          rfl
        · rename_i h
          rw [if_neg (of_decide_eq_false h)]
      rw [hlast]
      simp only [List.foldl_cons, List.foldl_nil, addToSummary]
      by_cases hc : t = c.time
      · rw [if_pos hc]
        by_cases hk : k = c.diag
        · rw [if_pos ⟨hk.symm, hc.symm⟩]
          simp [hk]
        · rw [if_neg (fun h => hk h.1.symm), ← h2 k, Option.bind_some]
          beta_reduce
          rw [if_neg hk, ← hc]
          cases g t <;> rfl
      · rw [if_neg hc, if_neg (fun h => hc h.2.symm), h2 k]

/-! ### Concrete cases -/

def oldSig : Sigs ℚ := fun n => if n = "e" then some [[9, 1, 2, 3], [9, 0, 1, 5]] else none

/-- C136: two saves, of the samples 0, 1 and of sample 2. -/
example : Tiles "e" none 2 (fun ch t => if ch = 0 then (t : ℚ) + 1 else (t : ℚ) ^ 2 + (if t = 2 then 1 else 0)) 0 3
    [(oldSig, (1, 3)), (oldSig, (3, 4))] ∧
    oldPowerSaves "e" none 3 [(oldSig, (1, 3)), (oldSig, (3, 4))] (some 0) = .ok (some (20 / 3)) := by
  constructor
  · refine .cons (n := 2) ?_ (.cons (n := 1) ?_ (.nil _))
    · unfold ShowsPiece
      norm_num [List.range_succ]
      rfl
    · unfold ShowsPiece
      norm_num [List.range_succ]
      rfl
  · decide +kernel

theorem meanNear_replicate (n t : Nat) (ht : 3000 ≤ t) (hn : t ≤ n) :
    meanNear [List.replicate n (some (7 : ℚ))] t = some 7 := by
  have h := C137_mean_partial (outputs := [("x", [List.replicate n (some (7 : ℚ))])]) ht (by simpa using hn)
  have h1 : numbersIn [List.replicate n (some (7 : ℚ))] (t - 3000) t = List.replicate (t - (t - 3000)) 7 := by
    unfold numbersIn
    rw [List.map_singleton, List.drop_replicate, List.take_replicate, Nat.min_eq_left (by omega)]
    simp
  have h2 := (Prod.mk.inj (List.cons.inj h).1).2
  dsimp only at h2
  obtain ⟨m, hm⟩ : ∃ m, t - (t - 3000) = m + 1 := ⟨t - (t - 3000) - 1, by omega⟩
  rw [h1, hm, if_neg (by simp)] at h2
  rw [h2]
  unfold meanOf
  rw [List.sum_replicate, List.length_replicate, nsmul_eq_mul,
    mul_div_cancel_left₀ _ (by exact_mod_cast Nat.succ_ne_zero m)]

theorem meanNear_early (n t : Nat) (ht : t < 3000) (hn : 3000 ≤ n) :
    meanNear [List.replicate n (some (7 : ℚ))] t = none := by
  have h := C137_violated (outputs := [("x", [List.replicate n (some (7 : ℚ))])]) ht (by simpa using hn)
  exact h ("x", meanNear [List.replicate n (some (7 : ℚ))] t) List.mem_cons_self

/-- C137: at 3000 the mean of the first 3000 samples; at 1000 `nan`. -/
example : meanNear [List.replicate 4000 (some (7 : ℚ))] (3000 : Nat) = some 7 ∧
    meanNear [List.replicate 4000 (some (7 : ℚ))] (1000 : Nat) = none :=
  ⟨meanNear_replicate 4000 3000 (Nat.le_refl _) (by omega), meanNear_early 4000 1000 (by omega) (by omega)⟩

/-- C138: the third call replaces the values of the first. -/
example : let fin := addToSummary (addToSummary (addToSummary (fun _ => none) "a" 1 5) "b" 2 5) "a" 3 5
    (fin 5).bind (· "a") = some 3 ∧ (fin 5).bind (· "b") = some 2 ∧ (fin 6).isSome = false :=
  ⟨rfl, rfl, rfl⟩

end Verif

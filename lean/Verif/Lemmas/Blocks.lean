import Verif.Model.Blocks
import Verif.Spec.Blocks
import Mathlib.Tactic.Linarith
import Mathlib.Tactic.Ring
import Mathlib.Algebra.Order.BigOperators.Group.List

namespace Verif

theorem IsBlockSplit.nil {start size : Int} : IsBlockSplit 0 start size [] where
  pos := by simp
  total := by simp
  noCross := by simp
  onBoundary := by simp

theorem IsBlockSplit.cons {num start size b : Int} {bs : List Int}
    (hb : 0 < b) (hle : b ≤ size - start % size)
    (hbd : bs ≠ [] → (start + b) % size = 0)
    (h : IsBlockSplit (num - b) (start + b) size bs) :
    IsBlockSplit num start size (b :: bs) where
  pos := by
    intro x hx
    rcases List.mem_cons.1 hx with rfl | hx
    · exact hb
    · exact h.pos x hx
  total := by
    have := h.total
    simp [this]
  noCross := by
    intro i hi
    cases i with
    | zero => simpa using hle
    | succ i =>
      have := h.noCross i (by simpa using hi)
      simpa [add_assoc] using this
  onBoundary := by
    intro i hi
    cases i with
    | zero =>
      have : bs ≠ [] := by
        rintro rfl
        simp at hi
      simpa using hbd this
    | succ i =>
      have := h.onBoundary i (by simpa using hi)
      simpa [add_assoc] using this

theorem calcLoop_spec (num size : Int) (hs : 0 < size) :
    ∀ (fuel : Nat) (pos left cnt : Int) (acc : List Int),
      left = size - pos % size → cnt ≤ num → (num - cnt).toNat < fuel →
      ∃ bs, calcLoop num size fuel left cnt acc = some (acc ++ bs) ∧
        IsBlockSplit (num - cnt) pos size bs := by
  intro fuel
  induction fuel with
  | zero => intro pos left cnt acc _ _ h; omega
  | succ fuel ih =>
    intro pos left cnt acc hl hc hf
    have hm0 := Int.emod_nonneg pos (by omega : size ≠ 0)
    have hm1 := Int.emod_lt_of_pos pos hs
    by_cases hlt : cnt < num
    · have hb0 : 0 < min (num - cnt) left := by omega
      have hble : min (num - cnt) left ≤ size - pos % size := by omega
      generalize hbdef : min (num - cnt) left = b at hb0 hble
      have hbn : b ≤ num - cnt := by omega
      have hpos' : (if left - b = 0 then size else left - b) = size - (pos + b) % size := by
        by_cases h0 : left - b = 0
        · rw [if_pos h0]
          have : (pos + b) % size = 0 := by
            have h1 : pos + b = pos - pos % size + size := by omega
            rw [h1, Int.add_emod_right]
            have := Int.emod_emod_of_dvd pos (dvd_refl size)
            exact Int.emod_eq_zero_of_dvd (Int.dvd_self_sub_emod)
          omega
        · rw [if_neg h0]
          have : (pos + b) % size = pos % size + b := by
            rw [Int.add_emod, Int.emod_eq_of_lt (a := b) (by omega) (by omega)]
            exact Int.emod_eq_of_lt (by omega) (by omega)
          omega
      obtain ⟨bs, h1, h2⟩ := ih (pos + b) (if left - b = 0 then size else left - b) (cnt + b)
        (acc ++ [b]) hpos' (by omega) (by omega)
      refine ⟨b :: bs, ?_, ?_⟩
      · rw [calcLoop, if_pos hlt]
        simp only [hbdef]
        rw [h1]; simp
      · apply IsBlockSplit.cons hb0 hble
        · intro hne
          by_cases h0 : left - b = 0
          · have h1 : pos + b = pos - pos % size + size := by omega
            rw [h1, Int.add_emod_right]
            exact Int.emod_eq_zero_of_dvd (Int.dvd_self_sub_emod)
          · exfalso
            have hbe : b = num - cnt := by omega
            have ht := h2.total
            have hp := h2.pos
            cases bs with
            | nil => exact hne rfl
            | cons x xs =>
              have hx := hp x (by simp)
              have hxs : 0 ≤ xs.sum := by
                apply List.sum_nonneg
                intro y hy
                exact le_of_lt (hp y (by simp [hy]))
              simp at ht
              omega
        · have : num - cnt - b = num - (cnt + b) := by ring
          rw [this]; exact h2
    · refine ⟨[], ?_, ?_⟩
      · rw [calcLoop, if_neg hlt]; simp
      · have : num - cnt = 0 := by omega
        rw [this]; exact IsBlockSplit.nil

/-- A zero block size makes no progress: the loop never stops. -/
theorem calcLoop_zero_hang (num : Int) : ∀ (fuel : Nat) (cnt : Int) (acc : List Int),
    cnt < num → calcLoop num 0 fuel 0 cnt acc = none := by
  intro fuel
  induction fuel with
  | zero => intros; rfl
  | succ n ih =>
    intro cnt acc h
    have hm : min (num - cnt) 0 = 0 := by omega
    rw [calcLoop, if_pos h]
    simp only [hm]
    simpa using ih cnt (acc ++ [0]) h

end Verif

namespace Verif

/-- More fuel does not change a finished loop. -/
theorem calcLoop_mono (num size : Int) (k : Nat) : ∀ (fuel : Nat) (left cnt : Int) (acc bs : List Int),
    calcLoop num size fuel left cnt acc = some bs →
    calcLoop num size (fuel + k) left cnt acc = some bs := by
  intro fuel
  induction fuel with
  | zero => intro _ _ _ _ h; simp [calcLoop] at h
  | succ n ih =>
    intro left cnt acc bs h
    have e : n + 1 + k = (n + k) + 1 := by omega
    rw [e]
    rw [calcLoop] at h ⊢
    by_cases hc : cnt < num
    · rw [if_pos hc] at h ⊢
      exact ih _ _ _ _ h
    · rw [if_neg hc] at h ⊢
      exact h

theorem IsBlockSplit.tail {num start size b : Int} {bs : List Int}
    (h : IsBlockSplit num start size (b :: bs)) :
    IsBlockSplit (num - b) (start + b) size bs where
  pos := fun x hx => h.pos x (by simp [hx])
  total := by have := h.total; simp at this; omega
  noCross := by
    intro i hi
    have := h.noCross (i + 1) (by simpa using hi)
    simpa [add_assoc] using this
  onBoundary := by
    intro i hi
    have := h.onBoundary (i + 1) (by simpa using hi)
    simpa [add_assoc] using this

theorem IsBlockSplit.sum_nonneg {num start size : Int} {bs : List Int}
    (h : IsBlockSplit num start size bs) : 0 ≤ num := by
  have := h.total
  rw [← this]
  exact List.sum_nonneg fun y hy => le_of_lt (h.pos y hy)

theorem isBlockSplit_unique {size : Int} : ∀ {bs cs : List Int} {num start : Int},
    IsBlockSplit num start size bs → IsBlockSplit num start size cs → bs = cs
  | [], [], _, _, _, _ => rfl
  | [], c :: cs, num, start, hb, hc => by
    have h1 := hb.total
    have h2 := hc.pos c (by simp)
    have h3 := hc.tail.sum_nonneg
    simp at h1; omega
  | b :: bs, [], num, start, hb, hc => by
    have h1 := hc.total
    have h2 := hb.pos b (by simp)
    have h3 := hb.tail.sum_nonneg
    simp at h1; omega
  | b :: bs, c :: cs, num, start, hb, hc => by
    have hb0 := hb.pos b (by simp)
    have hc0 := hc.pos c (by simp)
    have hbn := hb.noCross 0 (by simp)
    have hcn := hc.noCross 0 (by simp)
    simp at hbn hcn
    have ht := hb.tail.sum_nonneg
    have ht' := hc.tail.sum_nonneg
    have aux : ∀ {x y : Int} {ys xs : List Int}, 0 < x → x < y → y ≤ size - start % size →
        IsBlockSplit num start size (x :: xs) → xs ≠ [] → False := by
      intro x y ys xs hx hxy hy h hne
      have := h.onBoundary 0 (by
        cases xs with
        | nil => exact absurd rfl hne
        | cons a as => simp)
      simp at this
      have hs : 0 < size := by
        by_contra hs
        rcases lt_or_eq_of_le (not_lt.1 hs) with hs | hs
        · have := Int.emod_nonneg start (by omega : size ≠ 0); omega
        · subst hs
          simp at this hy
          omega
      have hm0 := Int.emod_nonneg start (by omega : size ≠ 0)
      have hm1 := Int.emod_lt_of_pos start hs
      rw [Int.add_emod, Int.emod_eq_of_lt (a := x) (by omega) (by omega),
        Int.emod_eq_of_lt (by omega) (by omega)] at this
      omega
    have hbc : b = c := by
      rcases lt_trichotomy b c with h | h | h
      · exfalso
        refine aux (ys := cs) hb0 h hcn hb ?_
        rintro rfl
        have := hb.total; simp at this; omega
      · exact h
      · exfalso
        refine aux (ys := bs) hc0 h hbn hc ?_
        rintro rfl
        have := hc.total; simp at this; omega
    subst hbc
    rw [isBlockSplit_unique hb.tail hc.tail]

end Verif

/-
Lemmas about layers of points.
-/
import Verif.Lemmas.Points
import Verif.Props.Points
import Mathlib.Algebra.CharZero.Defs
namespace Verif

theorem layerHeights_getElem {F : Type} [Field F] [CharZero F] (k : Nat) (d : F) (i : Nat) (hi : i < k) :
    (layerHeights k d)[i]? = some (((i : F) - ((k : F) - 1) / 2) * d) := by
  unfold layerHeights
  rw [List.getElem?_map, List.getElem?_range hi, Option.map_some]
  congr 1
  dsimp only
  rcases Nat.even_or_odd' k with ⟨m, rfl | rfl⟩
  · rw [if_pos (by omega), show 2 * m / 2 = m by omega]
    push_cast; ring
  · rw [if_neg (by omega), show (2 * m + 1) / 2 = m by omega]
    push_cast; ring

theorem layerHeights_length {F : Type} [Field F] (k : Nat) (d : F) : (layerHeights k d).length = k := by
  simp [layerHeights]

theorem sum_two_values (q r : Nat) : ∀ k, ((List.range k).map fun i => if i < r then q + 1 else q).sum = k * q + min r k
  | 0 => by simp
  | k + 1 => by
    rw [List.range_succ, List.map_append, List.sum_append, sum_two_values q r k]
    simp only [List.map_cons, List.map_nil, List.sum_cons, List.sum_nil]
    rw [Nat.add_mul]
    split_ifs <;> omega

theorem layerSizes_sum (n k : Nat) (hk : 0 < k) : (layerSizes n k).sum = n := by
  unfold layerSizes
  rw [sum_two_values]
  have h1 := Nat.div_add_mod n k
  have h2 := Nat.mod_lt n hk
  have : n - k * (n / k) = n % k := by omega
  rw [this, Nat.min_eq_left h2.le]; exact h1

theorem layerSizes_length (n k : Nat) : (layerSizes n k).length = k := by simp [layerSizes]

theorem layerSizes_two (n k : Nat) : ∀ s ∈ layerSizes n k, s = n / k ∨ s = n / k + 1 := by
  intro s hs
  obtain ⟨i, -, rfl⟩ := List.mem_map.1 hs
  split_ifs
  · exact Or.inr rfl
  · exact Or.inl rfl

theorem circleLayers_ok (radius : Radius) (u : Nat → Nat → ℝ) :
    ∀ (es : List (Nat × ℝ × Option ℝ)) (i0 : Nat), (∀ e ∈ es, 0 < e.1) →
      ∃ ls : List (List (Pt ℝ)), circleLayers radius u i0 es = .ok ls ∧ ls.length = es.length ∧
        ∀ (j : Nat) (e : Nat × ℝ × Option ℝ), es[j]? = some e →
          ∃ c, ls[j]? = some c ∧ equiangularCircle e.1 radius e.2.1 e.2.2 (u (i0 + j)) = .ok c
  | [], _, _ => ⟨[], rfl, rfl, by simp⟩
  | (n, angle, z) :: es, i0, h => by
    obtain ⟨ls, h1, h2, h3⟩ := circleLayers_ok radius u es (i0 + 1) (fun e he => h e (List.mem_cons_of_mem _ he))
    have hn : 0 < n := h (n, angle, z) List.mem_cons_self
    obtain ⟨c, hc⟩ : ∃ c, equiangularCircle n radius angle z (u i0) = .ok c := by
      unfold equiangularCircle; rw [if_neg (by omega)]; exact ⟨_, rfl⟩
    refine ⟨c :: ls, by simp only [circleLayers, hc, h1], by simp [h2], ?_⟩
    intro j e he
    cases j with
    | zero =>
      simp only [List.getElem?_cons_zero, Option.some.injEq] at he
      subst he
      exact ⟨c, rfl, hc⟩
    | succ j =>
      rw [List.getElem?_cons_succ] at he
      obtain ⟨c', h4, h5⟩ := h3 j e he
      exact ⟨c', by rw [List.getElem?_cons_succ]; exact h4, by rw [← h5]; congr 2; omega⟩

theorem circleLayers_zero (radius : Radius) (u : Nat → Nat → ℝ) :
    ∀ (es : List (Nat × ℝ × Option ℝ)) (i0 : Nat), (∃ e ∈ es, e.1 = 0) →
      circleLayers radius u i0 es = .error .zeroDivision
  | [], _, h => by obtain ⟨e, he, -⟩ := h; simp at he
  | (n, angle, z) :: es, i0, h => by
    rcases Nat.eq_zero_or_pos n with rfl | hn
    · simp [circleLayers, C68_empty]
    · obtain ⟨c, hc⟩ : ∃ c, equiangularCircle n radius angle z (u i0) = .ok c := by
        unfold equiangularCircle; rw [if_neg (by omega)]; exact ⟨_, rfl⟩
      obtain ⟨e, he, h0⟩ := h
      rcases List.mem_cons.1 he with rfl | he
      · dsimp only at h0; omega
      · have := circleLayers_zero radius u es (i0 + 1) ⟨e, he, h0⟩
        simp only [circleLayers, hc, this]

theorem startAngles_ok (k first : Nat) (hf : 0 < first) (off : AngleOffset) (ho : off ≠ .other) :
    ∃ l, startAngles k first off = .ok l ∧ l.length = k := by
  cases off with
  | random v => exact ⟨_, rfl, by simp⟩
  | same => exact ⟨_, rfl, by simp⟩
  | almostSame v => exact ⟨_, by unfold startAngles; dsimp only; rw [if_neg (by omega)], by simp⟩
  | distribute => exact ⟨_, by unfold startAngles; dsimp only; rw [if_neg (by omega)], by simp⟩
  | other => exact absurd rfl ho

end Verif

/-
The filtered-x LMS recursion of `FastBlockFxLMS` on delayed signals (C181).
-/
import Verif.Lemmas.AdaptiveDelay
import Verif.Lemmas.FastMic
namespace Verif

section
variable {R : Type} [Field R]

/-- A reference nothing of which is lost at the start. -/
def QuietFast (bs nr : Nat) (ρ : Nat → Int → R) : Prop := ∀ c < nr, ∀ t < (bs : Int), ρ c t = 0

/-- The filtered reference of a reference with a quiet start. -/
theorem storedFrom_quiet {S : IrMat R} {a bs nr : Nat} (hbs : 0 < bs) {ρ : Nat → Int → R} (hq : QuietFast bs nr ρ) {r : Nat}
    (hr : r < nr) (l m : Nat) (t : Int) :
    storedFrom S a bs ρ r l m t = ∑ k ∈ Finset.range (S.ir l m).length, (S.ir l m).getD k 0 * ρ r (t - bs - k) := by
  have hz : ∀ u : Int, u < bs → ρ r u = 0 := hq r hr
  unfold storedFrom
  split
  · rename_i ht
    unfold filteredRef skippedFrom
    refine Finset.sum_congr rfl fun k _ => ?_
    rw [if_pos (by omega)]
  · split
    · refine (Finset.sum_eq_zero fun k _ => ?_).symm
      rw [hz _ (by omega), mul_zero]
    · unfold filteredRef skippedFrom
      refine Finset.sum_congr rfl fun k _ => ?_
      congr 1
      split
      · rw [hz _ (by omega), hz _ (by omega)]
      · congr 1
        omega

/-- It is silent for a block. -/
theorem storedFrom_before {S : IrMat R} {a bs nr : Nat} (hbs : 0 < bs) {ρ : Nat → Int → R} (hq : QuietFast bs nr ρ) {r : Nat}
    (hr : r < nr) (l m : Nat) {t : Int} (ht : t < bs) : storedFrom S a bs ρ r l m t = 0 := by
  rw [storedFrom_quiet hbs hq hr]
  exact Finset.sum_eq_zero fun k _ => by rw [hq r hr _ (by omega), mul_zero]

/-- The loudspeakers with a delayed reference. -/
theorem adaptiveOut_shiftFast (q : FxPar R) (hbs : 0 < q.bs) (hub : 0 < q.L) (hdvd : q.bs ∣ q.L) (Sp : IrMat R) (a : Nat) {n : Nat}
    {ρ ρ' e e' : Nat → Int → R} (hq : QuietFast q.bs q.nr ρ) (hq' : QuietFast q.bs q.nr ρ') {t : Int}
    (hρ : ∀ c < q.nr, ∀ t' < t, ρ' c (t' + (n * q.L : Nat)) = ρ c t')
    (he : ∀ c < q.ne, ∀ t' < t, 0 ≤ t' → e' c (t' + (n * q.L : Nat)) = e c t') {l : Nat} (hl : l < q.nl)
    (h0 : 0 ≤ t + (n * q.L : Nat)) :
    adaptiveOut q.bs q.L q.nr q.L (lmsTaps .block q.beta q.mu q.nr q.nl q.ne q.L q.L q.bs
        (storedFrom Sp a q.bs ρ') e') ρ' l (t + (n * q.L : Nat)).toNat =
      if t < 0 then 0 else adaptiveOut q.bs q.L q.nr q.L (lmsTaps .block q.beta q.mu q.nr q.nl q.ne q.L q.L q.bs
        (storedFrom Sp a q.bs ρ) e) ρ l t.toNat := by
  have hX : ∀ r < q.nr, ∀ l < q.nl, ∀ m < q.ne, ∀ t' < t + q.bs,
      storedFrom Sp a q.bs ρ' r l m (t' + (n * q.L : Nat)) = storedFrom Sp a q.bs ρ r l m t' := by
    intro r hr l _ m _ t' ht'
    rw [storedFrom_quiet hbs hq' hr, storedFrom_quiet hbs hq hr]
    refine Finset.sum_congr rfl fun k _ => ?_
    rw [← hρ r hr _ (show t' - q.bs - k < t by omega)]
    congr 2
    omega
  have hz : ∀ r < q.nr, ∀ l < q.nl, ∀ m < q.ne, ∀ t' < ((q.bs + n * q.L : Nat) : Int), t' < t + q.bs + (n * q.L : Nat) →
      storedFrom Sp a q.bs ρ' r l m t' = 0 := by
    intro r hr l hl m hm t' ht' ht
    have := hX r hr l hl m hm (t' - (n * q.L : Nat)) (by omega)
    rw [show t' - (n * q.L : Nat) + (n * q.L : Nat) = t' by omega] at this
    rw [this]
    exact storedFrom_before hbs hq hr l m (by omega)
  have hρ0 : ∀ r < q.nr, ∀ u : Int, u < (n * q.L : Nat) → u < t + (n * q.L : Nat) → ρ' r u = 0 := by
    intro r hr u hu hu'
    have := hρ r hr (u - (n * q.L : Nat)) (by omega)
    rw [show u - (n * q.L : Nat) + (n * q.L : Nat) = u by omega] at this
    rw [this]
    exact hq r hr _ (by omega)
  by_cases ht : t < q.bs
  · have hl0 : adaptiveOut q.bs q.L q.nr q.L (lmsTaps .block q.beta q.mu q.nr q.nl q.ne q.L q.L q.bs
        (storedFrom Sp a q.bs ρ') e') ρ' l (t + (n * q.L : Nat)).toNat = 0 := by
      unfold adaptiveOut
      split
      · rfl
      · refine Finset.sum_eq_zero fun r hr => Finset.sum_eq_zero fun x _ => ?_
        split
        · exact mul_zero _
        · rw [hρ0 r (Finset.mem_range.1 hr) _ (by omega) (by omega), mul_zero]
    rw [hl0]
    split
    · rfl
    · unfold adaptiveOut
      rw [if_pos (by omega)]
  · obtain ⟨T, rfl⟩ : ∃ T : Nat, t = T := ⟨t.toNat, by omega⟩
    rw [if_neg (by omega), show ((T : Int) + (n * q.L : Nat)).toNat = T + n * q.L by omega, Int.toNat_natCast]
    unfold adaptiveOut
    rw [if_neg (by omega), if_neg (by omega)]
    refine Finset.sum_congr rfl fun r hr => Finset.sum_congr rfl fun x _ => ?_
    have hr' := Finset.mem_range.1 hr
    have hlast : (if ((T + n * q.L : Nat) : Int) - q.bs - x < 0 then 0 else ρ' r (((T + n * q.L : Nat) : Int) - q.bs - x)) =
        if (T : Int) - q.bs - x < 0 then 0 else ρ r ((T : Int) - q.bs - x) := by
      have h1 := hρ r hr' ((T : Int) - q.bs - x) (by omega)
      rw [show (T : Int) - q.bs - x + (n * q.L : Nat) = ((T + n * q.L : Nat) : Int) - q.bs - x by omega] at h1
      rw [h1]
      split
      · rw [if_pos (by omega)]
      · split
        · exact hq r hr' _ (by omega)
        · rfl
    rw [hlast]
    congr 1
    by_cases h2 : 2 ≤ T / q.bs
    · rw [updates_shift hbs hub hdvd h2]
      refine lmsTaps_shift (T := T) (fun r hr l hl m hm t' ht' => hX r hr l hl m hm t' (by omega))
        (fun r hr l hl m hm t' ht' => hz r hr l hl m hm t' ht' (by omega)) he hr' hl x _ (.inr ?_)
      have a1 := Nat.div_mul_le_self ((T / q.bs - 2) * q.bs) q.L
      have a2 := Nat.div_mul_le_self T q.bs
      have a3 : (T / q.bs - 2) * q.bs + 2 * q.bs = T / q.bs * q.bs := by
        rw [← Nat.add_mul, Nat.sub_add_cancel h2]
      omega
    · have h3 : T < 2 * q.bs := by
        have := Nat.lt_of_not_le h2
        rwa [Nat.div_lt_iff_lt_mul hbs] at this
      have h4 := updates_before (t := T + n * q.L) (n := n) (o := 2) hbs hub hdvd (by omega)
      rw [show T / q.bs - 2 = 0 by omega, Nat.zero_mul, Nat.zero_div]
      refine lmsTaps_silent (T := ((q.bs + n * q.L : Nat) : Int)) (fun m hm t' ht' => hz r hr' l hl m hm t' ht' (by omega)) x _ (.inr ?_)
      have := Nat.mul_le_mul_right q.L h4
      omega

end
end Verif

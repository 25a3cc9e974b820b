/-
The filtered-x LMS recursion on delayed signals (C156).
-/
import Mathlib.Tactic.Ring
import Verif.Lemmas.AdaptiveScale
namespace Verif

section
variable {R : Type} [Field R]

/-- A reference nothing of which is lost at the start. -/
def QuietStart (bs nr : Nat) (ρ : Nat → Int → R) : Prop :=
  (∀ c < nr, ∀ t < 0, ρ c t = 0) ∧ (bs ≠ 1 → ∀ c < nr, ∀ t < (bs : Int), ρ c t = 0)

/-- The filtered reference of a reference with a quiet start. -/
theorem storedRef_quiet {S : IrMat R} {bs nr : Nat} (hbs : 0 < bs) {ρ : Nat → Int → R} (hq : QuietStart bs nr ρ) {r : Nat}
    (hr : r < nr) (l m : Nat) (t : Int) :
    storedRef S bs ρ r l m t = ∑ k ∈ Finset.range (S.ir l m).length, (S.ir l m).getD k 0 * ρ r (t - bs - k) := by
  have hz : ∀ u : Int, u < 0 → ρ r u = 0 := hq.1 r hr
  unfold storedRef
  split
  · rename_i ht
    unfold filteredRef skipped
    refine Finset.sum_congr rfl fun k _ => ?_
    rw [if_pos (by omega)]
  · split
    · refine (Finset.sum_eq_zero fun k _ => ?_).symm
      rw [hz _ (by omega), mul_zero]
    · unfold filteredRef skipped
      refine Finset.sum_congr rfl fun k _ => ?_
      congr 1
      split
      · by_cases h1 : bs = 1
        · congr 1
          omega
        · rw [hq.2 h1 r hr _ (by omega), hq.2 h1 r hr _ (by omega)]
      · congr 1
        omega

/-- It is silent for a block. -/
theorem storedRef_before {S : IrMat R} {bs nr : Nat} (hbs : 0 < bs) {ρ : Nat → Int → R} (hq : QuietStart bs nr ρ) {r : Nat}
    (hr : r < nr) (l m : Nat) {t : Int} (ht : t < bs) : storedRef S bs ρ r l m t = 0 := by
  rw [storedRef_quiet hbs hq hr]
  exact Finset.sum_eq_zero fun k _ => by rw [hq.1 r hr _ (by omega), mul_zero]

theorem lmsGrad_shift {norm : FxNorm} {β : R} {nr nl ne L ub : Nat} {X X' : Nat → Nat → Nat → Int → R} {e e' : Nat → Int → R}
    {t0 : Int} {d : Nat} (hX : ∀ r < nr, ∀ l < nl, ∀ m < ne, ∀ t < t0 + ub, X' r l m (t + d) = X r l m t)
    (he : ∀ m < ne, ∀ t < t0 + ub, t0 ≤ t → e' m (t + d) = e m t) {r l : Nat} (hr : r < nr) (hl : l < nl) (x : Nat) :
    lmsGrad norm β nr nl ne L ub X' e' (t0 + d) r l x = lmsGrad norm β nr nl ne L ub X e t0 r l x := by
  unfold lmsGrad
  refine Finset.sum_congr rfl fun i hi => ?_
  have hi' := Finset.mem_range.1 hi
  congr 1
  · refine Finset.sum_congr rfl fun m hm => ?_
    have hm' := Finset.mem_range.1 hm
    rw [← hX r hr l hl m hm' _ (show t0 + i - x < t0 + ub by omega), ← he m hm' _ (show t0 + i < t0 + ub by omega) (by omega)]
    congr 2 <;> omega
  · cases norm with
    | none => rfl
    | sample =>
      simp only [lmsWeight]
      congr 2
      refine Finset.sum_congr rfl fun r hr => Finset.sum_congr rfl fun l hl => Finset.sum_congr rfl fun m hm =>
        Finset.sum_congr rfl fun k _ => ?_
      rw [← hX r (Finset.mem_range.1 hr) l (Finset.mem_range.1 hl) m (Finset.mem_range.1 hm) _ (show t0 + i - k < t0 + ub by omega)]
      congr 2 <;> omega
    | block =>
      simp only [lmsWeight]
      congr 2
      refine Finset.sum_congr rfl fun r hr => Finset.sum_congr rfl fun l hl => Finset.sum_congr rfl fun m hm =>
        Finset.sum_congr rfl fun k hk => ?_
      have hk' := Finset.mem_range.1 hk
      rw [← hX r (Finset.mem_range.1 hr) l (Finset.mem_range.1 hl) m (Finset.mem_range.1 hm) _ (show t0 + k < t0 + ub by omega)]
      congr 2 <;> omega

theorem lmsGrad_silent {norm : FxNorm} {β : R} {nr nl ne L ub : Nat} {X : Nat → Nat → Nat → Int → R} {e : Nat → Int → R}
    {t0 : Int} {r l : Nat} (hX : ∀ m < ne, ∀ t < t0 + ub, X r l m t = 0) (x : Nat) :
    lmsGrad norm β nr nl ne L ub X e t0 r l x = 0 := by
  unfold lmsGrad
  refine Finset.sum_eq_zero fun i hi => ?_
  have hi' := Finset.mem_range.1 hi
  rw [Finset.sum_eq_zero fun m hm => by rw [hX m (Finset.mem_range.1 hm) _ (by omega), zero_mul], zero_mul]

/-- Taps while the filtered reference is silent. -/
theorem lmsTaps_silent {norm : FxNorm} {β μ : R} {nr nl ne L ub b : Nat} {X : Nat → Nat → Nat → Int → R} {e : Nat → Int → R}
    {r l : Nat} {T : Int} (hX : ∀ m < ne, ∀ t < T, X r l m t = 0) (x : Nat) :
    ∀ j : Nat, (j = 0 ∨ ((b + j * ub : Nat) : Int) ≤ T) → lmsTaps norm β μ nr nl ne L ub b X e j r l x = 0
  | 0, _ => rfl
  | j + 1, hj => by
    have hj : ((b + (j + 1) * ub : Nat) : Int) ≤ T := by
      rcases hj with hj | hj
      · omega
      · exact hj
    have e1 : b + (j + 1) * ub = b + j * ub + ub := by ring
    rw [e1] at hj
    simp only [lmsTaps]
    rw [lmsTaps_silent hX x j (.inr (by omega)), lmsGrad_silent (fun m hm t ht => hX m hm t (by omega)), zero_mul, sub_zero]

/-- Taps of delayed signals. -/
theorem lmsTaps_shift {norm : FxNorm} {β μ : R} {nr nl ne L ub b n : Nat} {X X' : Nat → Nat → Nat → Int → R}
    {e e' : Nat → Int → R} {T : Int}
    (hX : ∀ r < nr, ∀ l < nl, ∀ m < ne, ∀ t < T, X' r l m (t + (n * ub : Nat)) = X r l m t)
    (hz : ∀ r < nr, ∀ l < nl, ∀ m < ne, ∀ t < ((b + n * ub : Nat) : Int), X' r l m t = 0)
    (he : ∀ m < ne, ∀ t < T, 0 ≤ t → e' m (t + (n * ub : Nat)) = e m t) {r l : Nat} (hr : r < nr) (hl : l < nl) (x : Nat) :
    ∀ j : Nat, (j = 0 ∨ ((b + j * ub : Nat) : Int) ≤ T) →
      lmsTaps norm β μ nr nl ne L ub b X' e' (j + n) r l x = lmsTaps norm β μ nr nl ne L ub b X e j r l x
  | 0, _ => by
    rw [Nat.zero_add]
    exact lmsTaps_silent (hz r hr l hl) x n (.inr (le_refl _))
  | j + 1, hj => by
    have hj : ((b + (j + 1) * ub : Nat) : Int) ≤ T := by
      rcases hj with hj | hj
      · omega
      · exact hj
    have e1 : b + (j + 1) * ub = b + j * ub + ub := by ring
    rw [e1] at hj
    rw [show j + 1 + n = j + n + 1 by omega]
    simp only [lmsTaps]
    rw [lmsTaps_shift hX hz he hr hl x j (.inr (by omega)),
      show ((b + (j + n) * ub : Nat) : Int) = ((b + j * ub : Nat) : Int) + (n * ub : Nat) by push_cast; ring,
      lmsGrad_shift (fun r hr l hl m hm t ht => hX r hr l hl m hm t (by omega)) (fun m hm t ht h0 => he m hm t (by omega) (by omega)) hr hl]

/-- The number of updates before time `t` and before `n` update blocks later. -/
theorem updates_shift {bs ub n t o : Nat} (hbs : 0 < bs) (hub : 0 < ub) (hd : bs ∣ ub) (ht : o ≤ t / bs) :
    ((t + n * ub) / bs - o) * bs / ub = (t / bs - o) * bs / ub + n := by
  obtain ⟨p, rfl⟩ := hd
  rw [show t + n * (bs * p) = t + (n * p) * bs by ring, Nat.add_mul_div_right _ _ hbs,
    show t / bs + n * p - o = t / bs - o + n * p by omega,
    show (t / bs - o + n * p) * bs = (t / bs - o) * bs + n * (bs * p) by ring,
    Nat.add_mul_div_right _ _ hub]

theorem updates_before {bs ub n t o : Nat} (hbs : 0 < bs) (hub : 0 < ub) (hd : bs ∣ ub) (ht : t < n * ub + o * bs) :
    (t / bs - o) * bs / ub ≤ n := by
  rw [← Nat.lt_succ_iff, Nat.div_lt_iff_lt_mul hub]
  have a2 := Nat.div_mul_le_self t bs
  have a3 : (t / bs - o) * bs = t / bs * bs - o * bs := Nat.sub_mul _ _ _
  have : n.succ * ub = n * ub + ub := Nat.succ_mul _ _
  omega

/-- The loudspeakers with a delayed reference. -/
theorem adaptiveOut_shift (q : FxPar R) (hbs : 0 < q.bs) (hub : 0 < q.ub) (hdvd : q.bs ∣ q.ub) (Sp : IrMat R) {n : Nat}
    {ρ ρ' e e' : Nat → Int → R} (hq : QuietStart q.bs q.nr ρ) (hq' : QuietStart q.bs q.nr ρ') {t : Int}
    (hρ : ∀ c < q.nr, ∀ t' < t, ρ' c (t' + (n * q.ub : Nat)) = ρ c t')
    (he : ∀ c < q.ne, ∀ t' < t, 0 ≤ t' → e' c (t' + (n * q.ub : Nat)) = e c t') {l : Nat} (hl : l < q.nl)
    (h0 : 0 ≤ t + (n * q.ub : Nat)) :
    adaptiveOut q.bs q.ub q.nr q.L (lmsTaps q.norm q.beta q.mu q.nr q.nl q.ne q.L q.ub q.bs
        (storedRef Sp q.bs ρ') e') ρ' l (t + (n * q.ub : Nat)).toNat =
      if t < 0 then 0 else adaptiveOut q.bs q.ub q.nr q.L (lmsTaps q.norm q.beta q.mu q.nr q.nl q.ne q.L q.ub q.bs
        (storedRef Sp q.bs ρ) e) ρ l t.toNat := by
  have hX : ∀ r < q.nr, ∀ l < q.nl, ∀ m < q.ne, ∀ t' < t + q.bs,
      storedRef Sp q.bs ρ' r l m (t' + (n * q.ub : Nat)) = storedRef Sp q.bs ρ r l m t' := by
    intro r hr l _ m _ t' ht'
    rw [storedRef_quiet hbs hq' hr, storedRef_quiet hbs hq hr]
    refine Finset.sum_congr rfl fun k _ => ?_
    rw [← hρ r hr _ (show t' - q.bs - k < t by omega)]
    congr 2
    omega
  have hz : ∀ r < q.nr, ∀ l < q.nl, ∀ m < q.ne, ∀ t' < ((q.bs + n * q.ub : Nat) : Int), t' < t + q.bs + (n * q.ub : Nat) →
      storedRef Sp q.bs ρ' r l m t' = 0 := by
    intro r hr l hl m hm t' ht' ht
    have := hX r hr l hl m hm (t' - (n * q.ub : Nat)) (by omega)
    rw [show t' - (n * q.ub : Nat) + (n * q.ub : Nat) = t' by omega] at this
    rw [this]
    exact storedRef_before hbs hq hr l m (by omega)
  have hρ0 : ∀ r < q.nr, ∀ u : Int, u < (n * q.ub : Nat) → u < t + (n * q.ub : Nat) → ρ' r u = 0 := by
    intro r hr u hu hu'
    have := hρ r hr (u - (n * q.ub : Nat)) (by omega)
    rw [show u - (n * q.ub : Nat) + (n * q.ub : Nat) = u by omega] at this
    rw [this]
    exact hq.1 r hr _ (by omega)
  by_cases ht : t < q.bs
  · have hl0 : adaptiveOut q.bs q.ub q.nr q.L (lmsTaps q.norm q.beta q.mu q.nr q.nl q.ne q.L q.ub q.bs
        (storedRef Sp q.bs ρ') e') ρ' l (t + (n * q.ub : Nat)).toNat = 0 := by
      unfold adaptiveOut
      split
      · rfl
      · refine Finset.sum_eq_zero fun r hr => Finset.sum_eq_zero fun x _ => ?_
        split
        · exact mul_zero _
        · rw [hρ0 r (Finset.mem_range.1 hr) _ (by omega) (by omega), mul_zero]
    rw [hl0]
    split
    · rfl
    · unfold adaptiveOut
      rw [if_pos (by omega)]
  · obtain ⟨T, rfl⟩ : ∃ T : Nat, t = T := ⟨t.toNat, by omega⟩
    rw [if_neg (by omega), show ((T : Int) + (n * q.ub : Nat)).toNat = T + n * q.ub by omega, Int.toNat_natCast]
    unfold adaptiveOut
    rw [if_neg (by omega), if_neg (by omega)]
    refine Finset.sum_congr rfl fun r hr => Finset.sum_congr rfl fun x _ => ?_
    have hr' := Finset.mem_range.1 hr
    have hlast : (if ((T + n * q.ub : Nat) : Int) - q.bs - x < 0 then 0 else ρ' r (((T + n * q.ub : Nat) : Int) - q.bs - x)) =
        if (T : Int) - q.bs - x < 0 then 0 else ρ r ((T : Int) - q.bs - x) := by
      have h1 := hρ r hr' ((T : Int) - q.bs - x) (by omega)
      rw [show (T : Int) - q.bs - x + (n * q.ub : Nat) = ((T + n * q.ub : Nat) : Int) - q.bs - x by omega] at h1
      rw [h1]
      split
      · rw [if_pos (by omega)]
      · split
        · exact hq.1 r hr' _ (by omega)
        · rfl
    rw [hlast]
    congr 1
    by_cases h2 : 2 ≤ T / q.bs
    · rw [updates_shift hbs hub hdvd h2]
      refine lmsTaps_shift (T := T) (fun r hr l hl m hm t' ht' => hX r hr l hl m hm t' (by omega))
        (fun r hr l hl m hm t' ht' => hz r hr l hl m hm t' ht' (by omega)) he hr' hl x _ (.inr ?_)
      have a1 := Nat.div_mul_le_self ((T / q.bs - 2) * q.bs) q.ub
      have a2 := Nat.div_mul_le_self T q.bs
      have a3 : (T / q.bs - 2) * q.bs + 2 * q.bs = T / q.bs * q.bs := by
        rw [← Nat.add_mul, Nat.sub_add_cancel h2]
      omega
    · have h3 : T < 2 * q.bs := by
        have := Nat.lt_of_not_le h2
        rwa [Nat.div_lt_iff_lt_mul hbs] at this
      have h4 := updates_before (t := T + n * q.ub) (n := n) (o := 2) hbs hub hdvd (by omega)
      rw [show T / q.bs - 2 = 0 by omega, Nat.zero_mul, Nat.zero_div]
      refine lmsTaps_silent (T := ((q.bs + n * q.ub : Nat) : Int)) (fun m hm t' ht' => hz r hr' l hl m hm t' ht' (by omega)) x _ (.inr ?_)
      have := Nat.mul_le_mul_right q.ub h4
      omega

end
end Verif

/-
`FastBlockFxLMS` with the channels in another order (C182).
-/
import Verif.Lemmas.AdaptiveRenumber
import Verif.Lemmas.FastMic
namespace Verif

section
variable {R : Type} [Field R] {πr πl πm : Nat → Nat}

theorem storedFrom_renumber {S : IrMat R} {g bs : Nat} (hbs : 0 < bs) {ρ ρ' : Nat → Int → R} {r : Nat} {t : Int}
    (h : ∀ t' ≤ t, ρ' r t' = ρ (πr r) t') (l m : Nat) :
    storedFrom (S.renumber πl πm) g bs ρ' r l m t = storedFrom S g bs ρ (πr r) (πl l) (πm m) t := by
  unfold storedFrom
  split
  · refine filteredRef_renumber (fun k => ?_) l m
    unfold skippedFrom
    split
    · exact h _ (by omega)
    · exact h _ (by omega)
  · split
    · rfl
    · refine filteredRef_renumber (fun k => ?_) l m
      unfold skippedFrom
      split
      · exact h _ (by omega)
      · exact h _ (by omega)

/-- The loudspeakers at time `t` from what was recorded before. -/
theorem adaptiveOut_renumberFast (q : FxPar R) (hbs : 0 < q.bs) (Sp : IrMat R) (g : Nat) (hr : Renumbers πr q.nr) (hl : Renumbers πl q.nl)
    (hm : Renumbers πm q.ne) {ρ ρ' e e' : Nat → Int → R} {t : Nat}
    (hρ : ∀ c < q.nr, ∀ t' < (t : Int), ρ' c t' = ρ (πr c) t') (he : ∀ c < q.ne, ∀ t' < (t : Int), e' c t' = e (πm c) t')
    {l : Nat} (hl' : l < q.nl) :
    adaptiveOut q.bs q.L q.nr q.L (lmsTaps .block q.beta q.mu q.nr q.nl q.ne q.L q.L q.bs
        (storedFrom (Sp.renumber πl πm) g q.bs ρ') e') ρ' l t =
      adaptiveOut q.bs q.L q.nr q.L (lmsTaps .block q.beta q.mu q.nr q.nl q.ne q.L q.L q.bs
        (storedFrom Sp g q.bs ρ) e) ρ (πl l) t := by
  unfold adaptiveOut
  split
  · rfl
  · rename_i htb
    rw [← hr.sum fun r => ∑ x ∈ Finset.range q.L, lmsTaps .block q.beta q.mu q.nr q.nl q.ne q.L q.L q.bs
      (storedFrom Sp g q.bs ρ) e ((t / q.bs - 2) * q.bs / q.L) r (πl l) x *
        (if (t : Int) - q.bs - x < 0 then 0 else ρ r ((t : Int) - q.bs - x))]
    refine Finset.sum_congr rfl fun r hr'' => Finset.sum_congr rfl fun x _ => ?_
    have hr' := Finset.mem_range.1 hr''
    rw [lmsTaps_renumber (X := storedFrom Sp g q.bs ρ) (e := e) hr hl hm (T := t)
      (fun r hr l _ m _ t' ht' => storedFrom_renumber hbs (fun u hu => hρ r hr u (by omega)) l m) he hr' hl']
    · split
      · rfl
      · rw [hρ r hr' _ (by omega)]
    · by_cases h2 : 2 ≤ t / q.bs
      · right
        have a1 := Nat.div_mul_le_self ((t / q.bs - 2) * q.bs) q.L
        have a2 := Nat.div_mul_le_self t q.bs
        have a3 : (t / q.bs - 2) * q.bs + 2 * q.bs = t / q.bs * q.bs := by
          rw [← Nat.add_mul, Nat.sub_add_cancel h2]
        omega
      · left
        rw [show t / q.bs - 2 = 0 by omega, Nat.zero_mul, Nat.zero_div]

end
end Verif

/-
What `FastBlockFxLMS` makes of louder or softer signals (C180).
-/
import Verif.Lemmas.AdaptiveScale
import Verif.Lemmas.FastMic
import Verif.Spec.FastScale
namespace Verif

section
variable {R : Type} [Field R] {a : R}

theorem storedFrom_scale {S : IrMat R} {g bs : Nat} (hbs : 0 < bs) {ρ ρ' : Nat → Int → R} {r : Nat} {t : Int}
    (h : ∀ t' ≤ t, ρ' r t' = a * ρ r t') (l m : Nat) :
    storedFrom S g bs ρ' r l m t = a * storedFrom S g bs ρ r l m t := by
  unfold storedFrom
  split
  · refine filteredRef_scale (fun k => ?_) l m
    unfold skippedFrom
    split
    · exact h _ (by omega)
    · exact h _ (by omega)
  · split
    · rw [mul_zero]
    · refine filteredRef_scale (fun k => ?_) l m
      unfold skippedFrom
      split
      · exact h _ (by omega)
      · exact h _ (by omega)

theorem adaptiveOut_scaleFast (ha : a ≠ 0) (q : FxPar R) (hbs : 0 < q.bs) (Sp : IrMat R) (g : Nat) {ρ ρ' e e' : Nat → Int → R} {t : Nat}
    (hρ : ∀ c < q.nr, ∀ t' < (t : Int), ρ' c t' = a * ρ c t') (he : ∀ c < q.ne, ∀ t' < (t : Int), e' c t' = a * e c t')
    {l : Nat} (hl : l < q.nl) :
    adaptiveOut q.bs q.L q.nr q.L (lmsTaps .block (q.louderFast a).beta (q.louderFast a).mu q.nr q.nl q.ne q.L q.L q.bs
        (storedFrom Sp g q.bs ρ') e') ρ' l t =
      a * adaptiveOut q.bs q.L q.nr q.L (lmsTaps .block q.beta q.mu q.nr q.nl q.ne q.L q.L q.bs
        (storedFrom Sp g q.bs ρ) e) ρ l t := by
  unfold adaptiveOut
  split
  · rw [mul_zero]
  · rename_i htb
    simp only [Finset.mul_sum]
    refine Finset.sum_congr rfl fun r hr => Finset.sum_congr rfl fun x _ => ?_
    have hr' := Finset.mem_range.1 hr
    have key := lmsTaps_scale ha { q with norm := .block, ub := q.L } (b := q.bs) (T := t)
      (X := storedFrom Sp g q.bs ρ) (X' := storedFrom Sp g q.bs ρ')
      (fun r hr l _ m _ t' ht' => storedFrom_scale hbs (fun u hu => hρ r hr u (by omega)) l m) he hr' hl x
      ((t / q.bs - 2) * q.bs / q.L) (by
        dsimp only
        by_cases h2 : 2 ≤ t / q.bs
        · right
          have a1 := Nat.div_mul_le_self ((t / q.bs - 2) * q.bs) q.L
          have a2 := Nat.div_mul_le_self t q.bs
          have a3 : (t / q.bs - 2) * q.bs + 2 * q.bs = t / q.bs * q.bs := by
            rw [← Nat.add_mul, Nat.sub_add_cancel h2]
          omega
        · left
          rw [show t / q.bs - 2 = 0 by omega, Nat.zero_mul, Nat.zero_div])
    change lmsTaps .block (q.louderFast a).beta (q.louderFast a).mu q.nr q.nl q.ne q.L q.L q.bs _ _ _ _ _ _ = _ at key
    rw [key]
    split
    · ring
    · rw [hρ r hr' _ (by omega)]; ring

end

section
variable {R : Type} [Field R] {a : R} {q : FxPar R}

theorem louderFast_scene {IR F S A D O D' O' : Type} {cfg : SimCfg R IR F S A (FastSt R) D O} {diag : DiagOps R (FastSt R) D' O'}
    (ha : a ≠ 0) (h : FastScene cfg q) : FastScene (cfg.withProc (some (fastProc (q.louderFast a))) diag) (q.louderFast a) where
  proc := rfl
  ref := h.ref
  err := h.err
  ls := h.ls
  own := h.own
  nr := h.nr
  nl := h.nl
  ne := h.ne
  L := h.L
  bs := h.bs
  ub := h.ub
  chunk := h.chunk
  buffer := h.buffer
  regular := by
    intro l h0
    refine h.regular (l.map fun x => x / a) ?_
    have hs : ∀ l : List R, ((l.map fun x => x / a).map fun x => x * x).sum = (l.map fun x => x * x).sum / a ^ 2 := by
      intro l
      induction l with
      | nil => simp
      | cons x l ih =>
        simp only [List.map_cons, List.sum_cons, ih]
        field_simp
    have hb : (q.louderFast a).beta = a ^ 2 * q.beta := rfl
    rw [hs, div_add' _ _ _ (pow_ne_zero 2 ha), mul_comm, ← hb, h0, zero_div]

end
end Verif

/-
The filtered-x LMS recursion and the preparation with louder or softer signals (C152).
-/
import Mathlib.Tactic.FieldSimp
import Mathlib.Tactic.Ring
import Mathlib.Algebra.BigOperators.Ring.Finset
import Verif.Lemmas.AdaptiveMic
import Verif.Lemmas.Started
import Verif.Spec.AdaptiveScale
import Verif.Spec.FastBlock
namespace Verif

section
variable {R : Type} [Field R] {a : R}

theorem louder_eq (a : R) (q : FxPar R) : ∃ μ β, q.louder a = { q with mu := μ, beta := β } := by
  unfold FxPar.louder
  split
  · exact ⟨_, q.beta, rfl⟩
  · exact ⟨q.mu, _, rfl⟩

theorem filteredRef_scale {S : IrMat R} {bs : Nat} {ρ ρ' : Nat → Int → R} {r : Nat} {t : Int}
    (h : ∀ k : Nat, ρ' r (t - bs - k) = a * ρ r (t - bs - k)) (l m : Nat) :
    filteredRef S bs ρ' r l m t = a * filteredRef S bs ρ r l m t := by
  unfold filteredRef
  rw [Finset.mul_sum]
  exact Finset.sum_congr rfl fun k _ => by rw [h]; ring

theorem storedRef_scale {S : IrMat R} {bs : Nat} (hbs : 0 < bs) {ρ ρ' : Nat → Int → R} {r : Nat} {t : Int}
    (h : ∀ t' ≤ t, ρ' r t' = a * ρ r t') (l m : Nat) :
    storedRef S bs ρ' r l m t = a * storedRef S bs ρ r l m t := by
  unfold storedRef
  split
  · refine filteredRef_scale (fun k => ?_) l m
    unfold skipped
    split
    · exact h _ (by omega)
    · exact h _ (by omega)
  · split
    · rw [mul_zero]
    · refine filteredRef_scale (fun k => ?_) l m
      unfold skipped
      split
      · exact h _ (by omega)
      · exact h _ (by omega)

theorem sumSq_scale {nr nl ne n : Nat} {X X' : Nat → Nat → Nat → Int → R} (τ : Nat → Int)
    (h : ∀ r < nr, ∀ l < nl, ∀ m < ne, ∀ i < n, X' r l m (τ i) = a * X r l m (τ i)) :
    (∑ r ∈ Finset.range nr, ∑ l ∈ Finset.range nl, ∑ m ∈ Finset.range ne, ∑ i ∈ Finset.range n,
      X' r l m (τ i) * X' r l m (τ i)) = a ^ 2 * ∑ r ∈ Finset.range nr, ∑ l ∈ Finset.range nl, ∑ m ∈ Finset.range ne,
        ∑ i ∈ Finset.range n, X r l m (τ i) * X r l m (τ i) := by
  simp only [Finset.mul_sum]
  refine Finset.sum_congr rfl fun r hr => Finset.sum_congr rfl fun l hl => Finset.sum_congr rfl fun m hm =>
    Finset.sum_congr rfl fun i hi => ?_
  rw [h r (Finset.mem_range.1 hr) l (Finset.mem_range.1 hl) m (Finset.mem_range.1 hm) i (Finset.mem_range.1 hi)]
  ring

theorem lmsGrad_scale (ha : a ≠ 0) (q : FxPar R) {X X' : Nat → Nat → Nat → Int → R} {e e' : Nat → Int → R} {t0 : Int}
    (hX : ∀ r < q.nr, ∀ l < q.nl, ∀ m < q.ne, ∀ t < t0 + q.ub, X' r l m t = a * X r l m t)
    (he : ∀ m < q.ne, ∀ t < t0 + q.ub, e' m t = a * e m t) {r l : Nat} (hr : r < q.nr) (hl : l < q.nl) (x : Nat) :
    lmsGrad q.norm (q.louder a).beta q.nr q.nl q.ne q.L q.ub X' e' t0 r l x * (q.louder a).mu =
      lmsGrad q.norm q.beta q.nr q.nl q.ne q.L q.ub X e t0 r l x * q.mu := by
  unfold lmsGrad
  have hc : ∀ i ∈ Finset.range q.ub, (∑ m ∈ Finset.range q.ne, X' r l m (t0 + i - x) * e' m (t0 + i)) =
      a ^ 2 * ∑ m ∈ Finset.range q.ne, X r l m (t0 + i - x) * e m (t0 + i) := by
    intro i hi
    have := Finset.mem_range.1 hi
    rw [Finset.mul_sum]
    refine Finset.sum_congr rfl fun m hm => ?_
    rw [hX r hr l hl m (Finset.mem_range.1 hm) _ (by omega), he m (Finset.mem_range.1 hm) _ (by omega)]
    ring
  rw [Finset.sum_mul, Finset.sum_mul]
  refine Finset.sum_congr rfl fun i hi => ?_
  rw [hc i hi]
  have hi' := Finset.mem_range.1 hi
  cases hn : q.norm with
  | none =>
    simp only [lmsWeight, FxPar.louder, hn]
    field_simp
  | sample =>
    simp only [lmsWeight, FxPar.louder, hn]
    rw [sumSq_scale (a := a) (fun k => t0 + i - k)
      (fun r hr l hl m hm k _ => hX r hr l hl m hm _ (by omega)), ← mul_add, one_div, one_div, mul_inv]
    field_simp
  | block =>
    simp only [lmsWeight, FxPar.louder, hn]
    rw [sumSq_scale (a := a) (fun k => t0 + k)
      (fun r hr l hl m hm k hk => hX r hr l hl m hm _ (by omega)), ← mul_add, one_div, one_div, mul_inv]
    field_simp

theorem lmsTaps_scale (ha : a ≠ 0) (q : FxPar R) {b : Nat} {X X' : Nat → Nat → Nat → Int → R} {e e' : Nat → Int → R} {T : Int}
    (hX : ∀ r < q.nr, ∀ l < q.nl, ∀ m < q.ne, ∀ t < T, X' r l m t = a * X r l m t)
    (he : ∀ m < q.ne, ∀ t < T, e' m t = a * e m t) {r l : Nat} (hr : r < q.nr) (hl : l < q.nl) (x : Nat) :
    ∀ j : Nat, (j = 0 ∨ ((b + j * q.ub : Nat) : Int) ≤ T) →
      lmsTaps q.norm (q.louder a).beta (q.louder a).mu q.nr q.nl q.ne q.L q.ub b X' e' j r l x =
        lmsTaps q.norm q.beta q.mu q.nr q.nl q.ne q.L q.ub b X e j r l x
  | 0, _ => rfl
  | j + 1, hj => by
    have hj : ((b + (j + 1) * q.ub : Nat) : Int) ≤ T := by
      rcases hj with hj | hj
      · omega
      · exact hj
    have e1 : b + (j + 1) * q.ub = b + j * q.ub + q.ub := by ring
    rw [e1] at hj
    simp only [lmsTaps]
    rw [lmsTaps_scale ha q hX he hr hl x j (.inr (by omega)),
      lmsGrad_scale ha q (fun r hr l hl m hm t ht => hX r hr l hl m hm t (by omega))
        (fun m hm t ht => he m hm t (by omega)) hr hl]

/-- The loudspeakers at time `t` from what was recorded before. -/
theorem adaptiveOut_scale (ha : a ≠ 0) (q : FxPar R) (hbs : 0 < q.bs) (Sp : IrMat R) {ρ ρ' e e' : Nat → Int → R} {t : Nat}
    (hρ : ∀ c < q.nr, ∀ t' < (t : Int), ρ' c t' = a * ρ c t') (he : ∀ c < q.ne, ∀ t' < (t : Int), e' c t' = a * e c t')
    {l : Nat} (hl : l < q.nl) :
    adaptiveOut q.bs q.ub q.nr q.L (lmsTaps q.norm (q.louder a).beta (q.louder a).mu q.nr q.nl q.ne q.L q.ub q.bs
        (storedRef Sp q.bs ρ') e') ρ' l t =
      a * adaptiveOut q.bs q.ub q.nr q.L (lmsTaps q.norm q.beta q.mu q.nr q.nl q.ne q.L q.ub q.bs
        (storedRef Sp q.bs ρ) e) ρ l t := by
  unfold adaptiveOut
  split
  · rw [mul_zero]
  · rename_i htb
    simp only [Finset.mul_sum]
    refine Finset.sum_congr rfl fun r hr => Finset.sum_congr rfl fun x _ => ?_
    have hr' := Finset.mem_range.1 hr
    rw [lmsTaps_scale ha q (T := t) (fun r hr l _ m _ t' ht' => storedRef_scale hbs (fun u hu => hρ r hr u (by omega)) l m)
      he hr' hl]
    · split
      · ring
      · rw [hρ r hr' _ (by omega)]; ring
    · by_cases h2 : 2 ≤ t / q.bs
      · right
        have a1 := Nat.div_mul_le_self ((t / q.bs - 2) * q.bs) q.ub
        have a2 := Nat.div_mul_le_self t q.bs
        have a3 : (t / q.bs - 2) * q.bs + 2 * q.bs = t / q.bs * q.bs := by
          rw [← Nat.add_mul, Nat.sub_add_cancel h2]
        omega
      · left
        rw [show t / q.bs - 2 = 0 by omega, Nat.zero_mul, Nat.zero_div]

theorem firOut_scale {h : IrMat R} {l l' : List (List R)}
    (hl : ∀ k, ∀ s < h.numIn, (l'.getD k []).getD s 0 = a * (l.getD k []).getD s 0) (m : Nat) :
    firOut h l' m = a * firOut h l m := by
  unfold firOut
  rw [← List.sum_map_mul_left]
  congr 1
  refine List.map_congr_left fun s hs => ?_
  rw [← List.sum_map_mul_left]
  congr 1
  refine List.map_congr_left fun k _ => ?_
  rw [hl k s (by simpa using hs)]
  ring

theorem convSum_scale {l : List ArrInfo} {ir ir' : String → IrMat R} {u v : String → Nat → Int → R} {c : Nat} {t : Int}
    (hir : ∀ s ∈ l, ir' s.name = ir s.name)
    (h : ∀ s ∈ l, ∀ i < s.num, ∀ r ≤ t, v s.name i r = a * u s.name i r) : convSum l ir' v c t = a * convSum l ir u c t := by
  unfold convSum
  rw [← List.sum_map_mul_left]
  congr 1
  refine List.map_congr_left fun s hs => ?_
  rw [← List.sum_map_mul_left, hir s hs]
  congr 1
  refine List.map_congr_left fun i hi => ?_
  rw [← List.sum_map_mul_left]
  congr 1
  refine List.map_congr_left fun j _ => ?_
  rw [h s hs i (by simpa using hi) _ (by omega)]
  ring

end

section
variable {R S A D O D' O' : Type} [Field R] {cfg : SimCfg R (IrMat R) (Fir R) S A (FxSt R) D O} {q : FxPar R} {a : R}
  {p : Option (Proc R (FxSt R))} {diag : DiagOps R (FxSt R) D' O'}

/-- The sources before the first step. -/
theorem tInit_played {P : Type} {cfg : SimCfg R (IrMat R) (Fir R) S A P D O} (hN : Names cfg) {srcs : String → S} {arr : A}
    {proc : P} {f0 : Fir R} {e0 : Eng (Tape R) (Fir R) S A P} (hi : cfg.tInit srcs arr proc f0 = .ok e0)
    {x : String → Nat → Nat → R}
    (hx : ∀ a ∈ cfg.arrays, a.kind = .free → IsStream cfg.srcGet (srcs a.name) a.num (x a.name))
    {s : ArrInfo} (hs : s ∈ sourcesOf cfg.arrays) {i j : Nat} (hc : i < s.num) (hj : j < cfg.prepNum) :
    e0.sig s.name i ((j : Int) - cfg.prepNum) = if s.kind = .free then x s.name i j else 0 := by
  obtain ⟨h1, h2⟩ := mem_sourcesOf hs
  cases hkind : s.kind with
  | mic => exact absurd hkind h2
  | free =>
    rw [if_pos rfl]
    have ham : s ∈ freeOf cfg.arrays := by
      unfold freeOf; rw [List.mem_filter]; exact ⟨h1, by simpa using hkind⟩
    exact (tInit_source cfg hN hi ham (hx s h1 hkind)).2 i j hc hj
  | ctrl =>
    rw [if_neg (by decide)]
    obtain ⟨fs, e1, W, g1, g2, g3⟩ := tInit_parts cfg hN hi
    obtain ⟨n1, n2⟩ := src_ne hN hs
    rw [g3.old _ i _ (fun hc => .inl (n1 hc)) (.inr (.inr n2)), g2.sig _ i _ (.inl (ctrlNe hN h1 hkind))]

/-- The microphones before the first step with louder sources. -/
theorem tInit_scale {P P' : Type} {cfg : SimCfg R (IrMat R) (Fir R) S A P D O} {p : Option (Proc R P')} {diag : DiagOps R P' D' O'}
    (hN : Names cfg) (hN' : Names (cfg.withProc p diag)) (hfilt : cfg.filt = firOps R)
    (hpos : ∀ a ∈ cfg.arrays, 0 < a.num) {arr : A} (hsh : cfg.PathShape arr) (hsh' : (cfg.withProc p diag).PathShape arr)
    (hB : 1 ≤ cfg.B) {srcs srcs' : String → S} {proc : P} {proc' : P'} {f0 : Fir R}
    {e0 : Eng (Tape R) (Fir R) S A P} {e0' : Eng (Tape R) (Fir R) S A P'}
    (hi : cfg.tInit srcs arr proc f0 = .ok e0) (hi' : (cfg.withProc p diag).tInit srcs' arr proc' f0 = .ok e0')
    {x x' : String → Nat → Nat → R}
    (hx : ∀ a ∈ cfg.arrays, a.kind = .free → IsStream cfg.srcGet (srcs a.name) a.num (x a.name))
    (hx' : ∀ a ∈ cfg.arrays, a.kind = .free → IsStream cfg.srcGet (srcs' a.name) a.num (x' a.name))
    (hxx : ∀ s ∈ cfg.arrays, s.kind = .free → ∀ i < s.num, ∀ j, x' s.name i j = a * x s.name i j)
    {m : ArrInfo} (hm : m ∈ micsOf cfg.arrays) {c i : Nat} (hc : c < m.num) (hiB : i < cfg.B) :
    e0'.sig m.name c ((i : Int) - cfg.B) = a * e0.sig m.name c ((i : Int) - cfg.B) := by
  obtain ⟨ir, g1, g2⟩ := prep_fir cfg hN hfilt hpos hsh hB hm hi
  obtain ⟨ir', g1', g2'⟩ := prep_fir (cfg.withProc p diag) hN' hfilt hpos hsh' hB hm hi'
  have a1 := g2 c i hc hiB
  have a2 := g2' c i hc hiB
  have hsig : ∀ s ∈ sourcesOf cfg.arrays, ∀ n < s.num, ∀ j < cfg.prepNum,
      e0'.sig s.name n ((j : Int) - cfg.prepNum) = a * e0.sig s.name n ((j : Int) - cfg.prepNum) := by
    intro s hs n hn j hj
    rw [tInit_played hN hi hx hs hn hj]
    refine (tInit_played hN' hi' (x := x') hx' hs hn hj).trans ?_
    split
    · rename_i hf
      exact hxx s (mem_sourcesOf hs).1 hf n hn j
    · rw [mul_zero]
  rw [a1]
  refine a2.trans ?_
  rw [← List.sum_map_mul_left]
  show ((sourcesOf cfg.arrays).map _).sum = _
  congr 1
  refine List.map_congr_left fun s hs => ?_
  have hir : ir' s.name = ir s.name := by
    have b1 := (g1 s hs).1
    have b2 : cfg.arrPath arr s.name m.name = .ok (ir' s.name) := (g1' s hs).1
    rw [b1] at b2
    exact (Except.ok.inj b2).symm
  rw [hir]
  refine firOut_scale (fun k n hn => ?_) c
  rw [(g1 s hs).2] at hn
  show (((List.range (if cfg.warm then i + 1 else 1)).map _).getD k []).getD n 0 = _
  by_cases hk : k < (if cfg.warm then i + 1 else 1)
  · have e1 : ∀ (T : Tape R), (((List.range (if cfg.warm then i + 1 else 1)).map fun d : Nat => colAt T s
        ((if cfg.warm then (i : Int) - cfg.B else -1) - d)).getD k []).getD n 0 =
        T s.name n ((if cfg.warm then (i : Int) - cfg.B else -1) - k) := by
      intro T
      simp [List.getD_eq_getElem?_getD, hk, colAt, hn]
    refine (e1 e0'.sig).trans ?_
    rw [e1]
    have hpn : cfg.prepNum = if cfg.warm then cfg.B else 1 := rfl
    by_cases hw : cfg.warm = true
    · rw [if_pos hw] at hk hpn ⊢
      have := hsig s hs n hn (i - k) (by omega)
      rwa [show ((i - k : Nat) : Int) - (cfg.prepNum : Nat) = (i : Int) - cfg.B - k by omega] at this
    · rw [if_neg hw] at hk hpn ⊢
      have := hsig s hs n hn 0 (by omega)
      rwa [show ((0 : Nat) : Int) - (cfg.prepNum : Nat) = -1 - (k : Int) by omega] at this
  · have e1 : ∀ (f : Nat → List R), ((List.range (if cfg.warm then i + 1 else 1)).map f).getD k [] = [] := by
      intro f
      rw [List.getD_eq_default]
      simp only [List.length_map, List.length_range]
      omega
    rw [e1, e1]
    simp

end
end Verif

/-
The filtered-x LMS recursion and the preparation with renumbered channels (C155).
-/
import Mathlib.Tactic.Ring
import Mathlib.Algebra.BigOperators.Ring.Finset
import Verif.Lemmas.AdaptiveScale
import Verif.Lemmas.Freq
import Verif.Spec.Renumber
namespace Verif

section
variable {R : Type} [Field R]

theorem Renumbers.sum {π : Nat → Nat} {n : Nat} (h : Renumbers π n) (f : Nat → R) :
    ∑ i ∈ Finset.range n, f (π i) = ∑ i ∈ Finset.range n, f i := by
  have hinj : Set.InjOn π (Finset.range n : Finset Nat) := by
    intro i hi j hj hij
    exact h.2 i (by simpa using hi) j (by simpa using hj) hij
  have himg : (Finset.range n).image π = Finset.range n := by
    apply Finset.eq_of_subset_of_card_le
    · intro y hy
      obtain ⟨i, hi, rfl⟩ := Finset.mem_image.1 hy
      exact Finset.mem_range.2 (h.1 i (Finset.mem_range.1 hi))
    · rw [Finset.card_image_of_injOn hinj]
  conv_rhs => rw [← himg]
  rw [Finset.sum_image hinj]

theorem Renumbers.listSum {π : Nat → Nat} {n : Nat} (h : Renumbers π n) (f : Nat → R) :
    ((List.range n).map fun i => f (π i)).sum = ((List.range n).map f).sum := by
  rw [sum_range_list, sum_range_list, h.sum]

variable {πr πl πm : Nat → Nat}

theorem filteredRef_renumber {S : IrMat R} {bs : Nat} {ρ ρ' : Nat → Int → R} {r : Nat} {t : Int}
    (h : ∀ k : Nat, ρ' r (t - bs - k) = ρ (πr r) (t - bs - k)) (l m : Nat) :
    filteredRef (S.renumber πl πm) bs ρ' r l m t = filteredRef S bs ρ (πr r) (πl l) (πm m) t := by
  unfold filteredRef IrMat.renumber
  exact Finset.sum_congr rfl fun k _ => by rw [h]

theorem storedRef_renumber {S : IrMat R} {bs : Nat} (hbs : 0 < bs) {ρ ρ' : Nat → Int → R} {r : Nat} {t : Int}
    (h : ∀ t' ≤ t, ρ' r t' = ρ (πr r) t') (l m : Nat) :
    storedRef (S.renumber πl πm) bs ρ' r l m t = storedRef S bs ρ (πr r) (πl l) (πm m) t := by
  unfold storedRef
  split
  · refine filteredRef_renumber (fun k => ?_) l m
    unfold skipped
    split
    · exact h _ (by omega)
    · exact h _ (by omega)
  · split
    · rfl
    · refine filteredRef_renumber (fun k => ?_) l m
      unfold skipped
      split
      · exact h _ (by omega)
      · exact h _ (by omega)

theorem sumSq_renumber {nr nl ne n : Nat} (hr : Renumbers πr nr) (hl : Renumbers πl nl) (hm : Renumbers πm ne)
    {X X' : Nat → Nat → Nat → Int → R} (τ : Nat → Int)
    (h : ∀ r < nr, ∀ l < nl, ∀ m < ne, ∀ i < n, X' r l m (τ i) = X (πr r) (πl l) (πm m) (τ i)) :
    (∑ r ∈ Finset.range nr, ∑ l ∈ Finset.range nl, ∑ m ∈ Finset.range ne, ∑ i ∈ Finset.range n,
      X' r l m (τ i) * X' r l m (τ i)) = ∑ r ∈ Finset.range nr, ∑ l ∈ Finset.range nl, ∑ m ∈ Finset.range ne,
        ∑ i ∈ Finset.range n, X r l m (τ i) * X r l m (τ i) := by
  rw [← hr.sum fun r => ∑ l ∈ Finset.range nl, ∑ m ∈ Finset.range ne, ∑ i ∈ Finset.range n, X r l m (τ i) * X r l m (τ i)]
  refine Finset.sum_congr rfl fun r hr' => ?_
  rw [← hl.sum fun l => ∑ m ∈ Finset.range ne, ∑ i ∈ Finset.range n, X (πr r) l m (τ i) * X (πr r) l m (τ i)]
  refine Finset.sum_congr rfl fun l hl' => ?_
  rw [← hm.sum fun m => ∑ i ∈ Finset.range n, X (πr r) (πl l) m (τ i) * X (πr r) (πl l) m (τ i)]
  refine Finset.sum_congr rfl fun m hm' => Finset.sum_congr rfl fun i hi => ?_
  rw [h r (Finset.mem_range.1 hr') l (Finset.mem_range.1 hl') m (Finset.mem_range.1 hm') i (Finset.mem_range.1 hi)]

theorem lmsGrad_renumber {norm : FxNorm} {β : R} {nr nl ne L ub : Nat} (hr : Renumbers πr nr) (hl : Renumbers πl nl)
    (hm : Renumbers πm ne) {X X' : Nat → Nat → Nat → Int → R} {e e' : Nat → Int → R} {t0 : Int}
    (hX : ∀ r < nr, ∀ l < nl, ∀ m < ne, ∀ t < t0 + ub, X' r l m t = X (πr r) (πl l) (πm m) t)
    (he : ∀ m < ne, ∀ t < t0 + ub, e' m t = e (πm m) t) {r l : Nat} (hr' : r < nr) (hl' : l < nl) (x : Nat) :
    lmsGrad norm β nr nl ne L ub X' e' t0 r l x = lmsGrad norm β nr nl ne L ub X e t0 (πr r) (πl l) x := by
  unfold lmsGrad
  refine Finset.sum_congr rfl fun i hi => ?_
  have hi' := Finset.mem_range.1 hi
  congr 1
  · rw [← hm.sum fun m => X (πr r) (πl l) m (t0 + i - x) * e m (t0 + i)]
    refine Finset.sum_congr rfl fun m hm' => ?_
    rw [hX r hr' l hl' m (Finset.mem_range.1 hm') _ (by omega), he m (Finset.mem_range.1 hm') _ (by omega)]
  · cases norm with
    | none => rfl
    | sample =>
      simp only [lmsWeight]
      rw [sumSq_renumber hr hl hm (fun k => t0 + i - k) (fun r hr l hl m hm k _ => hX r hr l hl m hm _ (by omega))]
    | block =>
      simp only [lmsWeight]
      rw [sumSq_renumber hr hl hm (fun k => t0 + k) (fun r hr l hl m hm k hk => hX r hr l hl m hm _ (by omega))]

theorem lmsTaps_renumber {norm : FxNorm} {β μ : R} {nr nl ne L ub b : Nat} (hr : Renumbers πr nr) (hl : Renumbers πl nl)
    (hm : Renumbers πm ne) {X X' : Nat → Nat → Nat → Int → R} {e e' : Nat → Int → R} {T : Int}
    (hX : ∀ r < nr, ∀ l < nl, ∀ m < ne, ∀ t < T, X' r l m t = X (πr r) (πl l) (πm m) t)
    (he : ∀ m < ne, ∀ t < T, e' m t = e (πm m) t) {r l : Nat} (hr' : r < nr) (hl' : l < nl) (x : Nat) :
    ∀ j : Nat, (j = 0 ∨ ((b + j * ub : Nat) : Int) ≤ T) →
      lmsTaps norm β μ nr nl ne L ub b X' e' j r l x = lmsTaps norm β μ nr nl ne L ub b X e j (πr r) (πl l) x
  | 0, _ => rfl
  | j + 1, hj => by
    have hj : ((b + (j + 1) * ub : Nat) : Int) ≤ T := by
      rcases hj with hj | hj
      · omega
      · exact hj
    have e1 : b + (j + 1) * ub = b + j * ub + ub := by ring
    rw [e1] at hj
    simp only [lmsTaps]
    rw [lmsTaps_renumber hr hl hm hX he hr' hl' x j (.inr (by omega)),
      lmsGrad_renumber hr hl hm (fun r hr l hl m hm t ht => hX r hr l hl m hm t (by omega))
        (fun m hm t ht => he m hm t (by omega)) hr' hl']

/-- The loudspeakers at time `t` from what was recorded before. -/
theorem adaptiveOut_renumber (q : FxPar R) (hbs : 0 < q.bs) (Sp : IrMat R) (hr : Renumbers πr q.nr) (hl : Renumbers πl q.nl)
    (hm : Renumbers πm q.ne) {ρ ρ' e e' : Nat → Int → R} {t : Nat}
    (hρ : ∀ c < q.nr, ∀ t' < (t : Int), ρ' c t' = ρ (πr c) t') (he : ∀ c < q.ne, ∀ t' < (t : Int), e' c t' = e (πm c) t')
    {l : Nat} (hl' : l < q.nl) :
    adaptiveOut q.bs q.ub q.nr q.L (lmsTaps q.norm q.beta q.mu q.nr q.nl q.ne q.L q.ub q.bs
        (storedRef (Sp.renumber πl πm) q.bs ρ') e') ρ' l t =
      adaptiveOut q.bs q.ub q.nr q.L (lmsTaps q.norm q.beta q.mu q.nr q.nl q.ne q.L q.ub q.bs
        (storedRef Sp q.bs ρ) e) ρ (πl l) t := by
  unfold adaptiveOut
  split
  · rfl
  · rename_i htb
    rw [← hr.sum fun r => ∑ x ∈ Finset.range q.L, lmsTaps q.norm q.beta q.mu q.nr q.nl q.ne q.L q.ub q.bs
      (storedRef Sp q.bs ρ) e ((t / q.bs - 2) * q.bs / q.ub) r (πl l) x *
        (if (t : Int) - q.bs - x < 0 then 0 else ρ r ((t : Int) - q.bs - x))]
    refine Finset.sum_congr rfl fun r hr'' => Finset.sum_congr rfl fun x _ => ?_
    have hr' := Finset.mem_range.1 hr''
    rw [lmsTaps_renumber (X := storedRef Sp q.bs ρ) (e := e) hr hl hm (T := t)
      (fun r hr l _ m _ t' ht' => storedRef_renumber hbs (fun u hu => hρ r hr u (by omega)) l m) he hr' hl']
    · split
      · rfl
      · rw [hρ r hr' _ (by omega)]
    · by_cases h2 : 2 ≤ t / q.bs
      · right
        have a1 := Nat.div_mul_le_self ((t / q.bs - 2) * q.bs) q.ub
        have a2 := Nat.div_mul_le_self t q.bs
        have a3 : (t / q.bs - 2) * q.bs + 2 * q.bs = t / q.bs * q.bs := by
          rw [← Nat.add_mul, Nat.sub_add_cancel h2]
        omega
      · left
        rw [show t / q.bs - 2 = 0 by omega, Nat.zero_mul, Nat.zero_div]

theorem firOut_renumber {h : IrMat R} {πi πo : Nat → Nat} (hp : Renumbers πi h.numIn) {l l' : List (List R)}
    (hl : ∀ k, ∀ s < h.numIn, (l'.getD k []).getD s 0 = (l.getD k []).getD (πi s) 0) (m : Nat) :
    firOut (h.renumber πi πo) l' m = firOut h l (πo m) := by
  unfold firOut
  rw [← hp.listSum fun s => ((List.range (h.ir s (πo m)).length).map fun k =>
      (h.ir s (πo m)).getD k 0 * (l.getD k []).getD s 0).sum]
  show ((List.range h.numIn).map _).sum = _
  congr 1
  refine List.map_congr_left fun s hs => ?_
  show ((List.range (h.ir (πi s) (πo m)).length).map _).sum = _
  congr 1
  refine List.map_congr_left fun k _ => ?_
  rw [hl k s (by simpa using hs)]
  rfl

theorem convSum_renumber {l : List ArrInfo} {ir ir' : String → IrMat R} {u v : String → Nat → Int → R} {c c' : Nat} {t : Int}
    {π : String → Nat → Nat} (hp : ∀ s ∈ l, Renumbers (π s.name) s.num)
    (hir : ∀ s ∈ l, ∀ i < s.num, (ir' s.name).ir i c = (ir s.name).ir (π s.name i) c')
    (h : ∀ s ∈ l, ∀ i < s.num, ∀ r ≤ t, v s.name i r = u s.name (π s.name i) r) : convSum l ir' v c t = convSum l ir u c' t := by
  unfold convSum
  congr 1
  refine List.map_congr_left fun s hs => ?_
  rw [← (hp s hs).listSum fun i => ((List.range ((ir s.name).ir i c').length).map fun k =>
      ((ir s.name).ir i c').getD k 0 * u s.name i (t - k)).sum]
  congr 1
  refine List.map_congr_left fun i hi => ?_
  rw [hir s hs i (by simpa using hi)]
  congr 1
  refine List.map_congr_left fun j _ => ?_
  rw [h s hs i (by simpa using hi) _ (by omega)]

end

section
variable {R S A D O : Type}

theorem renumbered_ok {P : Type} {cfg : SimCfg R (IrMat R) (Fir R) S A P D O} {π : String → Nat → Nat} {a : A} {s m : String}
    {h : IrMat R} (hp : (cfg.renumbered π).arrPath a s m = .ok h) :
    ∃ h0, cfg.arrPath a s m = .ok h0 ∧ h = h0.renumber (π s) (π m) := by
  unfold SimCfg.renumbered at hp
  dsimp only at hp
  cases h0 : cfg.arrPath a s m with
  | error x => rw [h0] at hp; cases hp
  | ok g =>
    rw [h0] at hp
    exact ⟨g, rfl, (Except.ok.inj hp).symm⟩

theorem renumbered_after {P : Type} {cfg : SimCfg R (IrMat R) (Fir R) S A P D O} {π : String → Nat → Nat} {arr : A} :
    ∀ n, (cfg.renumbered π).arrAfter arr n = cfg.arrAfter arr n
  | 0 => rfl
  | n + 1 => by
    simp only [SimCfg.arrAfter]
    rw [renumbered_after n]
    rfl

theorem renumbered_irAt {P : Type} {cfg : SimCfg R (IrMat R) (Fir R) S A P D O} {π : String → Nat → Nat} {arr : A}
    {s m : ArrInfo} {t : Nat} {h : IrMat R} (hp : (cfg.renumbered π).IrAt arr s m t h) :
    ∃ h0, cfg.IrAt arr s m t h0 ∧ h = h0.renumber (π s.name) (π m.name) := by
  cases t with
  | zero => exact renumbered_ok hp
  | succ t =>
    simp only [SimCfg.IrAt, renumbered_after] at hp ⊢
    split at hp
    · rename_i hd
      obtain ⟨a, h1, h2⟩ := hp
      obtain ⟨h0, g1, g2⟩ := renumbered_ok h2
      exact ⟨h0, by rw [if_pos hd]; exact ⟨a, h1, g1⟩, g2⟩
    · rename_i hd
      obtain ⟨h0, g1, g2⟩ := renumbered_ok hp
      exact ⟨h0, by rw [if_neg hd]; exact g1, g2⟩

theorem renumbered_shape {P : Type} {cfg : SimCfg R (IrMat R) (Fir R) S A P D O} {π : String → Nat → Nat} {arr : A}
    (hsh : cfg.PathShape arr) : (cfg.renumbered π).PathShape arr := by
  intro n a ha s m h hs hm hp
  rw [renumbered_after] at ha
  obtain ⟨h0, g1, rfl⟩ := renumbered_ok hp
  exact hsh n a ha s m h0 hs hm g1

end

section
variable {R S A D O : Type} [Field R]

/-- The microphones before the first step with renumbered channels. -/
theorem tInit_renumber {P : Type} {cfg : SimCfg R (IrMat R) (Fir R) S A P D O} {π : String → Nat → Nat}
    (hπ : ∀ a ∈ cfg.arrays, Renumbers (π a.name) a.num)
    (hN : Names cfg) (hN' : Names (cfg.renumbered π)) (hfilt : cfg.filt = firOps R)
    (hpos : ∀ a ∈ cfg.arrays, 0 < a.num) {arr : A} (hsh : cfg.PathShape arr)
    (hB : 1 ≤ cfg.B) {srcs srcs' : String → S} {proc proc' : P} {f0 : Fir R}
    {e0 e0' : Eng (Tape R) (Fir R) S A P}
    (hi : cfg.tInit srcs arr proc f0 = .ok e0) (hi' : (cfg.renumbered π).tInit srcs' arr proc' f0 = .ok e0')
    {x x' : String → Nat → Nat → R}
    (hx : ∀ a ∈ cfg.arrays, a.kind = .free → IsStream cfg.srcGet (srcs a.name) a.num (x a.name))
    (hx' : ∀ a ∈ cfg.arrays, a.kind = .free → IsStream cfg.srcGet (srcs' a.name) a.num (x' a.name))
    (hxx : ∀ s ∈ cfg.arrays, s.kind = .free → ∀ i < s.num, ∀ j, x' s.name i j = x s.name (π s.name i) j)
    {m : ArrInfo} (hm : m ∈ micsOf cfg.arrays) {c i : Nat} (hc : c < m.num) (hiB : i < cfg.B) :
    e0'.sig m.name c ((i : Int) - cfg.B) = e0.sig m.name (π m.name c) ((i : Int) - cfg.B) := by
  obtain ⟨ir, g1, g2⟩ := prep_fir cfg hN hfilt hpos hsh hB hm hi
  obtain ⟨ir', g1', g2'⟩ := prep_fir (cfg.renumbered π) hN' hfilt hpos (renumbered_shape hsh) hB hm hi'
  have hmm : m ∈ cfg.arrays := by unfold micsOf at hm; exact (List.mem_filter.1 hm).1
  have a1 := g2 (π m.name c) i ((hπ m hmm).1 c hc) hiB
  have a2 := g2' c i hc hiB
  have hsig : ∀ s ∈ sourcesOf cfg.arrays, ∀ n < s.num, ∀ j < cfg.prepNum,
      e0'.sig s.name n ((j : Int) - cfg.prepNum) = e0.sig s.name (π s.name n) ((j : Int) - cfg.prepNum) := by
    intro s hs n hn j hj
    rw [tInit_played hN hi hx hs ((hπ s (mem_sourcesOf hs).1).1 n hn) hj]
    refine (tInit_played hN' hi' (x := x') hx' hs hn hj).trans ?_
    split
    · rename_i hf
      exact hxx s (mem_sourcesOf hs).1 hf n hn j
    · rfl
  rw [a1]
  refine a2.trans ?_
  show ((sourcesOf cfg.arrays).map _).sum = _
  congr 1
  refine List.map_congr_left fun s hs => ?_
  have hir : ir' s.name = (ir s.name).renumber (π s.name) (π m.name) := by
    obtain ⟨h0, b1, b2⟩ := renumbered_ok (g1' s hs).1
    rw [(g1 s hs).1] at b1
    rw [b2, ← Except.ok.inj b1]
  have hin := (g1 s hs).2
  rw [hir]
  refine firOut_renumber (by rw [hin]; exact hπ s (mem_sourcesOf hs).1) (fun k n hn => ?_) c
  rw [hin] at hn
  have hn' := (hπ s (mem_sourcesOf hs).1).1 n hn
  show (((List.range (if cfg.warm then i + 1 else 1)).map _).getD k []).getD n 0 = _
  by_cases hk : k < (if cfg.warm then i + 1 else 1)
  · have e1 : ∀ (T : Tape R) (n : Nat), n < s.num → (((List.range (if cfg.warm then i + 1 else 1)).map fun d : Nat => colAt T s
        ((if cfg.warm then (i : Int) - cfg.B else -1) - d)).getD k []).getD n 0 =
        T s.name n ((if cfg.warm then (i : Int) - cfg.B else -1) - k) := by
      intro T n hn
      simp [List.getD_eq_getElem?_getD, hk, colAt, hn]
    refine (e1 e0'.sig n hn).trans ?_
    rw [e1 _ _ hn']
    have hpn : cfg.prepNum = if cfg.warm then cfg.B else 1 := rfl
    by_cases hw : cfg.warm = true
    · rw [if_pos hw] at hk hpn ⊢
      have := hsig s hs n hn (i - k) (by omega)
      rwa [show ((i - k : Nat) : Int) - (cfg.prepNum : Nat) = (i : Int) - cfg.B - k by omega] at this
    · rw [if_neg hw] at hk hpn ⊢
      have := hsig s hs n hn 0 (by omega)
      rwa [show ((0 : Nat) : Int) - (cfg.prepNum : Nat) = -1 - (k : Int) by omega] at this
  · have e1 : ∀ (f : Nat → List R), ((List.range (if cfg.warm then i + 1 else 1)).map f).getD k [] = [] := by
      intro f
      rw [List.getD_eq_default]
      simp only [List.length_map, List.length_range]
      omega
    rw [e1, e1]
    simp

end
end Verif

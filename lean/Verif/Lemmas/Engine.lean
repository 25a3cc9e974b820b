import Verif.Lemmas.Calls

namespace Verif

/-! ### streams -/

section
variable {σ R : Type} {get : σ → Nat → Except PyErr (σ × List (List R))}

/-- The source in state `s` will deliver the samples from `off` on. -/
def StreamAt (get : σ → Nat → Except PyErr (σ × List (List R))) (s : σ) (ch off : Nat)
    (stream : Nat → Nat → R) : Prop :=
  ∀ ns, ∃ s', runRequests get s ns = .ok (s', blocksOf stream ch off ns)

theorem StreamAt.next {s : σ} {ch off : Nat} {x : Nat → Nat → R} (h : StreamAt get s ch off x) (n : Nat) :
    ∃ s', get s n = .ok (s', blockOf x ch off n) ∧ StreamAt get s' ch (off + n) x := by
  obtain ⟨s1, h1⟩ := h [n]
  simp only [runRequests, blocksOf] at h1
  cases hg : get s n with
  | error e => rw [hg] at h1; cases h1
  | ok r =>
    obtain ⟨s2, b⟩ := r
    rw [hg] at h1
    simp only [Except.ok.injEq, Prod.mk.injEq, List.cons.injEq, and_true] at h1
    refine ⟨s2, by rw [h1.2], ?_⟩
    intro ns
    obtain ⟨s3, h3⟩ := h (n :: ns)
    simp only [runRequests, hg, blocksOf] at h3
    cases hr : runRequests get s2 ns with
    | error e => rw [hr] at h3; cases h3
    | ok q =>
      rw [hr] at h3
      simp only [Except.ok.injEq, Prod.mk.injEq, List.cons.injEq] at h3
      exact ⟨q.1, by rw [← h3.2.2]⟩

theorem StreamAt.of_ok {s s' : σ} {b : List (List R)} {ch off n : Nat} {x : Nat → Nat → R}
    (h : StreamAt get s ch off x) (hg : get s n = .ok (s', b)) :
    b = matOf ch n (fun c k => x c (off + k)) ∧ StreamAt get s' ch (off + n) x := by
  obtain ⟨s1, h1, h2⟩ := h.next n
  rw [hg] at h1
  cases h1
  exact ⟨rfl, h2⟩

theorem broadcastMat_self (ch n : Nat) (f : Nat → Nat → R) :
    broadcastMat (matOf ch n f) ch n = some (matOf ch n f) := by
  unfold broadcastMat broadcastChan
  rw [if_pos (by simp [matOf])]
  simp only [Option.bind_some]
  have : ∀ l : List (List R), (∀ r ∈ l, r.length = n) → l.mapM (fun r => broadcastRow r n) = some l := by
    intro l
    induction l with
    | nil => intro _; rfl
    | cons r l ih =>
      intro h
      rw [List.mapM_cons, ih fun r hr => h r (by simp [hr])]
      unfold broadcastRow
      rw [if_pos (h r (by simp))]
      rfl
  apply this
  intro r hr
  obtain ⟨c, _, rfl⟩ := List.mem_map.1 hr
  simp

end

section
variable {R IR F S A P D O : Type} (cfg : SimCfg R IR F S A P D O) {lp : ProcView R P}

theorem Names.freeNames {cfg : SimCfg R IR F S A P D O} (hN : Names cfg) :
    ((freeOf cfg.arrays).map ArrInfo.name).Nodup := by
  refine List.Nodup.map_on ?_ hN.free
  intro a ha b hb hab
  exact hN.inj a (mem_freeOf ha).1 b (mem_freeOf hb).1 hab

theorem Names.pairNames {cfg : SimCfg R IR F S A P D O} (hN : Names cfg) :
    ((combosOf cfg.arrays).map fun p => (p.1.name, p.2.name)).Nodup := by
  refine List.Nodup.map_on ?_ hN.pairs
  intro a ha b hb hab
  rw [Prod.mk.injEq] at hab
  exact Prod.ext
    (hN.inj _ (mem_sourcesOf (mem_combosOf.1 ha).1).1 _ (mem_sourcesOf (mem_combosOf.1 hb).1).1 hab.1)
    (hN.inj _ (mem_micsOf (mem_combosOf.1 ha).2).1 _ (mem_micsOf (mem_combosOf.1 hb).2).1 hab.2)

theorem Names.freeDims {cfg : SimCfg R IR F S A P D O} (hN : Names cfg) :
    ∀ x ∈ freeOf cfg.arrays, cfg.dims x.name = some x.num :=
  fun x hx => hN.arr x (mem_freeOf hx).1

/-- The parts of one step on the tape. -/
theorem tEngine_parts [AddMonoid R] (hN : Names cfg) {n : Nat} {e e' : Eng (Tape R) F S A P}
    (h : cfg.tEngine lp n e = .ok e') :
    ∃ arr e1 e2 e3 W, cfg.arrUpdate e.arr n = .ok arr ∧ cfg.tProc lp n { e with arr := arr } = .ok e1 ∧
      SrcRel cfg n 1 (freeOf cfg.arrays) e1 e2 ∧ UpdRel cfg (combosOf cfg.arrays) e2 e3 ∧
      PairRel cfg n 1 n 1 (combosOf cfg.arrays) e3 e' W := by
  unfold SimCfg.tEngine at h
  split at h
  · cases h
  · rename_i arr harr
    split at h
    · cases h
    · rename_i e1 h1
      unfold SimCfg.tPropagate at h
      split at h
      · cases h
      · rename_i e2 h2
        split at h
        · cases h
        · rename_i e3 h3
          rw [tSource_eq] at h2
          rw [tPair_eq] at h
          have r2 := gSource_fold cfg hN.freeDims hN.freeNames h2
          have r3 := stepUpdate_fold cfg hN.pairNames h3
          obtain ⟨W, r4⟩ := gPair_fold cfg hN (fun _ hp => hp) hN.pairs h
          exact ⟨arr, e1, e2, e3, W, harr, h1, r2, r3, r4⟩

/-- The filters created at the start. -/
theorem createFilters_spec (hN : Names cfg) {arr : A} {f0 fs : String → String → F}
    (h : cfg.createFilters arr f0 = .ok fs) :
    ∀ p ∈ combosOf cfg.arrays, ∃ ir, cfg.arrPath arr p.1.name p.2.name = .ok ir ∧
      fs p.1.name p.2.name = cfg.filt.create ir (p.1.dynamic || p.2.dynamic) := by
  have aux : ∀ (l : List (ArrInfo × ArrInfo)) (g : String → String → F),
      (l.map fun p => (p.1.name, p.2.name)).Nodup →
      l.foldlM (fun fs p =>
        match cfg.arrPath arr p.1.name p.2.name with
        | .error e => .error e
        | .ok ir => .ok fun s m =>
          if s = p.1.name ∧ m = p.2.name then cfg.filt.create ir (p.1.dynamic || p.2.dynamic)
          else fs s m) g = Except.ok fs →
      (∀ p ∈ l, ∃ ir, cfg.arrPath arr p.1.name p.2.name = .ok ir ∧
        fs p.1.name p.2.name = cfg.filt.create ir (p.1.dynamic || p.2.dynamic)) ∧
      ∀ s m, (∀ p ∈ l, ¬ (s = p.1.name ∧ m = p.2.name)) → fs s m = g s m := by
    intro l
    induction l with
    | nil => intro g _ h; cases h; exact ⟨by simp, fun _ _ _ => rfl⟩
    | cons x l ih =>
      intro g hnd h
      simp only [List.foldlM_cons] at h
      simp only [List.map_cons, List.nodup_cons] at hnd
      cases hx : cfg.arrPath arr x.1.name x.2.name with
      | error e => rw [hx] at h; cases h
      | ok ir =>
        rw [hx] at h
        obtain ⟨i1, i2⟩ := ih _ hnd.2 h
        refine ⟨?_, ?_⟩
        · intro p hp
          rcases List.mem_cons.1 hp with rfl | hp
          · refine ⟨ir, hx, ?_⟩
            rw [i2]
            · simp
            · intro q hq he
              apply hnd.1
              rw [he.1, he.2]
              exact List.mem_map.2 ⟨q, hq, rfl⟩
          · exact i1 p hp
        · intro s m hs
          rw [i2 s m fun p hp => hs p (by simp [hp]), if_neg (hs x (by simp))]
  exact (aux _ f0 hN.pairNames h).1

/-- The parts of the preparation. -/
theorem tInit_parts [AddMonoid R] (hN : Names cfg) {srcs : String → S} {arr : A} {proc : P} {f0 : F}
    {e0 : Eng (Tape R) F S A P} (h : cfg.tInit srcs arr proc f0 = .ok e0) :
    ∃ fs e1 W, cfg.createFilters arr (fun _ _ => f0) = .ok fs ∧
      SrcRel cfg (-(cfg.prepNum : Int)) cfg.prepNum (freeOf cfg.arrays)
        { sig := fun _ _ _ => 0, srcs := srcs, filts := fs, arr := arr, proc := proc } e1 ∧
      PairRel cfg (-(cfg.prepNum : Int)) cfg.prepNum (-(cfg.B : Int)) cfg.B (combosOf cfg.arrays) e1 e0 W := by
  unfold SimCfg.tInit at h
  split at h
  · cases h
  · rename_i fs hfs
    unfold SimCfg.tPrepare at h
    split at h
    · cases h
    · rename_i e1 h1
      rw [tPrepSource_eq] at h1
      rw [tPrepPair_eq] at h
      have r2 := gSource_fold cfg hN.freeDims hN.freeNames h1
      obtain ⟨W, r4⟩ := gPair_fold cfg hN (fun _ hp => hp) hN.pairs h
      exact ⟨fs, e1, W, hfs, r2, r4⟩

/-! ### the signals of free sources -/

theorem free_ne {cfg : SimCfg R IR F S A P D O} (hN : Names cfg) {a : ArrInfo}
    (ha : a ∈ freeOf cfg.arrays) :
    (cfg.contrib = true → ∀ p ∈ combosOf cfg.arrays, a.name ≠ contribName p.1 p.2) ∧
    ∀ p ∈ combosOf cfg.arrays, a.name ≠ p.2.name := by
  obtain ⟨h1, h2⟩ := mem_freeOf ha
  refine ⟨fun hc p hp he => hN.conArr hc p hp a h1 he.symm, ?_⟩
  intro p hp he
  obtain ⟨h3, h4⟩ := mem_micsOf (mem_combosOf.1 hp).2
  have := hN.inj a h1 _ h3 he
  rw [this, h4] at h2
  cases h2

/-- The part of `SrcRel` about a source that delivers a stream. -/
theorem SrcRel.stream [Zero R] {a : Int} {num : Nat} {l : List ArrInfo} {e e' : Eng (Tape R) F S A P}
    (h : SrcRel cfg a num l e e') {y : ArrInfo} (hy : y ∈ l) {off : Nat} {x : Nat → Nat → R}
    (hs : StreamAt cfg.srcGet (e.srcs y.name) y.num off x) :
    StreamAt cfg.srcGet (e'.srcs y.name) y.num (off + num) x ∧
      ∀ c t, c < y.num → a ≤ t → t < a + num → e'.sig y.name c t = x c (off + (t - a).toNat) := by
  obtain ⟨v, w, h1, h2, h3⟩ := h.new y hy
  obtain ⟨g1, g2⟩ := hs.of_ok h1
  refine ⟨g2, ?_⟩
  intro c t hc ht1 ht2
  rw [g1, broadcastMat_self] at h2
  cases h2
  rw [h3 c t ht1 ht2, matVal_matOf _ _ _ hc (by omega)]

theorem tInit_source [AddMonoid R] (hN : Names cfg) {srcs : String → S} {arr : A} {proc : P} {f0 : F}
    {e0 : Eng (Tape R) F S A P} (h : cfg.tInit srcs arr proc f0 = .ok e0) {a : ArrInfo}
    (ha : a ∈ freeOf cfg.arrays) {x : Nat → Nat → R}
    (hx : IsStream cfg.srcGet (srcs a.name) a.num x) :
    StreamAt cfg.srcGet (e0.srcs a.name) a.num cfg.prepNum x ∧
      ∀ c j, c < a.num → j < cfg.prepNum → e0.sig a.name c ((j : Int) - cfg.prepNum) = x c j := by
  obtain ⟨fs, e1, W, h1, h2, h3⟩ := tInit_parts cfg hN h
  obtain ⟨g1, g2⟩ := h2.stream cfg ha (off := 0) (x := x) hx
  rw [Nat.zero_add] at g1
  obtain ⟨n1, n2⟩ := free_ne hN ha
  refine ⟨by rw [h3.srcs]; exact g1, ?_⟩
  intro c j hc hj
  rw [h3.old a.name c _ (fun hcon => .inl (n1 hcon)) (.inr (.inr n2)),
    g2 c _ hc (by omega) (by omega)]
  congr 1
  omega

theorem tSteps_source [AddMonoid R] (hN : Names cfg) {e0 : Eng (Tape R) F S A P} {a : ArrInfo}
    (ha : a ∈ freeOf cfg.arrays) {x : Nat → Nat → R}
    (hx : StreamAt cfg.srcGet (e0.srcs a.name) a.num cfg.prepNum x)
    (h0 : ∀ c j, c < a.num → j < cfg.prepNum → e0.sig a.name c ((j : Int) - cfg.prepNum) = x c j) :
    ∀ k {e}, cfg.tSteps lp k e0 = .ok e →
      StreamAt cfg.srcGet (e.srcs a.name) a.num (cfg.prepNum + k) x ∧
      ∀ c j, c < a.num → j < cfg.prepNum + k → e.sig a.name c ((j : Int) - cfg.prepNum) = x c j
  | 0, e, h => by cases h; exact ⟨hx, h0⟩
  | k + 1, e, h => by
    simp only [SimCfg.tSteps] at h
    split at h
    · cases h
    · rename_i e1 h1
      obtain ⟨i1, i2⟩ := tSteps_source hN ha hx h0 k h1
      obtain ⟨arr, e2, e3, e4, W, p1, p2, p3, p4, p5⟩ := tEngine_parts cfg hN h
      have hsrc : e2.srcs = e1.srcs := by
        unfold SimCfg.tProc at p2
        split at p2
        · cases p2; rfl
        · split at p2
          · cases p2
          · split at p2
            · split at p2
              · cases p2
              · cases p2; rfl
            · cases p2; rfl
      rw [← hsrc] at i1
      obtain ⟨g1, g2⟩ := p3.stream cfg ha i1
      obtain ⟨n1, n2⟩ := free_ne hN ha
      refine ⟨by rw [p5.srcs, p4.srcs]; exact g1, ?_⟩
      intro c j hc hj
      by_cases hjk : j < cfg.prepNum + k
      · rw [tEngine_past cfg lp h _ _ _ (by omega)]
        exact i2 c j hc hjk
      · have hj' : j = cfg.prepNum + k := by omega
        subst hj'
        rw [p5.old a.name c _ (fun hcon => .inl (n1 hcon)) (.inr (.inr n2)), p4.sig,
          g2 c _ hc (by omega) (by omega)]
        congr 1
        omega

end
end Verif

/-
A whole simulation without some silent sources.
-/
import Verif.Lemmas.Mute
import Verif.Lemmas.MuteColl
import Verif.Lemmas.HideRun
namespace Verif

section
variable {Pt H G : Type}

theorem infos_withoutSrc (M : List String) (c : Coll Pt H) : (c.withoutSrc M).infos = keptArrays M.contains c.infos := by
  rw [← infos_without]
  rfl

theorem withoutSrc_empty (M : List String) (f : Nat) : (Coll.empty f : Coll Pt H).withoutSrc M = Coll.empty f := by
  unfold Coll.withoutSrc Coll.empty
  simp

theorem find_withoutSrc {M : List String} {c : Coll Pt H} {nm : String} (hn : M.contains nm = false) :
    (c.withoutSrc M).find nm = c.find nm := find_without hn

theorem addArray_withoutSrc {M : List String} {c : Coll Pt H} {a : Arr Pt} (ha : M.contains a.name = true → a.kind ≠ some .mic) :
    (c.addArray a).1.withoutSrc M = if M.contains a.name then c.withoutSrc M else ((c.withoutSrc M).addArray a).1 := by
  unfold Coll.addArray
  cases hm : M.contains a.name with
  | true =>
    have := ha hm
    dsimp only
    split
    · rfl
    · rcases hk : a.kind with _ | k
      · simp only [Coll.withoutSrc, List.filter_append, List.filter_cons, hm, List.filter_nil]
        simp
      · cases k
        · exact absurd hk this
        · simp only [Coll.withoutSrc, List.filter_append, List.filter_cons, hm, List.filter_nil]
          simp
        · simp only [Coll.withoutSrc, List.filter_append, List.filter_cons, hm, List.filter_nil]
          simp
  | false =>
    rw [find_withoutSrc hm]
    simp only [Bool.false_eq_true, if_false]
    split
    · rfl
    · rcases a.kind with _ | k
      · simp only [Coll.withoutSrc, List.filter_append, List.filter_cons, hm, List.filter_nil]
        simp
      · cases k <;>
        · simp only [Coll.withoutSrc, List.filter_append, List.filter_cons, hm, List.filter_nil]
          simp

theorem addAll_withoutSrc {M : List String} : ∀ (as : List (Arr Pt)) (c : Coll Pt H),
    (∀ a ∈ as, M.contains a.name = true → a.kind ≠ some .mic) →
    (c.addAll as).withoutSrc M = (c.withoutSrc M).addAll (as.filter fun a => !M.contains a.name)
  | [], c, _ => rfl
  | a :: as, c, h => by
    have e : c.addAll (a :: as) = (c.addArray a).1.addAll as := rfl
    rw [e, addAll_withoutSrc as _ fun b hb => h b (by simp [hb]), addArray_withoutSrc (h a (by simp)), List.filter_cons]
    cases hm : M.contains a.name with
    | true => simp
    | false => rfl

theorem setDefault_withoutSrc {M : List String} (t : String) (c : Coll Pt H) :
    (c.setDefault t).withoutSrc M = (c.withoutSrc M).setDefault t := by
  obtain ⟨⟨ty, h1⟩, h2⟩ := setDefault_types t c.combos c
  obtain ⟨⟨ty', h1'⟩, h2'⟩ := setDefault_types t (c.withoutSrc M).combos (c.withoutSrc M)
  have e1 : c.setDefault t = { c with types := ty } := h1
  have e2 : (c.withoutSrc M).setDefault t = { c.withoutSrc M with types := ty' } := h1'
  have t1 : ∀ s m, ty s m = _ := fun s m => (congrFun (congrFun (congrArg Coll.types h1) s) m).symm.trans (h2 s m)
  have t2 : ∀ s m, ty' s m = _ := fun s m => (congrFun (congrFun (congrArg Coll.types h1') s) m).symm.trans (h2' s m)
  rw [e1, e2]
  unfold Coll.withoutSrc
  congr 1
  funext s m
  dsimp only
  rw [t1, t2]
  have hc : (s, m) ∈ (c.withoutSrc M).combos ↔ (s, m) ∈ c.combos ∧ M.contains s = false := by
    rw [Coll.mem_combos, Coll.mem_combos]
    unfold Coll.withoutSrc
    simp only [List.mem_filter, Bool.not_eq_true']
    exact ⟨fun h => ⟨⟨h.1.1, h.2⟩, h.1.2⟩, fun h => ⟨⟨h.1.1, h.2⟩, h.1.2⟩⟩
  cases hm : M.contains s with
  | true =>
    rw [if_pos rfl, if_neg (fun h => by rw [hc, hm] at h; cases h.2)]
    unfold Coll.withoutSrc
    dsimp only
    rw [hm]
    rfl
  | false =>
    simp only [Bool.false_eq_true, if_false]
    have ht : (c.withoutSrc M).types s m = c.types s m := by unfold Coll.withoutSrc; dsimp only; rw [hm]; rfl
    have hp : (c.withoutSrc M).paths s m = c.paths s m := by unfold Coll.withoutSrc; dsimp only; rw [hm]; rfl
    rw [ht, hp]
    by_cases h : (s, m) ∈ c.combos
    · rw [if_pos h, if_pos (hc.2 ⟨h, hm⟩)]
    · rw [if_neg h, if_neg (fun h' => h (hc.1 h').1)]

end

theorem setupOne_lists {Pt H G : Type} {gen : GenFn Pt H G} {gc gc1 : G × Coll Pt H} {p : String × String}
    (hx : Coll.setupOne gen gc p = .ok gc1) : gc1.2.srcs = gc.2.srcs ∧ gc1.2.mics = gc.2.mics := by
  unfold Coll.setupOne at hx
  split at hx
  · dsimp only at hx
    split at hx
    · cases hx
    · split at hx
      · split at hx
        · cases hx
        · cases hx; exact ⟨rfl, rfl⟩
      · cases hx; exact ⟨rfl, rfl⟩
  · cases hx

theorem setupFold_lists {Pt H G : Type} {gen : GenFn Pt H G} : ∀ (l : List (String × String)) {gc gc1 : G × Coll Pt H},
    l.foldlM (Coll.setupOne gen) gc = .ok gc1 → gc1.2.srcs = gc.2.srcs ∧ gc1.2.mics = gc.2.mics
  | [], gc, gc1, h => by cases h; exact ⟨rfl, rfl⟩
  | x :: l, gc, gc1, h => by
    rw [List.foldlM_cons] at h
    cases hx : Coll.setupOne gen gc x with
    | error e => rw [hx] at h; cases h
    | ok gc2 =>
      rw [hx] at h
      obtain ⟨a, b⟩ := setupOne_lists hx
      obtain ⟨a', b'⟩ := setupFold_lists l h
      exact ⟨a'.trans a, b'.trans b⟩

section
variable {F R S P D O : Type} {A : Type} {IR : Type}

theorem signalFrom_array {cfg : SimCfg R IR F S A P D O} (hn : Names cfg) {M : List String} {a : ArrInfo} (ha : a ∈ cfg.arrays) :
    signalFrom cfg.contrib cfg.arrays M a.name = M.contains a.name := by
  unfold signalFrom
  cases hc : cfg.contrib with
  | false => simp
  | true =>
    cases hany : (combosOf cfg.arrays).any fun p => M.contains p.1.name && a.name == contribName p.1 p.2 with
    | false => simp
    | true =>
      rw [List.any_eq_true] at hany
      obtain ⟨p, hp, hq⟩ := hany
      rw [Bool.and_eq_true] at hq
      exact absurd (beq_iff_eq.1 hq.2).symm (hn.conArr hc p hp a ha)

theorem signalFrom_contrib {cfg : SimCfg R IR F S A P D O} (hn : Names cfg) {M : List String}
    (hM : ∀ m ∈ M, ∃ a ∈ cfg.arrays, a.name = m) (hc : cfg.contrib = true)
    {p : ArrInfo × ArrInfo} (hp : p ∈ combosOf cfg.arrays) :
    signalFrom cfg.contrib cfg.arrays M (contribName p.1 p.2) = M.contains p.1.name := by
  unfold signalFrom
  have h1 : M.contains (contribName p.1 p.2) = false := by
    cases h : M.contains (contribName p.1 p.2) with
    | false => rfl
    | true =>
      obtain ⟨a, ha, he⟩ := hM _ (by simpa using h)
      exact absurd he.symm (hn.conArr hc p hp a ha)
  rw [h1, hc, Bool.false_or, Bool.true_and, Bool.eq_iff_iff, List.any_eq_true]
  constructor
  · rintro ⟨q, hq, hb⟩
    rw [Bool.and_eq_true] at hb
    have := hn.conInj hc p hp q hq (by simpa using hb.2)
    rw [this]
    exact hb.1
  · intro h
    exact ⟨p, hp, by rw [h]; simp⟩

end

section
variable {K R S P D O G : Type} [Field K] [LinearOrder K] [NonAssocSemiring R]

theorem simulate_withoutSrc {base : SimCfg R (IrMat R) (Fir R) S (G × Coll (K × K × K) (IrMat R)) P D O}
    (hfilt : base.filt = firOps R) {ext : RoomExt K R G}
    {i : RoomInfo K} {g : G} {c : Coll (K × K × K) (IrMat R)} {srcs : String → S} {proc : P} {f0 : Fir R} {ds : List (Diag D)}
    {M : List String} (hc : c.Consistent) (hM : ∀ s ∈ M, s ∈ c.srcs) (hne : ∃ s ∈ c.srcs, s ∉ M)
    (hrir : ∀ b g g' ss ms, (ext.rir b g ss ms).2 = (ext.rir b g' ss ms).2)
    (hrand : ∀ s m, s ∉ M → c.types s m ≠ some "random")
    {I : S → Prop} (hI : ∀ s n s' v, I s → base.srcGet s n = .ok (s', v) → I s' ∧ Zeros v)
    (hsil : ∀ s ∈ M, s ∈ c.frees → I (srcs s))
    (hp : ∀ p, base.proc = some p → p.Ignores (signalFrom base.contrib c.infos M) ∧ p.Mutes (signalFrom base.contrib c.infos M))
    {Pd : D → Prop} (hb : Blind (signalFrom base.contrib c.infos M) base.diag Pd) (hd : ∀ d ∈ ds, Pd d.data)
    {fin : SimSt R (Fir R) S (G × Coll (K × K × K) (IrMat R)) P D O} (hx : simulate base ext i g c srcs proc f0 ds = .ok fin) :
    ∃ fin', simulate base ext i g (c.withoutSrc M) srcs proc f0 ds = .ok fin' ∧
      StRelS (signalFrom base.contrib c.infos M) I c.infos (SFull M.contains fun t => t ≠ "random") Pd fin fin' := by
  unfold simulate roomSetup at hx ⊢
  cases hpar : i.parameters ext with
  | error x => rw [hpar] at hx; cases hx
  | ok par =>
    rw [hpar] at hx
    dsimp only at hx ⊢
    cases hset : c.setupIr (createPath (i.cfg ext par)) g with
    | error x => rw [hset] at hx; cases hx
    | ok gc =>
      rw [hset] at hx
      dsimp only at hx
      have hst : Steady (createPath (i.cfg ext par)) fun t => t ≠ "random" :=
        createPath_steady fun g g' ss ms => hrir _ g g' _ _
      have hnm : ∀ a ∈ c.arrays, M.contains a.name = true → a.kind ≠ some .mic := by
        intro a ha hm hk
        have h1 : a.name ∈ c.mics := hc.mem_mics.2 ⟨a, ha, hk, rfl⟩
        exact hc.disjoint h1 (hM _ (by simpa using hm))
      have hrel : SRel M.contains (fun t => t ≠ "random") (g, c) (g, c.withoutSrc M) := by
        refine ⟨rfl, rfl, rfl, rfl, fun s m hs => ?_, fun s m hs => ?_, hnm, ?_, ?_, ?_, ?_⟩
        · simp only [Coll.withoutSrc, hs]; rfl
        · simp only [Coll.withoutSrc, hs]; rfl
        · intro m hm
          cases h : M.contains m with
          | false => rfl
          | true => exact absurd (hM m (by simpa using h)) (hc.disjoint hm)
        · intro a ha hk
          exact hc.mem_mics.2 ⟨a, ha, hk, rfl⟩
        · obtain ⟨s, h1, h2⟩ := hne
          exact ⟨s, h1, by simpa using h2⟩
        · intro s m t hm ht e
          exact hrand s m (by simpa using hm) (by rw [ht, e])
      obtain ⟨gc', hset', hrel'⟩ := setupIr_mute (gc := (g, c)) (gc' := (g, c.withoutSrc M)) hst (by decide) hrel hset
      dsimp only at hset'
      rw [hset']
      dsimp only
      obtain ⟨cfg, hcfg⟩ : ∃ cfg : SimCfg R (IrMat R) (Fir R) S (G × Coll (K × K × K) (IrMat R)) P D O,
        cfg = { base with
          arrays := c.infos, arrUpdate := Coll.update (createPath (i.cfg ext par)), arrPath := Coll.path } := ⟨_, rfl⟩
      rw [← hcfg] at hx
      have hn := run_names hx
      have ea : cfg.arrays = c.infos := by rw [hcfg]
      have ec : cfg.contrib = base.contrib := by rw [hcfg]
      have hMi : ∀ m ∈ M, ∃ a ∈ cfg.arrays, a.name = m := by
        intro m hm
        obtain ⟨a, ha, hk', he⟩ := hc.mem_srcs.1 (hM m hm)
        obtain ⟨k, hk⟩ : ∃ k, a.kind = some k := by rcases hk' with h | h <;> exact ⟨_, h⟩
        rw [ea]
        exact ⟨⟨a.name, a.num, k, a.dynamic⟩, List.mem_filterMap.2 ⟨a, ha, by rw [hk]; rfl⟩, he⟩
      have hsrc : ∀ a ∈ cfg.arrays, M.contains a.name = true → a.kind ≠ .mic := by
        intro a ha hm hk
        rw [ea] at ha
        obtain ⟨b, hb, he⟩ := List.mem_filterMap.1 ha
        cases hk' : b.kind with
        | none => rw [hk'] at he; cases he
        | some k =>
          rw [hk'] at he
          cases he
          exact hnm b hb hm (hk'.trans (congrArg some hk))
      have hH : Muted (signalFrom base.contrib c.infos M) I cfg := by
        rw [← ea, ← ec]
        refine ⟨fun a ha hm => ?_, fun hcn p hp => ?_, fun p hpp q hq => ?_, fun p hpp => ?_, fun p hpp => ?_, ?_, ?_⟩
        · rw [signalFrom_array hn ha] at hm
          exact hsrc a ha hm
        · rw [signalFrom_contrib hn hMi hcn hp, signalFrom_array hn (mem_combos_src hp).1]
        · rw [ea, ec]
          exact (hp p (by rw [← hpp, hcfg])).1.1 q hq
        · rw [ea, ec]
          exact (hp p (by rw [← hpp, hcfg])).1.2
        · rw [ea, ec]
          exact (hp p (by rw [← hpp, hcfg])).2
        · rw [hcfg]; exact hfilt
        · rw [hcfg]; exact hI
      have hCR : CollRelS (signalFrom base.contrib c.infos M) cfg (Coll.update (createPath (i.cfg ext par))) Coll.path
          (SFull M.contains fun t => t ≠ "random") := by
        refine ⟨fun a a' a1 n hr hu => ?_, fun a a' s m v hr hm hv => ?_⟩
        · exact update_mute hst hr (by rw [← hu, hcfg])
        · have hm' : M.contains s = false := by
            unfold signalFrom at hm
            exact (Bool.or_eq_false_iff.1 hm).1
          have : Coll.path a s m = .ok v := by rw [← hv, hcfg]
          unfold Coll.path at this ⊢
          rw [← hr.1.paths s m hm']
          exact this
      obtain ⟨hl1, hl2⟩ := setupFold_lists _ (setupIr_fold hset)
      have hinfo : ∀ a ∈ c.arrays, ∀ k, a.kind = some k → (⟨a.name, a.num, k, a.dynamic⟩ : ArrInfo) ∈ c.infos :=
        fun a ha k hk => List.mem_filterMap.2 ⟨a, ha, by rw [hk]; rfl⟩
      obtain ⟨fin', hf, hs⟩ := run_mute hH hCR (Pd := Pd) (by rw [hcfg]; exact hb) hn (srcs := srcs)
        (by
          intro a ha hh
          unfold freeOf at ha
          obtain ⟨ha1, ha2⟩ := List.mem_filter.1 ha
          rw [← ea, ← ec, signalFrom_array hn ha1] at hh
          refine hsil a.name (by simpa using hh) ?_
          rw [ea] at ha1
          obtain ⟨b, hb, he⟩ := List.mem_filterMap.1 ha1
          cases hk' : b.kind with
          | none => rw [hk'] at he; cases he
          | some k =>
            rw [hk'] at he
            cases he
            refine hc.mem_frees.2 ⟨b, hb, ?_, rfl⟩
            have : k = .free := beq_iff_eq.1 ha2
            rw [hk', this])
        (arr' := gc')
        (by
          intro hall
          refine ⟨hrel', ?_⟩
          intro s hs m hm
          rw [hl1] at hs
          rw [hl2] at hm
          obtain ⟨a, ha, hka', he⟩ := hc.mem_srcs.1 hs
          obtain ⟨k, hka, hkm⟩ : ∃ k, a.kind = some k ∧ k ≠ .mic := by
            rcases hka' with h | h
            · exact ⟨_, h, by decide⟩
            · exact ⟨_, h, by decide⟩
          obtain ⟨b, hb, hkb, he'⟩ := hc.mem_mics.1 hm
          obtain ⟨ir, hir⟩ := hall (⟨a.name, a.num, k, a.dynamic⟩, ⟨b.name, b.num, .mic, b.dynamic⟩) (by
            rw [ea]
            unfold combosOf sourcesOf micsOf
            simp only [List.mem_flatMap, List.mem_map, List.mem_filter]
            exact ⟨_, ⟨hinfo a ha k hka, by simpa using hkm⟩, _, ⟨hinfo b hb _ hkb, rfl⟩, rfl⟩)
          have hir : Coll.path gc s m = .ok ir := by rw [← hir, hcfg, ← he, ← he']
          unfold Coll.path at hir
          cases hp : gc.2.paths s m with
          | none => rw [hp] at hir; cases hir
          | some h => exact ⟨h, rfl⟩)
        hd hx
      rw [ea] at hs
      refine ⟨fin', ?_, hs⟩
      rw [← hf, infos_withoutSrc]
      congr 1
      have ek : keptArrays M.contains c.infos = keptArrays (signalFrom base.contrib c.infos M) cfg.arrays := by
        rw [← ec, ← ea]
        unfold keptArrays
        exact List.filter_congr fun a ha => by rw [signalFrom_array hn ha]
      rw [ek, hcfg]
      rfl

end
end Verif

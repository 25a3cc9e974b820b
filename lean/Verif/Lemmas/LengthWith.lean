/-
Adaptive noise control with another maximal length of the impulse responses.
-/
import Verif.Props.ResponseLength
import Verif.Lemmas.FastRun
import Verif.Lemmas.Trace
import Verif.Lemmas.HideWith
import Verif.Model.Anc
import Verif.Model.AncReal
namespace Verif

/-! ### runs with corresponding processors -/

section
variable {R IR F S A P P' V : Type} [Field R] [DecidableEq R] {K : P → P' → Prop}
  {cfg : SimCfg R IR F S A P (DData R P V) (DOut R V)}

/-- Two processors that do the same in corresponding states. -/
structure ProcSame (K : P → P' → Prop) (pr : Proc R P) (pr' : Proc R P') : Prop where
  bs : pr'.bs = pr.bs
  extra : pr'.extra = pr.extra
  process : ∀ p p' sig i p1 sig1, K p p' → pr.process p sig i = .ok (p1, sig1) →
    ∃ p1', pr'.process p' sig i = .ok (p1', sig1) ∧ K p1 p1'

theorem same_engine {pr : Proc R P} {pr' : Proc R P'} (hp : cfg.proc = some pr) (hs : ProcSame K pr pr') {n : Nat} {i : Int}
    {e e1 : Eng (Sigs R) F S A P} {p' : P'} (hK : K e.proc p') (he : cfg.engine n i e = .ok e1) :
    ∃ p'', (cfg.withProc (some pr') (diagOps R P' V)).engine n i (e.setProc p') = .ok (e1.setProc p'') ∧ K e1.proc p'' := by
  have hprop : ∀ {e e1 : Eng (Sigs R) F S A P} {p' : P'}, K e.proc p' → cfg.propagate i e = .ok e1 →
      ∃ p'', (cfg.withProc (some pr') (diagOps R P' V)).propagate i (e.setProc p') = .ok (e1.setProc p'') ∧ K e1.proc p'' := by
    intro e e1 p' hK he
    refine ⟨p', ?_, ?_⟩
    · rw [propagate_setProc, he]; rfl
    · rw [propagate_proc (cfg := cfg) he]; exact hK
  unfold SimCfg.engine at he ⊢
  show ∃ p'', (match cfg.arrUpdate e.arr n with
    | .error x => (Except.error x : Except PyErr (Eng (Sigs R) F S A P'))
    | .ok arr => match (cfg.withProc (some pr') (diagOps R P' V)).callProc n i { e.setProc p' with arr := arr } with
      | .error x => Except.error x
      | .ok e1 => (cfg.withProc (some pr') (diagOps R P' V)).propagate i e1) = .ok (e1.setProc p'') ∧ _
  cases ha : cfg.arrUpdate e.arr n with
  | error x => rw [ha] at he; cases he
  | ok arr =>
    rw [ha] at he
    dsimp only at he ⊢
    unfold SimCfg.callProc at he ⊢
    rw [hp] at he
    rw [show (cfg.withProc (some pr') (diagOps R P' V)).proc = some pr' from rfl]
    dsimp only [Eng.setProc] at he ⊢
    rw [hs.bs]
    split_ifs at he ⊢
    · cases hq : pr.process e.proc e.sig i with
      | error x => rw [hq] at he; cases he
      | ok r =>
        obtain ⟨p1, sig1⟩ := r
        obtain ⟨p1', k1, k2⟩ := hs.process _ _ _ _ _ _ hK hq
        rw [hq] at he
        rw [k1]
        dsimp only at he ⊢
        exact hprop (e := { e with arr := arr, proc := p1, sig := sig1 }) k2 he
    · exact hprop (e := { e with arr := arr }) hK he

theorem same_steps {pr : Proc R P} {pr' : Proc R P'} (hp : cfg.proc = some pr) (hs : ProcSame K pr pr')
    (hdiag : cfg.diag = diagOps R P V) {st : SimSt R F S A P (DData R P V) (DOut R V)}
    {st' : SimSt R F S A P' (DData R P' V) (DOut R V)} (h : SameState K st st') :
    ∀ (k : Nat) {st1 : SimSt R F S A P (DData R P V) (DOut R V)}, cfg.steps k st = .ok st1 →
    ∃ st1', (cfg.withProc (some pr') (diagOps R P' V)).steps k st' = .ok st1' ∧ SameState K st1 st1'
  | 0, st1, h1 => by cases h1; exact ⟨st', rfl, h⟩
  | k + 1, st1, h1 => by
    simp only [SimCfg.steps] at h1 ⊢
    split at h1
    · cases h1
    · rename_i s hs1
      obtain ⟨s', g1, g2⟩ := same_steps hp hs hdiag h k hs1
      rw [g1]
      exact same_step hp hs.bs hdiag g2 (fun p' e hK he => same_engine hp hs hK he) h1

/-- Runs with corresponding processors and diagnostics. -/
theorem same_runWith {pr : Proc R P} {pr' : Proc R P'} (hp : cfg.proc = some pr) (hs : ProcSame K pr pr')
    (hdiag : cfg.diag = diagOps R P V) {prep : P → Sigs R → Int → Except PyErr (P × Sigs R)}
    {prep' : P' → Sigs R → Int → Except PyErr (P' × Sigs R)}
    (hprep : ∀ p p' sig i p1 sig1, K p p' → prep p sig i = .ok (p1, sig1) →
      ∃ p1', prep' p' sig i = .ok (p1', sig1) ∧ K p1 p1')
    {srcs : String → S} {arr : A} {p : P} {p' : P'} (hK : K p p') {f0 : F} {ds : List (Diag (DData R P V))}
    {ds' : List (Diag (DData R P' V))} (hds : List.Forall₂ (Diag.Same K) ds ds')
    {fin : SimSt R F S A P (DData R P V) (DOut R V)} (h : cfg.runWith prep srcs arr p f0 ds = .ok fin) :
    ∃ fin', (cfg.withProc (some pr') (diagOps R P' V)).runWith prep' srcs arr p' f0 ds' = .ok fin' ∧ SameState K fin fin' := by
  have hsig : (cfg.withProc (some pr') (diagOps R P' V)).signalList = cfg.signalList := by
    unfold SimCfg.signalList
    rw [hp]
    dsimp only [SimCfg.withProc]
    rw [hs.extra]
    rfl
  have hm : (cfg.withProc (some pr') (diagOps R P' V)).mbs = cfg.mbs := by
    unfold SimCfg.mbs
    rw [hp]
    exact hs.bs
  unfold SimCfg.runWith SimCfg.initWith at h ⊢
  cases h1 : cfg.init srcs arr p f0 ds with
  | error x => rw [h1] at h; cases h
  | ok st =>
    rw [h1] at h
    obtain ⟨st', h2, h3, h4⟩ := init_setProc_ok cfg (some pr') (diagOps R P' V) p' hsig ds' h1
    obtain ⟨g1, g2, g3⟩ := init_setProc cfg (some pr') (diagOps R P' V) p' hsig h1 h2
    have hst : st.diags = ds ∧ st.log = [] ∧ st.eng.proc = p := by
      have hpr : st.eng.proc = p := by
        rw [(init_setProc cfg cfg.proc cfg.diag p rfl h1 h1).1]
        rfl
      rw [hpr]
      unfold SimCfg.init at h1
      split at h1
      · cases h1
      · split at h1
        · cases h1
        · split at h1
          · cases h1
          · cases h1; exact ⟨rfl, rfl, rfl⟩
    rw [h2]
    dsimp only at h ⊢
    rw [hst.2.2] at h
    rw [show st'.eng.proc = p' by rw [g1]; rfl, show st'.eng.sig = st.eng.sig by rw [g1]; rfl, g2]
    cases h5 : prep p st.eng.sig st.idx with
    | error x => rw [h5] at h; cases h
    | ok r =>
      obtain ⟨p1, sig1⟩ := r
      rw [h5] at h
      obtain ⟨p1', h6, h7⟩ := hprep _ _ _ _ _ _ hK h5
      rw [h6]
      dsimp only at h ⊢
      have h0 : SameState K { st with eng := { st.eng with proc := p1, sig := sig1 } }
          { st' with eng := { st'.eng with proc := p1', sig := sig1 }, idx := st.idx } := by
        refine ⟨⟨p1', ?_, h7⟩, rfl, g3, by rw [h4, hst.2.1], ?_⟩
        · dsimp only
          rw [g1]
          rfl
        · dsimp only
          rw [hst.1, h3]
          exact hds
      rw [hm]
      cases h8 : cfg.steps (cfg.tot + cfg.mbs) { st with eng := { st.eng with proc := p1, sig := sig1 } } with
      | error x => rw [h8] at h; cases h
      | ok s =>
        rw [h8] at h
        obtain ⟨s', k1, k2⟩ := same_steps hp hs hdiag h0 _ h8
        have k1' : (cfg.withProc (some pr') (diagOps R P' V)).steps ((cfg.withProc (some pr') (diagOps R P' V)).tot + cfg.mbs)
            { st' with eng := { st'.eng with proc := p1', sig := sig1 }, idx := st.idx } = .ok s' := k1
        rw [k1']
        dsimp only at h ⊢
        rw [hdiag] at h
        split at h
        · cases h
        · rename_i ds2 log2 hd2
          obtain ⟨ds3, c1, c2⟩ := same_dispatch k2.diags hd2
          have c1' : dispatch (cfg.withProc (some pr') (diagOps R P' V)).diag
              (cfg.withProc (some pr') (diagOps R P' V)).plotNone s'.diags s'.log = .ok (ds3, log2) := by
            rw [k2.log]; exact c1
          rw [c1']
          cases h
          exact ⟨_, rfl, ⟨k2.eng, k2.idx, k2.n, rfl, c2⟩⟩

end

/-! ### secondary paths with zeros at the end -/

section
variable {R : Type} [Field R]

/-- Two states of `FxLMS` whose secondary paths are the same up to zeros at the end. -/
structure FxLonger (p p' : FxSt R) : Prop where
  ctrl : p'.ctrl = p.ctrl
  sec : SameFir p.sec p'.sec
  cnt : p'.cnt = p.cnt

theorem SameRow.zeros {r r' : List R} (h : SameRow r r') (n : Nat) :
    SameRow (List.replicate n 0 ++ r) (List.replicate n 0 ++ r') := by
  intro k
  rcases Nat.lt_or_ge k n with hk | hk
  · rw [List.getD_append _ _ _ _ (by simpa using hk), List.getD_append _ _ _ _ (by simpa using hk)]
  · rw [List.getD_append_right _ _ _ _ (by simpa using hk), List.getD_append_right _ _ _ _ (by simpa using hk)]
    exact h _

theorem fxInit_same (q : FxPar R) {S S' : IrMat R} (h : SameIr S S') : FxLonger (fxInit q S) (fxInit q S') := by
  refine ⟨rfl, ⟨⟨rfl, rfl, fun s o => ?_⟩, rfl⟩, rfl⟩
  show SameRow (if _ then _ else _) (if _ then _ else _)
  split
  · exact (h.ir _ _).zeros _
  · exact fun _ => rfl

theorem fxPrepare_same (p p' : FxSt R) (sig : Sigs R) (i : Int) (p1 : FxSt R) (sig1 : Sigs R) (h : FxLonger p p')
    (hx : fxPrepare p sig i = .ok (p1, sig1)) : ∃ p1', fxPrepare p' sig i = .ok (p1', sig1) ∧ FxLonger p1 p1' := by
  unfold fxPrepare at hx ⊢
  split at hx
  · cases hx
  · rename_i v _
    split at hx
    · cases hx
    · rename_i sec y hy
      obtain ⟨sec', k1, k2⟩ := h.sec.process hy
      rw [k1]
      dsimp only
      split at hx
      · cases hx
      · cases hx
        exact ⟨_, rfl, ⟨h.ctrl, k2, h.cnt⟩⟩

theorem fxUpdateFilter_same {q : FxPar R} {p p' : FxSt R} {sig : Sigs R} {i : Int} {p1 : FxSt R} {sig1 : Sigs R} (h : FxLonger p p')
    (hx : fxUpdateFilter q p sig i = .ok (p1, sig1)) : ∃ p1', fxUpdateFilter q p' sig i = .ok (p1', sig1) ∧ FxLonger p1 p1' := by
  unfold fxUpdateFilter at hx ⊢
  split_ifs at hx ⊢
  split at hx
  · cases hx
  · split at hx
    · cases hx
    · rename_i sec y hy
      obtain ⟨sec', k1, k2⟩ := h.sec.process hy
      rw [k1]
      dsimp only
      split at hx
      · cases hx
      · split at hx
        · split at hx
          · cases hx
          · cases hx
            refine ⟨_, rfl, ⟨?_, k2, h.cnt⟩⟩
            dsimp only
            rw [h.ctrl]
        · cases hx

theorem fxProc_same (q : FxPar R) : ProcSame FxLonger (fxProc q) (fxProc q) := by
  refine ⟨rfl, rfl, ?_⟩
  intro p p' sig i p1 sig1 h hx
  change fxProcess q p sig i = _ at hx
  show ∃ p1', fxProcess q p' sig i = _ ∧ _
  unfold fxProcess at hx ⊢
  rw [h.ctrl, h.cnt]
  split at hx
  · cases hx
  · rename_i f s1 hf
    split_ifs at hx ⊢
    · cases hu : fxUpdateFilter q { p with ctrl := f } s1 i with
      | error x => rw [hu] at hx; cases hx
      | ok r =>
        obtain ⟨p2, s2⟩ := r
        rw [hu] at hx
        obtain ⟨p2', k1, k2⟩ := fxUpdateFilter_same (p := { p with ctrl := f }) (p' := { p' with ctrl := f, cnt := p.cnt }) ⟨rfl, h.sec, rfl⟩ hu
        rw [k1]
        dsimp only at hx ⊢
        rw [k2.cnt]
        split at hx
        · cases hx
        · cases hx
          exact ⟨_, rfl, ⟨k2.ctrl, k2.sec, rfl⟩⟩
    · dsimp only at hx ⊢
      split at hx
      · cases hx
      · cases hx
        exact ⟨_, rfl, ⟨rfl, h.sec, rfl⟩⟩

theorem SameRow.fastSecIr {q : FxPar R} {S S' : IrMat R} (h : SameIr S S') (l m : Nat) : fastSecIr q S l m = fastSecIr q S' l m := by
  have hlen : ∀ a : List R, (if a.length < 2 * q.L then a ++ List.replicate (2 * q.L - a.length) 0
      else if a.length > 2 * q.L then a.take (2 * q.L) else a).length = 2 * q.L := by
    intro a
    split_ifs with h1 h2
    · rw [List.length_append, List.length_replicate]; omega
    · rw [List.length_take]; omega
    · omega
  have hget : ∀ (a : List R) (k : Nat), k < 2 * q.L → (if a.length < 2 * q.L then a ++ List.replicate (2 * q.L - a.length) 0
      else if a.length > 2 * q.L then a.take (2 * q.L) else a)[k]? = some (a.getD k 0) := by
    intro a k hk
    split_ifs with h1 h2
    · rcases Nat.lt_or_ge k a.length with h3 | h3
      · rw [List.getElem?_append_left h3, List.getElem?_eq_getElem h3, List.getD_eq_getElem _ _ h3]
      · rw [List.getElem?_append_right h3, List.getElem?_replicate, if_pos (by omega), List.getD_eq_default _ _ h3]
    · have h3 : k < a.length := by omega
      rw [List.getElem?_take, if_pos hk, List.getElem?_eq_getElem h3, List.getD_eq_getElem _ _ h3]
    · have h3 : k < a.length := by omega
      rw [List.getElem?_eq_getElem h3, List.getD_eq_getElem _ _ h3]
  unfold Verif.fastSecIr
  dsimp only
  have e : ∀ a a' : List R, SameRow a a' → (if a.length < 2 * q.L then a ++ List.replicate (2 * q.L - a.length) 0
      else if a.length > 2 * q.L then a.take (2 * q.L) else a) = if a'.length < 2 * q.L then a' ++ List.replicate (2 * q.L - a'.length) 0
      else if a'.length > 2 * q.L then a'.take (2 * q.L) else a' := by
    intro a a' ha
    refine List.ext_getElem? fun k => ?_
    rcases Nat.lt_or_ge k (2 * q.L) with hk | hk
    · rw [hget a k hk, hget a' k hk, ha k]
    · rw [List.getElem?_eq_none (by rw [hlen]; exact hk), List.getElem?_eq_none (by rw [hlen]; exact hk)]
  rw [e _ _ ((h.ir l m).zeros q.bs)]

theorem fastInit_same (q : FxPar R) {S S' : IrMat R} (h : SameIr S S') : fastInit q S = fastInit q S' := by
  unfold fastInit
  rw [show fastSecIr q S = fastSecIr q S' from funext fun l => funext fun m => SameRow.fastSecIr h l m]

end

/-! ### the room -/

section
variable {R K S P D O G : Type} [Field R] [Field K] [LinearOrder K]

/-- No response of the image-source package is longer than the lengths `i.irLen` and `L'`. -/
def ShortResponses (ext : RoomExt K R G) (i : RoomInfo K) (L' : Nat) : Prop :=
  ∀ par, i.parameters ext = .ok par → ∀ g ss ms,
    ∀ rs ∈ (ext.rir ⟨i.size, par.1, par.2, i.samplerate, i.randomized, i.speed, 2 * i.extraDelay + 1⟩ g ss ms).2,
    ∀ r ∈ rs, r.length ≤ i.irLen ∧ r.length ≤ L'

theorem roomSetup_length {ext : RoomExt K R G} {i : RoomInfo K} {L' : Nat} (hcut : i.cutoff ≤ 0) (hlen : ShortResponses ext i L')
    {g : G} {c : Coll (K × K × K) (IrMat R)} (hT : ∀ s m, c.types s m ≠ some "random") {par : K × Nat} {gc : G × Coll (K × K × K) (IrMat R)}
    (h : roomSetup ext i g c = .ok (par, gc)) :
    GenRel (fun t => t ≠ "random") SameIr (createPath (i.cfg ext par)) (createPath (({ i with irLen := L' } : RoomInfo K).cfg ext par)) ∧
    ∃ gc', roomSetup ext { i with irLen := L' } g c = .ok (par, gc') ∧ PRel (fun t => t ≠ "random") SameIr gc gc' := by
  unfold roomSetup at h ⊢
  have hpar : ({ i with irLen := L' } : RoomInfo K).parameters ext = i.parameters ext := rfl
  rw [hpar]
  cases hp : i.parameters ext with
  | error x => rw [hp] at h; cases h
  | ok par' =>
  rw [hp] at h
  dsimp only at h ⊢
  cases hs : c.setupIr (createPath (i.cfg ext par')) g with
  | error x => rw [hs] at h; cases h
  | ok gc1 =>
  rw [hs] at h
  cases h
  have hgen : GenRel (fun t => t ≠ "random") SameIr (createPath (i.cfg ext par))
      (createPath (({ i with irLen := L' } : RoomInfo K).cfg ext par)) := by
    refine createPath_same (c := i.cfg ext par) (L' := L') rfl (decide_eq_false (not_lt.2 hcut)) ?_
    intro g ss ms rs hrs r hr
    simp only [RoomInfo.cfg, Nat.zero_add] at hrs
    exact hlen par hp g _ _ rs hrs r hr
  have hc : PRel (fun t => t ≠ "random") SameIr (g, c) (g, c) := by
    refine ⟨rfl, rfl, rfl, rfl, rfl, rfl, ?_, ?_, ?_⟩
    · intro s m
      cases c.paths s m with
      | none => exact .none
      | some v => exact .some (sameIr_refl v)
    · exact List.forall₂_same.2 fun x _ => sameIr_refl x
    · rintro s m t ht rfl
      exact hT s m ht
  obtain ⟨gc', hs', hr⟩ := setupIr_rel hgen (by simp) hc hs
  rw [hs']
  exact ⟨hgen, gc', rfl, hr⟩

omit [Field K] [LinearOrder K] in
/-- A run with related responses. -/
theorem runWith_length {cfg : SimCfg R (IrMat R) (Fir R) S (G × Coll (K × K × K) (IrMat R)) P D O} (hf : cfg.filt = firOps R)
    {gen gen' : GenFn (K × K × K) (IrMat R) G} (hgen : GenRel (fun t => t ≠ "random") SameIr gen gen')
    (hupd : cfg.arrUpdate = Coll.update gen) (hpath : cfg.arrPath = Coll.path)
    {prep : P → Sigs R → Int → Except PyErr (P × Sigs R)} {srcs : String → S} {gc gc' : G × Coll (K × K × K) (IrMat R)}
    (hr : PRel (fun t => t ≠ "random") SameIr gc gc') {proc : P} {f0 : Fir R} {ds : List (Diag D)}
    {fin : SimSt R (Fir R) S (G × Coll (K × K × K) (IrMat R)) P D O}
    (h : cfg.runWith prep srcs gc proc f0 ds = .ok fin) :
    ∃ fin', { cfg with arrUpdate := Coll.update gen', arrPath := Coll.path }.runWith prep srcs gc' proc f0 ds = .ok fin' ∧
      StAlike (fun _ => false) cfg (PRel (fun t => t ≠ "random") SameIr) (fun _ _ f f' => SameFir f f') (fun _ => True) fin fin' := by
  have hN : Names cfg := runWith_names h
  obtain ⟨dyn, hd1, hd2⟩ := exists_dyn cfg.arrays hN.inj
  have hpd : ∀ p ∈ combosOf cfg.arrays, pairDyn dyn p = p := by
    intro p hp
    have hm := mem_combos_src hp
    have e : ∀ a ∈ cfg.arrays, a.withDyn dyn = a := fun a ha => by
      unfold ArrInfo.withDyn
      rw [hd2 a ha]
    unfold pairDyn
    rw [e _ hm.1, e _ hm.2.2]
  have H := Alike.mk (hid := fun _ => false) (dyn := dyn) (cfg := cfg)
    (cfg' := { cfg with arrUpdate := Coll.update gen', arrPath := Coll.path })
    (RA := PRel (fun t => t ≠ "random") SameIr) (RF := fun _ _ f f' => SameFir f f')
    rfl rfl rfl rfl rfl rfl rfl rfl hd1.symm id (fun hc p hp => by dsimp only at hc ⊢; rw [hc]; rfl)
    (fun _ _ => rfl) (fun _ _ _ _ => rfl)
    (fun p hp x S S' i x1 S1 hS hx => ⟨S1, by rw [← hS.eq]; exact hx, fun _ _ => rfl⟩)
    (fun a a' a1 n ha hx => by rw [hupd] at hx; exact update_rel hgen ha hx)
    (fun a a' ha p hp ir hir => by
      rw [hpath] at hir
      obtain ⟨ir', h1, h2⟩ := path_rel ha hir
      refine ⟨ir', h1, ?_⟩
      dsimp only
      rw [hf]
      exact ⟨h2, rfl⟩)
    (fun p hp f f' x g y hff hx => by
      dsimp only at hx ⊢
      rw [hf] at hx ⊢
      exact hff.process hx)
    (fun a a' ha p hp f f' g hff hx => by
      rw [hpd p hp]
      unfold SimCfg.updFilt at hx ⊢
      dsimp only at hx ⊢
      rw [hf] at hx ⊢
      rw [hpath] at hx
      split at hx
      · rename_i hdyn
        rw [if_pos hdyn]
        split at hx
        · cases hx
        · rename_i ir hir
          obtain ⟨ir', h1, h2⟩ := path_rel ha hir
          rw [h1]
          exact hff.updateIr h2 hx
      · rename_i hdyn
        rw [if_neg hdyn]
        cases hx
        exact ⟨_, rfl, hff⟩)
  exact H.runWith (fun x S S' i x1 S1 hS hx => ⟨S1, by
    rw [← show S = S' from funext fun k => hS k rfl]; exact hx, fun _ _ => rfl⟩) (blind_false _) hr (fun _ _ => trivial) h

end
end Verif

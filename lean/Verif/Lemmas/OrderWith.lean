/-
Runs with a processor that prepares itself: arrays in another order, without silent
sources, and without trajectories that stay where they are.
-/
import Verif.Lemmas.HideWith
import Verif.Lemmas.PermRun
import Verif.Lemmas.MuteRun
namespace Verif

/-! ### arrays in another order -/

section
variable {R IR F S A P D O : Type} {cfg : SimCfg R IR F S A P D O} {as' : List ArrInfo}
  {prep : P → Sigs R → Int → Except PyErr (P × Sigs R)}

theorem init_perm [Zero R] [Add R] (hcomm : ∀ a b c : R, a + b + c = a + c + b) (h : cfg.arrays.Perm as')
    {srcs : String → S} {arr : A} {proc : P} {f0 : F} {ds : List (Diag D)} {st : SimSt R F S A P D O}
    (h1 : cfg.init srcs arr proc f0 ds = .ok st) : (cfg.reorder as').init srcs arr proc f0 ds = .ok st := by
  have hn : Names cfg := names_of _ (init_nodup _ h1)
  unfold SimCfg.init at h1 ⊢
  cases h3 : cfg.createSignals with
  | error x => rw [h3] at h1; cases h1
  | ok sig =>
    rw [h3] at h1
    rw [createSignals_perm h h3]
    dsimp only at h1 ⊢
    cases h4 : cfg.createFilters arr (fun _ _ => f0) with
    | error x => rw [h4] at h1; cases h1
    | ok fs =>
      rw [h4] at h1
      rw [createFilters_perm h hn h4]
      dsimp only at h1 ⊢
      cases h5 : cfg.prepare { sig := sig, srcs := srcs, filts := fs, arr := arr, proc := proc } with
      | error x => rw [h5] at h1; cases h1
      | ok e =>
        rw [h5] at h1
        rw [prepare_perm hcomm h hn h5]
        exact h1

theorem runWith_perm [Zero R] [Add R] (hcomm : ∀ a b c : R, a + b + c = a + c + b) (h : cfg.arrays.Perm as')
    {srcs : String → S} {arr : A} {proc : P} {f0 : F} {ds : List (Diag D)} {fin : SimSt R F S A P D O}
    (hx : cfg.runWith prep srcs arr proc f0 ds = .ok fin) : (cfg.reorder as').runWith prep srcs arr proc f0 ds = .ok fin := by
  have hn := runWith_names hx
  unfold SimCfg.runWith SimCfg.initWith at hx ⊢
  cases h1 : cfg.init srcs arr proc f0 ds with
  | error x => rw [h1] at hx; cases hx
  | ok st =>
    rw [h1] at hx
    rw [init_perm hcomm h h1]
    dsimp only at hx ⊢
    cases h2 : prep st.eng.proc st.eng.sig st.idx with
    | error x => rw [h2] at hx; cases hx
    | ok r =>
      rw [h2] at hx
      dsimp only at hx ⊢
      have e0 : (cfg.reorder as').tot + (cfg.reorder as').mbs = cfg.tot + cfg.mbs := rfl
      rw [e0]
      cases h3 : cfg.steps (cfg.tot + cfg.mbs) { st with eng := { st.eng with proc := r.1, sig := r.2 } } with
      | error x => rw [h3] at hx; cases hx
      | ok st2 =>
        rw [h3] at hx
        rw [steps_perm hcomm h hn _ h3]
        exact hx

end

/-- Every response is there when a run begins. -/
theorem init_full {F K R S P D O G : Type} [Zero R] [Add R] {cfg : SimCfg R (IrMat R) F S (G × Coll (K × K × K) (IrMat R)) P D O}
    {c : Coll (K × K × K) (IrMat R)} {gc : G × Coll (K × K × K) (IrMat R)} (hc : c.Consistent) (ea : cfg.arrays = c.infos)
    (ep : cfg.arrPath = Coll.path) {srcs : String → S} {proc : P} {f0 : F} {ds : List (Diag D)}
    {st : SimSt R F S (G × Coll (K × K × K) (IrMat R)) P D O} (hi : cfg.init srcs gc proc f0 ds = .ok st)
    (s : String) (hs : s ∈ c.srcs) (m : String) (hm : m ∈ c.mics) : (gc.2.paths s m).isSome := by
  unfold SimCfg.init at hi
  cases h1 : cfg.createSignals with
  | error x => rw [h1] at hi; cases hi
  | ok sig =>
    rw [h1] at hi
    dsimp only at hi
    cases h2 : cfg.createFilters gc (fun _ _ => f0) with
    | error x => rw [h2] at hi; cases hi
    | ok fs =>
      obtain ⟨a, ha, hka, rfl⟩ := hc.mem_srcs.1 hs
      obtain ⟨b, hb, hkb, rfl⟩ := hc.mem_mics.1 hm
      obtain ⟨k, hk, hkm⟩ : ∃ k, a.kind = some k ∧ k ≠ .mic := by
        rcases hka with hka | hka
        · exact ⟨_, hka, by decide⟩
        · exact ⟨_, hka, by decide⟩
      have hin : ((⟨a.name, a.num, k, a.dynamic⟩, ⟨b.name, b.num, .mic, b.dynamic⟩) : ArrInfo × ArrInfo) ∈
          combosOf cfg.arrays := by
        rw [ea, mem_combosOf]
        constructor
        · exact List.mem_filter.2 ⟨List.mem_filterMap.2 ⟨a, ha, by rw [hk]; rfl⟩, by simpa using hkm⟩
        · exact List.mem_filter.2 ⟨List.mem_filterMap.2 ⟨b, hb, by rw [hkb]; rfl⟩, by simp⟩
      unfold SimCfg.createFilters at h2
      obtain ⟨f1, f2, hff⟩ := foldlM_each _ h2 _ hin
      dsimp only at hff
      split at hff
      · cases hff
      · rename_i ir hir
        rw [ep] at hir
        unfold Coll.path at hir
        split at hir
        · cases hir
        · rename_i v hv
          rw [hv]; rfl

theorem numOfArray_perm {Pt H : Type} {c c' : Coll Pt H} (hc : c.Consistent) (hc' : c'.Consistent) (h : c.arrays.Perm c'.arrays)
    (nm : String) : numOfArray c'.arrays nm = numOfArray c.arrays nm := by
  have := find_perm hc hc' h nm
  unfold Coll.find at this
  unfold numOfArray
  rw [this]

theorem fxCreate_nums {Pt R : Type} {as as' : List (Arr Pt)}
    (h : ∀ nm ∈ ["ref", "error", "loudspeaker"], numOfArray as' nm = numOfArray as nm) (bs ub L : Nat) (mu beta : R) (norm : FxNorm) :
    fxCreate as' bs ub L mu beta norm = fxCreate as bs ub L mu beta norm := by
  unfold fxCreate
  rw [h _ (by simp), h _ (by simp), h _ (by simp)]

section
variable {F K R S P D O G : Type} [Field K] [LinearOrder K] [Zero R] [One R] [Add R]

theorem room_runWith_perm (hcomm : ∀ a b c : R, a + b + c = a + c + b)
    {cfg : SimCfg R (IrMat R) F S (G × Coll (K × K × K) (IrMat R)) P D O} {ext : RoomExt K R G}
    {i : RoomInfo K} {g : G} {c c' : Coll (K × K × K) (IrMat R)} {par : K × Nat} {gc : G × Coll (K × K × K) (IrMat R)}
    (hc : c.Consistent) (hc' : c'.Consistent) (harr : c.arrays.Perm c'.arrays) (hfreq : c.freq = c'.freq)
    (hty : c.types = c'.types) (hpa : c.paths = c'.paths)
    (hrir : ∀ b g g' ss ms, (ext.rir b g ss ms).2 = (ext.rir b g' ss ms).2)
    (hrand : ∀ s m, c.types s m ≠ some "random") (hset : roomSetup ext i g c = .ok (par, gc))
    (ea : cfg.arrays = c.infos) (eu : cfg.arrUpdate = Coll.update (createPath (i.cfg ext par))) (ep : cfg.arrPath = Coll.path)
    {prep : P → Sigs R → Int → Except PyErr (P × Sigs R)} {srcs : String → S} {proc : P} {f0 : F} {ds : List (Diag D)}
    {fin : SimSt R F S (G × Coll (K × K × K) (IrMat R)) P D O} (hx : cfg.runWith prep srcs gc proc f0 ds = .ok fin) :
    ∃ gc', roomSetup ext i g c' = .ok (par, gc') ∧ CPerm (fun t => t ≠ "random") gc gc' ∧
      ∃ fin', { cfg with arrays := c'.infos }.runWith prep srcs gc' proc f0 ds = .ok fin' ∧
        StRel (fun _ => false) (CFull fun t => t ≠ "random") (fun _ => True) fin fin' := by
  unfold roomSetup at hset ⊢
  cases hpar : i.parameters ext with
  | error x => rw [hpar] at hset; cases hset
  | ok par' =>
    rw [hpar] at hset
    dsimp only at hset ⊢
    cases hs : c.setupIr (createPath (i.cfg ext par')) g with
    | error x => rw [hs] at hset; cases hset
    | ok gc1 =>
      rw [hs] at hset
      cases hset
      have hst : Steady (createPath (i.cfg ext par)) fun t => t ≠ "random" :=
        createPath_steady fun g g' ss ms => hrir _ g g' _ _
      have hrel : CPerm (fun t => t ≠ "random") (g, c) (g, c') :=
        ⟨hc, hc', harr, hfreq, hty, hpa, fun s m t ht e => hrand s m (by rw [ht, e])⟩
      obtain ⟨gc', hset', hrel'⟩ := setupIr_perm (gc := (g, c)) (gc' := (g, c')) hst (by decide) hrel hs
      dsimp only at hset'
      rw [hset']
      refine ⟨gc', rfl, hrel', ?_⟩
      obtain ⟨st, hi⟩ := runWith_init hx
      obtain ⟨hl1, hl2⟩ := setupFold_lists _ (setupIr_fold hs)
      have hfull : ∀ s ∈ gc.2.srcs, ∀ m ∈ gc.2.mics, (gc.2.paths s m).isSome := by
        rw [hl1, hl2]
        exact init_full hc ea ep hi
      have hH : Hidden (fun _ => false) cfg := by
        refine ⟨fun a _ h => (by cases h), fun _ _ _ => rfl, fun _ _ _ _ => rfl, fun p _ x S S' i x1 S1 hS hp => ?_⟩
        have : S = S' := funext fun k => hS k rfl
        subst this
        exact ⟨S1, hp, fun _ _ => rfl⟩
      have hCR : CollRel (fun _ => false) cfg (Coll.update (createPath (i.cfg ext par))) Coll.path
          (CFull fun t => t ≠ "random") := by
        refine ⟨fun a a' a1 n hr hu => ?_, fun a a' s m v hr hm hv => ?_⟩
        · exact update_perm hst createPath_modified hr (by rw [← hu, eu])
        · rw [← hv, ep]
          show Coll.path a' s m = Coll.path a s m
          unfold Coll.path
          rw [hr.perm.paths]
      have hb : Blind (fun _ => false) cfg.diag fun _ => True := by
        intro d p S S' iv gv d1 _ hS hs
        have : S = S' := funext fun k => hS k rfl
        subst this
        exact ⟨hs, trivial⟩
      have hprep : PrepIgnores (fun _ => false) prep := by
        intro x S S' i x1 S1 hS hp
        have : S = S' := funext fun k => hS k rfl
        subst this
        exact ⟨S1, hp, fun _ _ => rfl⟩
      obtain ⟨fin', hf, hs⟩ := runWith_hide hH hCR hprep hb (arr' := gc') ⟨hrel', hfull⟩ (fun _ _ => trivial) hx
      have hk : (cfg.without (fun _ => false) (Coll.update (createPath (i.cfg ext par))) Coll.path).arrays = cfg.arrays := by
        unfold SimCfg.without keptArrays
        simp
      refine ⟨fin', ?_, hs⟩
      have hp := runWith_perm (as' := c'.infos) hcomm (by rw [hk, ea]; exact infos_perm harr) hf
      rw [← hp]
      congr 1
      unfold SimCfg.reorder SimCfg.without
      dsimp only
      rw [eu, ep]

end

/-! ### without silent sources -/

section
variable {R S A A' P D O : Type} [NonUnitalNonAssocSemiring R] {hid : String → Bool} {I : S → Prop}
  {cfg : SimCfg R (IrMat R) (Fir R) S A P D O} {upd : A' → Nat → Except PyErr A'}
  {path : A' → String → String → Except PyErr (IrMat R)} {RA : A → A' → Prop}
  {prep : P → Sigs R → Int → Except PyErr (P × Sigs R)}

/-- The method `prepare` writes nothing but zeros to the signals of `hid`. -/
def PrepMutes (hid : String → Bool) (prep : P → Sigs R → Int → Except PyErr (P × Sigs R)) : Prop :=
  ∀ x S i x1 S1, (∀ k m, hid k = true → S k = some m → Zeros m) → prep x S i = .ok (x1, S1) →
    ∀ k m, hid k = true → S1 k = some m → Zeros m

theorem init_mute (h : Muted hid I cfg) (hc : CollRelS hid cfg upd path RA) {Pd : D → Prop}
    (hN : Names cfg) {srcs : String → S} (hsil : ∀ a ∈ freeOf cfg.arrays, hid a.name = true → I (srcs a.name))
    {arr : A} {arr' : A'} {proc : P} {f0 : Fir R} (hRA : RA arr arr')
    {ds : List (Diag D)} (hd : ∀ d ∈ ds, Pd d.data) {st : SimSt R (Fir R) S A P D O}
    (h1 : cfg.init srcs arr proc f0 ds = .ok st) :
    ∃ st', (cfg.without hid upd path).init srcs arr' proc f0 ds = .ok st' ∧ StRelS hid I cfg.arrays RA Pd st st' := by
  unfold SimCfg.init at h1 ⊢
  cases h2 : cfg.createSignals with
  | error x => rw [h2] at h1; cases h1
  | ok sig =>
    rw [h2] at h1
    obtain ⟨sig', h3, h4⟩ := createSignals_mute (upd := upd) (path := path) h h2
    rw [h3]
    dsimp only at h1 ⊢
    cases h5 : cfg.createFilters arr (fun _ _ => f0) with
    | error x => rw [h5] at h1; cases h1
    | ok fs =>
      rw [h5] at h1
      have hspec := createFilters_spec cfg hN h5
      obtain ⟨fs', h6, h7⟩ := createFilters_mute h hc hRA h5
      rw [h6]
      dsimp only at h1 ⊢
      cases h8 : cfg.prepare { sig := sig, srcs := srcs, filts := fs, arr := arr, proc := proc } with
      | error x => rw [h8] at h1; cases h1
      | ok e =>
        rw [h8] at h1
        have hq : QuietSig hid sig := by
          unfold SimCfg.createSignals at h2
          refine createSignals_quiet _ (S := fun _ => none) ?_ h2
          intro k m _ hm
          cases hm
        have hidle : ∀ p ∈ combosOf cfg.arrays, hid p.1.name = true → (fs p.1.name p.2.name).Idle := by
          intro p hp _
          obtain ⟨ir, -, q⟩ := hspec p hp
          rw [q, h.filt]
          intro r hr
          exact absurd hr (List.not_mem_nil)
        obtain ⟨e', h9, h10⟩ := prepare_mute (upd := upd) (path := path) h
          (e' := { sig := sig', srcs := srcs, filts := fs', arr := arr', proc := proc }) (RA := RA)
          ⟨h4, hq, fun _ _ => rfl, hsil, h7, hidle, hRA, rfl⟩ h8
        rw [h9]
        cases h1
        exact ⟨_, rfl, ⟨h10, rfl, rfl, rfl, rfl, hd⟩⟩

theorem runWith_mute (h : Muted hid I cfg) (hc : CollRelS hid cfg upd path RA) (hprep : PrepIgnores hid prep)
    (hmut : PrepMutes hid prep) {Pd : D → Prop}
    (hb : Blind hid cfg.diag Pd) {srcs : String → S} (hsil : ∀ a ∈ freeOf cfg.arrays, hid a.name = true → I (srcs a.name))
    {arr : A} {arr' : A'} {proc : P} {f0 : Fir R} (hRA : RA arr arr')
    {ds : List (Diag D)} (hd : ∀ d ∈ ds, Pd d.data) {fin : SimSt R (Fir R) S A P D O}
    (hx : cfg.runWith prep srcs arr proc f0 ds = .ok fin) :
    ∃ fin', (cfg.without hid upd path).runWith prep srcs arr' proc f0 ds = .ok fin' ∧ StRelS hid I cfg.arrays RA Pd fin fin' := by
  have hN := runWith_names hx
  unfold SimCfg.runWith SimCfg.initWith at hx ⊢
  cases h1 : cfg.init srcs arr proc f0 ds with
  | error x => rw [h1] at hx; cases hx
  | ok st =>
    rw [h1] at hx
    obtain ⟨st', h2, hr⟩ := init_mute h hc hN hsil hRA hd h1
    rw [h2]
    dsimp only at hx ⊢
    cases h7 : prep st.eng.proc st.eng.sig st.idx with
    | error x => rw [h7] at hx; cases hx
    | ok r =>
      obtain ⟨p1, sig1⟩ := r
      rw [h7] at hx
      obtain ⟨sig1', h8, h9⟩ := hprep _ _ st'.eng.sig _ _ _ hr.eng.sig h7
      have hq := hmut _ _ _ _ _ hr.eng.quiet h7
      rw [← hr.eng.proc, ← hr.idx, h8]
      dsimp only at hx ⊢
      have e1 : (cfg.without hid upd path).tot + (cfg.without hid upd path).mbs = cfg.tot + cfg.mbs := rfl
      have e3 : (cfg.without hid upd path).diag = cfg.diag := rfl
      have e4 : (cfg.without hid upd path).plotNone = cfg.plotNone := rfl
      rw [e1, e3, e4]
      have hr' : StRelS hid I cfg.arrays RA Pd { st with eng := { st.eng with proc := p1, sig := sig1 } }
          { st' with eng := { st'.eng with proc := p1, sig := sig1' } } :=
        ⟨⟨h9, hq, hr.eng.srcs, hr.eng.silent, hr.eng.filts, hr.eng.idle, hr.eng.arr, rfl⟩, hr.idx, hr.n, hr.diags, hr.log, hr.data⟩
      cases h3 : cfg.steps (cfg.tot + cfg.mbs) { st with eng := { st.eng with proc := p1, sig := sig1 } } with
      | error x => rw [h3] at hx; cases hx
      | ok s =>
        rw [h3] at hx
        obtain ⟨s', h4, hr2⟩ := steps_mute (upd := upd) (path := path) h hc hb _ hr' h3
        rw [hr.idx, h4]
        dsimp only at hx ⊢
        rw [← hr2.diags, ← hr2.log]
        cases h6 : dispatch cfg.diag cfg.plotNone s.diags s.log with
        | error x => rw [h6] at hx; cases hx
        | ok r =>
          obtain ⟨ds', log⟩ := r
          rw [h6] at hx
          cases hx
          exact ⟨_, rfl, ⟨hr2.eng, hr2.idx, hr2.n, rfl, rfl, dispatch_data hr2.data h6⟩⟩

end

/-! ### the adaptive processors write two signals only -/

section
variable {R : Type} [Field R] {hid : String → Bool}

theorem sigAssign_other {S S1 : Sigs R} (hq : QuietSig hid S) {k : String} (hk : hid k = false) {i j : Int} {v : Mat R}
    (hx : sigAssign S k i j v = .ok S1) : QuietSig hid S1 :=
  sigAssign_quiet hq (fun h => by rw [hk] at h; cases h) hx

theorem ancProcess_mutes {bs : Nat} {f f1 : Fir R} {S S1 : Sigs R} {idx : Int} {a b : String} (h2 : hid b = false)
    (h : QuietSig hid S) (hx : ancProcess a b bs f S idx = .ok (f1, S1)) : QuietSig hid S1 := by
  unfold ancProcess at hx
  split at hx
  · cases hx
  · split at hx
    · cases hx
    · split at hx
      · cases hx
      · rename_i sig hs
        cases hx
        exact sigAssign_other h h2 hs

theorem fxUpdateFilter_mutes {q : FxPar R} {p p1 : FxSt R} {S S1 : Sigs R} {idx : Int} (h2 : hid "xf" = false)
    (h : QuietSig hid S) (hx : fxUpdateFilter q p S idx = .ok (p1, S1)) : QuietSig hid S1 := by
  unfold fxUpdateFilter at hx
  split at hx
  · cases hx
  · split at hx
    · cases hx
    · split at hx
      · cases hx
      · split at hx
        · cases hx
        · rename_i sig hs
          split at hx
          · split at hx
            · cases hx
            · cases hx
              exact sigAssign_other h h2 hs
          · cases hx

theorem fxPrepare_mutes (h2 : hid "xf" = false) :
    PrepMutes hid (fxPrepare : FxSt R → Sigs R → Int → Except PyErr (FxSt R × Sigs R)) := by
  intro x S i x1 S1 h hx
  unfold fxPrepare at hx
  split at hx
  · cases hx
  · split at hx
    · cases hx
    · split at hx
      · cases hx
      · rename_i sig hs
        cases hx
        exact sigAssign_other h h2 hs

theorem fxProc_mutes (q : FxPar R) (h2 : hid "xf" = false) (h4 : hid "loudspeaker" = false) : (fxProc q).Mutes hid := by
  intro x S i x1 S1 h hx
  change fxProcess q x S i = .ok (x1, S1) at hx
  unfold fxProcess at hx
  cases ha : ancProcess "ref" "loudspeaker" q.bs x.ctrl S i with
  | error e => rw [ha] at hx; cases hx
  | ok r =>
    obtain ⟨f, sig⟩ := r
    rw [ha] at hx
    have h6 := ancProcess_mutes h4 h ha
    dsimp only at hx
    by_cases hu : "update_filter" ∈ x.cnt.event
    · rw [if_pos hu] at hx
      cases hb : fxUpdateFilter q { x with ctrl := f } sig i with
      | error e => rw [hb] at hx; cases hx
      | ok r =>
        obtain ⟨p2, sig2⟩ := r
        rw [hb] at hx
        have h8 := fxUpdateFilter_mutes h2 h6 hb
        dsimp only at hx
        split at hx
        · cases hx
        · cases hx
          exact h8
    · rw [if_neg hu] at hx
      dsimp only at hx
      split at hx
      · cases hx
      · cases hx
        exact h6

theorem fastUpdateFilter_mutes {q : FxPar R} {p p1 : FastSt R} {S S1 : Sigs R} {idx : Int} (h2 : hid "xf" = false)
    (h : QuietSig hid S) (hx : fastUpdateFilter q p S idx = .ok (p1, S1)) : QuietSig hid S1 := by
  unfold fastUpdateFilter at hx
  split at hx
  · cases hx
  · split at hx
    · cases hx
    · split at hx
      · cases hx
      · rename_i sig hs
        split at hx
        · split at hx
          · cases hx
          · cases hx
            exact sigAssign_other h h2 hs
        · cases hx

theorem fastPrepare_mutes (q : FxPar R) (h2 : hid "xf" = false) : PrepMutes hid (fastPrepare q) := by
  have fold : ∀ (l : List Nat) (r r1 : FastSt R × Sigs R), QuietSig hid r.2 → l.foldlM (fastPrepBlock q) r = .ok r1 →
      QuietSig hid r1.2 := by
    intro l
    induction l with
    | nil =>
      intro r r1 h hx
      cases hx
      exact h
    | cons a l ih =>
      intro r r1 h hx
      rw [List.foldlM_cons] at hx
      cases ha : fastPrepBlock q r a with
      | error e => rw [ha] at hx; cases hx
      | ok r2 =>
        rw [ha] at hx
        refine ih r2 r1 ?_ hx
        unfold fastPrepBlock at ha
        split at ha
        · cases ha
        · split at ha
          · cases ha
          · split at ha
            · cases ha
            · rename_i sig hs
              cases ha
              exact sigAssign_other h h2 hs
  intro x S i x1 S1 h hx
  exact fold _ (x, S) (x1, S1) h hx

theorem fastProc_mutes (q : FxPar R) (h2 : hid "xf" = false) (h4 : hid "loudspeaker" = false) : (fastProc q).Mutes hid := by
  intro x S i x1 S1 h hx
  change fastProcess q x S i = .ok (x1, S1) at hx
  unfold fastProcess at hx
  cases ha : ancProcess "ref" "loudspeaker" q.bs x.ctrl S i with
  | error e => rw [ha] at hx; cases hx
  | ok r =>
    obtain ⟨f, sig⟩ := r
    rw [ha] at hx
    have h6 := ancProcess_mutes h4 h ha
    dsimp only at hx
    by_cases hu : "update_filter" ∈ x.cnt.event
    · rw [if_pos hu] at hx
      cases hb : fastUpdateFilter q { x with ctrl := f } sig i with
      | error e => rw [hb] at hx; cases hx
      | ok r =>
        obtain ⟨p2, sig2⟩ := r
        rw [hb] at hx
        have h8 := fastUpdateFilter_mutes h2 h6 hb
        dsimp only at hx
        split at hx
        · cases hx
        · cases hx
          exact h8
    · rw [if_neg hu] at hx
      dsimp only at hx
      split at hx
      · cases hx
      · cases hx
        exact h6

end

section
variable {K R S P D O G : Type} [Field K] [LinearOrder K] [NonAssocSemiring R]

theorem room_runWith_mute {cfg : SimCfg R (IrMat R) (Fir R) S (G × Coll (K × K × K) (IrMat R)) P D O}
    (hfilt : cfg.filt = firOps R) {ext : RoomExt K R G}
    {i : RoomInfo K} {g : G} {c : Coll (K × K × K) (IrMat R)} {par : K × Nat} {gc : G × Coll (K × K × K) (IrMat R)}
    {M : List String} (hc : c.Consistent) (hM : ∀ s ∈ M, s ∈ c.srcs) (hne : ∃ s ∈ c.srcs, s ∉ M)
    (hrir : ∀ b g g' ss ms, (ext.rir b g ss ms).2 = (ext.rir b g' ss ms).2)
    (hrand : ∀ s m, s ∉ M → c.types s m ≠ some "random") (hset : roomSetup ext i g c = .ok (par, gc))
    (ea : cfg.arrays = c.infos) (eu : cfg.arrUpdate = Coll.update (createPath (i.cfg ext par))) (ep : cfg.arrPath = Coll.path)
    {I : S → Prop} (hI : ∀ s n s' v, I s → cfg.srcGet s n = .ok (s', v) → I s' ∧ Zeros v)
    {srcs : String → S} (hsil : ∀ s ∈ M, s ∈ c.frees → I (srcs s))
    (hp : ∀ p, cfg.proc = some p → p.Ignores (signalFrom cfg.contrib c.infos M) ∧ p.Mutes (signalFrom cfg.contrib c.infos M))
    {prep : P → Sigs R → Int → Except PyErr (P × Sigs R)} (hprep : PrepIgnores (signalFrom cfg.contrib c.infos M) prep)
    (hmut : PrepMutes (signalFrom cfg.contrib c.infos M) prep)
    {Pd : D → Prop} (hb : Blind (signalFrom cfg.contrib c.infos M) cfg.diag Pd) {ds : List (Diag D)} (hd : ∀ d ∈ ds, Pd d.data)
    {proc : P} {f0 : Fir R} {fin : SimSt R (Fir R) S (G × Coll (K × K × K) (IrMat R)) P D O}
    (hx : cfg.runWith prep srcs gc proc f0 ds = .ok fin) :
    ∃ gc', roomSetup ext i g (c.withoutSrc M) = .ok (par, gc') ∧ SRel M.contains (fun t => t ≠ "random") gc gc' ∧
      ∃ fin', { cfg with arrays := (c.withoutSrc M).infos }.runWith prep srcs gc' proc f0 ds = .ok fin' ∧
        StRelS (signalFrom cfg.contrib c.infos M) I c.infos (SFull M.contains fun t => t ≠ "random") Pd fin fin' := by
  have hn := runWith_names hx
  unfold roomSetup at hset ⊢
  cases hpar : i.parameters ext with
  | error x => rw [hpar] at hset; cases hset
  | ok par' =>
    rw [hpar] at hset
    dsimp only at hset ⊢
    cases hs : c.setupIr (createPath (i.cfg ext par')) g with
    | error x => rw [hs] at hset; cases hset
    | ok gc1 =>
      rw [hs] at hset
      cases hset
      have hst : Steady (createPath (i.cfg ext par)) fun t => t ≠ "random" :=
        createPath_steady fun g g' ss ms => hrir _ g g' _ _
      have hnm : ∀ a ∈ c.arrays, M.contains a.name = true → a.kind ≠ some .mic := by
        intro a ha hm hk
        have h1 : a.name ∈ c.mics := hc.mem_mics.2 ⟨a, ha, hk, rfl⟩
        exact hc.disjoint h1 (hM _ (by simpa using hm))
      have hrel : SRel M.contains (fun t => t ≠ "random") (g, c) (g, c.withoutSrc M) := by
        refine ⟨rfl, rfl, rfl, rfl, fun s m hs => ?_, fun s m hs => ?_, hnm, ?_, ?_, ?_, ?_⟩
        · simp only [Coll.withoutSrc, hs]; rfl
        · simp only [Coll.withoutSrc, hs]; rfl
        · intro m hm
          cases h : M.contains m with
          | false => rfl
          | true => exact absurd (hM m (by simpa using h)) (hc.disjoint hm)
        · intro a ha hk
          exact hc.mem_mics.2 ⟨a, ha, hk, rfl⟩
        · obtain ⟨s, h1, h2⟩ := hne
          exact ⟨s, h1, by simpa using h2⟩
        · intro s m t hm ht e
          exact hrand s m (by simpa using hm) (by rw [ht, e])
      obtain ⟨gc', hset', hrel'⟩ := setupIr_mute (gc := (g, c)) (gc' := (g, c.withoutSrc M)) hst (by decide) hrel hs
      dsimp only at hset'
      rw [hset']
      refine ⟨gc', rfl, hrel', ?_⟩
      have hMi : ∀ m ∈ M, ∃ a ∈ cfg.arrays, a.name = m := by
        intro m hm
        obtain ⟨a, ha, hk', he⟩ := hc.mem_srcs.1 (hM m hm)
        obtain ⟨k, hk⟩ : ∃ k, a.kind = some k := by rcases hk' with h | h <;> exact ⟨_, h⟩
        rw [ea]
        exact ⟨⟨a.name, a.num, k, a.dynamic⟩, List.mem_filterMap.2 ⟨a, ha, by rw [hk]; rfl⟩, he⟩
      have hsrc : ∀ a ∈ cfg.arrays, M.contains a.name = true → a.kind ≠ .mic := by
        intro a ha hm hk
        rw [ea] at ha
        obtain ⟨b, hb, he⟩ := List.mem_filterMap.1 ha
        cases hk' : b.kind with
        | none => rw [hk'] at he; cases he
        | some k =>
          rw [hk'] at he
          cases he
          exact hnm b hb hm (hk'.trans (congrArg some hk))
      have hH : Muted (signalFrom cfg.contrib c.infos M) I cfg := by
        rw [← ea] at hp ⊢
        refine ⟨fun a ha hm => ?_, fun hcn p hp => ?_, fun p hpp q hq => (hp p hpp).1.1 q hq, fun p hpp => (hp p hpp).1.2,
          fun p hpp => (hp p hpp).2, hfilt, hI⟩
        · rw [signalFrom_array hn ha] at hm
          exact hsrc a ha hm
        · rw [signalFrom_contrib hn hMi hcn hp, signalFrom_array hn (mem_combos_src hp).1]
      have hCR : CollRelS (signalFrom cfg.contrib c.infos M) cfg (Coll.update (createPath (i.cfg ext par))) Coll.path
          (SFull M.contains fun t => t ≠ "random") := by
        refine ⟨fun a a' a1 n hr hu => ?_, fun a a' s m v hr hm hv => ?_⟩
        · exact update_mute hst hr (by rw [← hu, eu])
        · have hm' : M.contains s = false := by
            unfold signalFrom at hm
            exact (Bool.or_eq_false_iff.1 hm).1
          have : Coll.path a s m = .ok v := by rw [← hv, ep]
          unfold Coll.path at this ⊢
          rw [← hr.1.paths s m hm']
          exact this
      obtain ⟨hl1, hl2⟩ := setupFold_lists _ (setupIr_fold hs)
      obtain ⟨st, hi⟩ := runWith_init hx
      have hfull : gc.2.Full := by
        intro s hs m hm
        rw [hl1] at hs
        rw [hl2] at hm
        exact Option.isSome_iff_exists.1 (init_full hc ea ep hi s hs m hm)
      obtain ⟨fin', hf, hs⟩ := runWith_mute hH hCR hprep hmut (Pd := Pd) hb (srcs := srcs)
        (by
          intro a ha hh
          unfold freeOf at ha
          obtain ⟨ha1, ha2⟩ := List.mem_filter.1 ha
          rw [← ea, signalFrom_array hn ha1] at hh
          refine hsil a.name (by simpa using hh) ?_
          rw [ea] at ha1
          obtain ⟨b, hb, he⟩ := List.mem_filterMap.1 ha1
          cases hk' : b.kind with
          | none => rw [hk'] at he; cases he
          | some k =>
            rw [hk'] at he
            cases he
            refine hc.mem_frees.2 ⟨b, hb, ?_, rfl⟩
            have : k = .free := beq_iff_eq.1 ha2
            rw [hk', this])
        (arr' := gc') ⟨hrel', hfull⟩ hd hx
      rw [ea] at hs
      refine ⟨fin', ?_, hs⟩
      rw [← hf, infos_withoutSrc]
      congr 1
      have ek : keptArrays M.contains c.infos = keptArrays (signalFrom cfg.contrib c.infos M) cfg.arrays := by
        rw [← ea]
        unfold keptArrays
        exact List.filter_congr fun a ha => by rw [signalFrom_array hn ha]
      rw [ek]
      unfold SimCfg.without
      rw [eu, ep]

end
end Verif

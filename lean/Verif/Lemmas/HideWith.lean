/-
Taking diagnostics, microphones and contributions away from a run with a processor that
prepares itself.
-/
import Verif.Spec.HideWith
import Verif.Lemmas.Observe
import Verif.Lemmas.HideRun
import Verif.Lemmas.Alike
import Verif.Model.Anc
import Verif.Model.AncReal
namespace Verif

section
variable {R IR F S A P D O : Type} [Zero R] [Add R] {cfg : SimCfg R IR F S A P D O}
  {prep : P → Sigs R → Int → Except PyErr (P × Sigs R)}

theorem initWith_keep (keep : String → Bool) (srcs : String → S) (arr : A) (proc : P) (f0 : F) (ds : List (Diag D)) :
    cfg.initWith prep srcs arr proc f0 (keepDiags keep ds) = (cfg.initWith prep srcs arr proc f0 ds).map (keepState keep) := by
  unfold SimCfg.initWith
  rw [init_keep]
  cases cfg.init srcs arr proc f0 ds with
  | error x => rfl
  | ok st =>
    simp only [Except.map, keepState]
    cases prep st.eng.proc st.eng.sig st.idx with
    | error x => rfl
    | ok r => rfl

theorem runWith_keep (keep : String → Bool) (srcs : String → S) (arr : A) (proc : P) (f0 : F) (ds : List (Diag D))
    {st : SimSt R F S A P D O} (h : cfg.runWith prep srcs arr proc f0 ds = .ok st) :
    cfg.runWith prep srcs arr proc f0 (keepDiags keep ds) = .ok (keepState keep st) := by
  unfold SimCfg.runWith at h ⊢
  rw [initWith_keep]
  cases hi : cfg.initWith prep srcs arr proc f0 ds with
  | error x => rw [hi] at h; cases h
  | ok s =>
    rw [hi] at h
    simp only [Except.map] at h ⊢
    cases hs : cfg.steps (cfg.tot + cfg.mbs) s with
    | error x => rw [hs] at h; cases h
    | ok s' =>
      rw [hs] at h
      rw [steps_keep keep _ hs]
      dsimp only at h ⊢
      cases hd : dispatch cfg.diag cfg.plotNone s'.diags s'.log with
      | error x => rw [hd] at h; cases h
      | ok r =>
        obtain ⟨ds', log⟩ := r
        rw [hd] at h
        simp only [keepState]
        rw [dispatch_keep keep hd]
        cases h
        rfl

theorem runWith_join (keep : String → Bool) (srcs : String → S) (arr : A) (proc : P) (f0 : F) (ds : List (Diag D))
    {s1 s2 : SimSt R F S A P D O} (h : cfg.runWith prep srcs arr proc f0 (keepDiags keep ds) = .ok s1)
    (h' : cfg.runWith prep srcs arr proc f0 (keepDiags (fun s => !keep s) ds) = .ok s2) :
    ∃ st, cfg.runWith prep srcs arr proc f0 ds = .ok st := by
  unfold SimCfg.runWith at h h' ⊢
  rw [initWith_keep] at h h'
  cases hi : cfg.initWith prep srcs arr proc f0 ds with
  | error x => rw [hi] at h; cases h
  | ok s =>
    rw [hi] at h h'
    simp only [Except.map] at h h' ⊢
    cases hs1 : cfg.steps (cfg.tot + cfg.mbs) (keepState keep s) with
    | error x => rw [hs1] at h; cases h
    | ok t1 =>
      cases hs2 : cfg.steps (cfg.tot + cfg.mbs) (keepState (fun s => !keep s) s) with
      | error x => rw [hs2] at h'; cases h'
      | ok t2 =>
        obtain ⟨t, ht⟩ := steps_join keep _ hs1 hs2
        have k1 := steps_keep keep _ ht
        have k2 := steps_keep (fun s => !keep s) _ ht
        rw [k1] at h
        rw [k2] at h'
        rw [ht]
        simp only [keepState] at h h' ⊢
        cases hd1 : dispatch cfg.diag cfg.plotNone (keepDiags keep t.diags) (keepEvents keep t.log) with
        | error x => rw [hd1] at h; cases h
        | ok r1 =>
          cases hd2 : dispatch cfg.diag cfg.plotNone (keepDiags (fun s => !keep s) t.diags) (keepEvents (fun s => !keep s) t.log) with
          | error x => rw [hd2] at h'; cases h'
          | ok r2 =>
            obtain ⟨⟨ds', log⟩, hd⟩ := dispatch_join keep (log := t.log) hd1 hd2
            rw [hd]
            exact ⟨_, rfl⟩

theorem runWith_init {srcs : String → S} {arr : A} {proc : P} {f0 : F} {ds : List (Diag D)} {fin : SimSt R F S A P D O}
    (h : cfg.runWith prep srcs arr proc f0 ds = .ok fin) : ∃ st, cfg.init srcs arr proc f0 ds = .ok st := by
  unfold SimCfg.runWith SimCfg.initWith at h
  cases hi : cfg.init srcs arr proc f0 ds with
  | error x => rw [hi] at h; cases h
  | ok st => exact ⟨st, rfl⟩

theorem runWith_names {srcs : String → S} {arr : A} {proc : P} {f0 : F} {ds : List (Diag D)} {fin : SimSt R F S A P D O}
    (h : cfg.runWith prep srcs arr proc f0 ds = .ok fin) : Names cfg := by
  obtain ⟨st, hi⟩ := runWith_init h
  exact names_of _ (init_nodup _ hi)

end

section
variable {R IR F S A A' P D O : Type} {hid : String → Bool} {cfg : SimCfg R IR F S A P D O} {upd : A' → Nat → Except PyErr A'}
  {path : A' → String → String → Except PyErr IR} {RA : A → A' → Prop} [Zero R] [Add R]
  {prep : P → Sigs R → Int → Except PyErr (P × Sigs R)}

theorem init_hide (h : Hidden hid cfg) (hc : CollRel hid cfg upd path RA) {Pd : D → Prop}
    {srcs : String → S} {arr : A} {arr' : A'} (ha : RA arr arr') {proc : P} {f0 : F}
    {ds : List (Diag D)} (hd : ∀ d ∈ ds, Pd d.data) {st : SimSt R F S A P D O}
    (h1 : cfg.init srcs arr proc f0 ds = .ok st) :
    ∃ st', (cfg.without hid upd path).init srcs arr' proc f0 ds = .ok st' ∧ StRel hid RA Pd st st' := by
  unfold SimCfg.init at h1 ⊢
  cases h2 : cfg.createSignals with
  | error x => rw [h2] at h1; cases h1
  | ok sig =>
    rw [h2] at h1
    obtain ⟨sig', h3, h4⟩ := createSignals_hide (upd := upd) (path := path) h h2
    rw [h3]
    dsimp only at h1 ⊢
    cases h5 : cfg.createFilters arr (fun _ _ => f0) with
    | error x => rw [h5] at h1; cases h1
    | ok fs =>
      rw [h5] at h1
      obtain ⟨fs', h6, h7⟩ := createFilters_hide h hc ha h5
      rw [h6]
      dsimp only at h1 ⊢
      cases h8 : cfg.prepare { sig := sig, srcs := srcs, filts := fs, arr := arr, proc := proc } with
      | error x => rw [h8] at h1; cases h1
      | ok e =>
        rw [h8] at h1
        obtain ⟨e', h9, h10⟩ := prepare_hide (upd := upd) (path := path) h
          (e' := { sig := sig', srcs := srcs, filts := fs', arr := arr', proc := proc }) (RA := RA)
          ⟨h4, rfl, h7, ha, rfl⟩ h8
        rw [h9]
        cases h1
        exact ⟨_, rfl, ⟨h10, rfl, rfl, rfl, rfl, hd⟩⟩

theorem runWith_hide (h : Hidden hid cfg) (hc : CollRel hid cfg upd path RA) (hprep : PrepIgnores hid prep) {Pd : D → Prop}
    (hb : Blind hid cfg.diag Pd) {srcs : String → S} {arr : A} {arr' : A'} (ha : RA arr arr') {proc : P} {f0 : F}
    {ds : List (Diag D)} (hd : ∀ d ∈ ds, Pd d.data) {fin : SimSt R F S A P D O}
    (hx : cfg.runWith prep srcs arr proc f0 ds = .ok fin) :
    ∃ fin', (cfg.without hid upd path).runWith prep srcs arr' proc f0 ds = .ok fin' ∧ StRel hid RA Pd fin fin' := by
  unfold SimCfg.runWith SimCfg.initWith at hx ⊢
  cases h1 : cfg.init srcs arr proc f0 ds with
  | error x => rw [h1] at hx; cases hx
  | ok st =>
    rw [h1] at hx
    obtain ⟨st', h2, hr⟩ := init_hide h hc ha hd h1
    rw [h2]
    dsimp only at hx ⊢
    cases h7 : prep st.eng.proc st.eng.sig st.idx with
    | error x => rw [h7] at hx; cases hx
    | ok r =>
      obtain ⟨p1, sig1⟩ := r
      rw [h7] at hx
      obtain ⟨sig1', h8, h9⟩ := hprep _ _ st'.eng.sig _ _ _ hr.eng.sig h7
      rw [← hr.eng.proc, ← hr.idx, h8]
      dsimp only at hx ⊢
      have e1 : (cfg.without hid upd path).tot + (cfg.without hid upd path).mbs = cfg.tot + cfg.mbs := rfl
      have e3 : (cfg.without hid upd path).diag = cfg.diag := rfl
      have e4 : (cfg.without hid upd path).plotNone = cfg.plotNone := rfl
      rw [e1, e3, e4]
      have hr' : StRel hid RA Pd { st with eng := { st.eng with proc := p1, sig := sig1 } }
          { st' with eng := { st'.eng with proc := p1, sig := sig1' } } :=
        ⟨⟨h9, hr.eng.srcs, hr.eng.filts, hr.eng.arr, rfl⟩, hr.idx, hr.n, hr.diags, hr.log, hr.data⟩
      cases h3 : cfg.steps (cfg.tot + cfg.mbs) { st with eng := { st.eng with proc := p1, sig := sig1 } } with
      | error x => rw [h3] at hx; cases hx
      | ok s =>
        rw [h3] at hx
        obtain ⟨s', h4, hr2⟩ := steps_hide (upd := upd) (path := path) h hc hb _ hr' h3
        rw [hr.idx, h4]
        dsimp only at hx ⊢
        rw [← hr2.diags, ← hr2.log]
        cases h6 : dispatch cfg.diag cfg.plotNone s.diags s.log with
        | error x => rw [h6] at hx; cases hx
        | ok r =>
          obtain ⟨ds', log⟩ := r
          rw [h6] at hx
          cases hx
          exact ⟨_, rfl, ⟨hr2.eng, hr2.idx, hr2.n, rfl, rfl, dispatch_data hr2.data h6⟩⟩

end

section
variable {R IR F F' S A A' P D O : Type} {hid : String → Bool} {dyn : String → Bool} {cfg : SimCfg R IR F S A P D O}
  {cfg' : SimCfg R IR F' S A' P D O} {RA : A → A' → Prop}

theorem Alike.runWith [Zero R] [Add R] {RF : String → String → F → F' → Prop} (H : Alike hid dyn cfg cfg' RA RF)
    {prep : P → Sigs R → Int → Except PyErr (P × Sigs R)} (hprep : PrepIgnores hid prep) {Pd : D → Prop}
    (hb : Blind hid cfg.diag Pd) {srcs : String → S} {arr : A} {arr' : A'} (ha : RA arr arr') {proc : P} {f0 : F} {f0' : F'}
    {ds : List (Diag D)} (hd : ∀ d ∈ ds, Pd d.data) {fin : SimSt R F S A P D O}
    (hx : cfg.runWith prep srcs arr proc f0 ds = .ok fin) :
    ∃ fin', cfg'.runWith prep srcs arr' proc f0' ds = .ok fin' ∧ StAlike hid cfg RA RF Pd fin fin' := by
  unfold SimCfg.runWith SimCfg.initWith at hx ⊢
  cases h1 : cfg.init srcs arr proc f0 ds with
  | error x => rw [h1] at hx; cases hx
  | ok st =>
    rw [h1] at hx
    obtain ⟨st', h2, hr⟩ := H.init ha (f0' := f0') hd h1
    rw [h2]
    dsimp only at hx ⊢
    cases h7 : prep st.eng.proc st.eng.sig st.idx with
    | error x => rw [h7] at hx; cases hx
    | ok r =>
      obtain ⟨p1, sig1⟩ := r
      rw [h7] at hx
      obtain ⟨sig1', h8, h9⟩ := hprep _ _ st'.eng.sig _ _ _ hr.eng.sig h7
      rw [← hr.eng.proc, ← hr.idx, h8]
      dsimp only at hx ⊢
      rw [H.mbs, H.tot, H.diag, H.plotNone]
      have hr' : StAlike hid cfg RA RF Pd { st with eng := { st.eng with proc := p1, sig := sig1 } }
          { st' with eng := { st'.eng with proc := p1, sig := sig1' } } :=
        ⟨⟨h9, hr.eng.srcs, hr.eng.filts, hr.eng.arr, rfl⟩, hr.idx, hr.n, hr.diags, hr.log, hr.data⟩
      cases h3 : cfg.steps (cfg.tot + cfg.mbs) { st with eng := { st.eng with proc := p1, sig := sig1 } } with
      | error x => rw [h3] at hx; cases hx
      | ok s =>
        rw [h3] at hx
        obtain ⟨s', h4, hr2⟩ := H.steps hb _ hr' h3
        rw [hr.idx, h4]
        dsimp only at hx ⊢
        rw [← hr2.diags, ← hr2.log]
        cases h6 : dispatch cfg.diag cfg.plotNone s.diags s.log with
        | error x => rw [h6] at hx; cases hx
        | ok r =>
          obtain ⟨ds', log⟩ := r
          rw [h6] at hx
          cases hx
          exact ⟨_, rfl, ⟨hr2.eng, hr2.idx, hr2.n, rfl, rfl, dispatch_data hr2.data h6⟩⟩

end

/-! ### the adaptive processors use four signals only -/

theorem sigGet_off {R : Type} {hid : String → Bool} {S S' : Sigs R} (h : SameOff hid S S') {k : String} (hk : hid k = false)
    (i j : Int) : sigGet S' k i j = sigGet S k i j := by
  unfold sigGet
  rw [h k hk]

section
variable {R : Type} [Field R] {hid : String → Bool}

theorem ancProcess_hide {bs : Nat} {f f1 : Fir R} {S S' S1 : Sigs R} {idx : Int} {a b : String} (h1 : hid a = false) (h2 : hid b = false)
    (h : SameOff hid S S') (hx : ancProcess a b bs f S idx = .ok (f1, S1)) :
    ∃ S1', ancProcess a b bs f S' idx = .ok (f1, S1') ∧ SameOff hid S1 S1' := by
  unfold ancProcess at hx ⊢
  rw [sigGet_off h h1]
  split at hx
  · cases hx
  · split at hx
    · cases hx
    · split at hx
      · cases hx
      · rename_i sig hs
        cases hx
        obtain ⟨sig', h3, h4⟩ := (sigAssign_hide h hs).1 h2
        rw [h3]
        exact ⟨_, rfl, h4⟩

theorem fxUpdateFilter_hide {q : FxPar R} {p p1 : FxSt R} {S S' S1 : Sigs R} {idx : Int} (h1 : hid "ref" = false)
    (h2 : hid "xf" = false) (h3 : hid "error" = false) (h : SameOff hid S S') (hx : fxUpdateFilter q p S idx = .ok (p1, S1)) :
    ∃ S1', fxUpdateFilter q p S' idx = .ok (p1, S1') ∧ SameOff hid S1 S1' := by
  unfold fxUpdateFilter at hx ⊢
  rw [sigGet_off h h1]
  split at hx
  · cases hx
  · rename_i hi
    rw [if_neg hi]
    split at hx
    · cases hx
    · split at hx
      · cases hx
      · split at hx
        · cases hx
        · rename_i sig hs
          obtain ⟨sig', h4, h5⟩ := (sigAssign_hide h hs).1 h2
          rw [h4]
          dsimp only at hx ⊢
          rw [← h5 _ h2, ← h5 _ h3]
          split at hx
          · split at hx
            · cases hx
            · cases hx
              exact ⟨_, rfl, h5⟩
          · cases hx

theorem fxPrepare_hide (h1 : hid "ref" = false) (h2 : hid "xf" = false) :
    PrepIgnores hid (fxPrepare : FxSt R → Sigs R → Int → Except PyErr (FxSt R × Sigs R)) := by
  intro x S S' i x1 S1 h hx
  unfold fxPrepare at hx ⊢
  rw [sigGet_off h h1]
  split at hx
  · cases hx
  · split at hx
    · cases hx
    · split at hx
      · cases hx
      · rename_i sig hs
        cases hx
        obtain ⟨sig', h3, h4⟩ := (sigAssign_hide h hs).1 h2
        rw [h3]
        exact ⟨_, rfl, h4⟩

theorem fxProc_ignores (q : FxPar R) (h1 : hid "ref" = false) (h2 : hid "xf" = false) (h3 : hid "error" = false)
    (h4 : hid "loudspeaker" = false) : (fxProc q).Ignores hid := by
  refine ⟨fun e he => ?_, ?_⟩
  · have : e = ("xf", q.nr * q.nl * q.ne) := by simpa [fxProc] using he
    rw [this]
    exact h2
  · intro x S S' i x1 S1 h hx
    change fxProcess q x S i = .ok (x1, S1) at hx
    change ∃ S1', fxProcess q x S' i = .ok (x1, S1') ∧ SameOff hid S1 S1'
    unfold fxProcess at hx ⊢
    cases ha : ancProcess "ref" "loudspeaker" q.bs x.ctrl S i with
    | error e => rw [ha] at hx; cases hx
    | ok r =>
      obtain ⟨f, sig⟩ := r
      rw [ha] at hx
      obtain ⟨sig', h5, h6⟩ := ancProcess_hide h1 h4 h ha
      rw [h5]
      dsimp only at hx ⊢
      by_cases hu : "update_filter" ∈ x.cnt.event
      · rw [if_pos hu] at hx ⊢
        cases hb : fxUpdateFilter q { x with ctrl := f } sig i with
        | error e => rw [hb] at hx; cases hx
        | ok r =>
          obtain ⟨p2, sig2⟩ := r
          rw [hb] at hx
          obtain ⟨sig2', h7, h8⟩ := fxUpdateFilter_hide h1 h2 h3 h6 hb
          rw [h7]
          dsimp only at hx ⊢
          split at hx
          · cases hx
          · cases hx
            exact ⟨_, rfl, h8⟩
      · rw [if_neg hu] at hx ⊢
        dsimp only at hx ⊢
        split at hx
        · cases hx
        · cases hx
          exact ⟨_, rfl, h6⟩

theorem fastUpdateFilter_hide {q : FxPar R} {p p1 : FastSt R} {S S' S1 : Sigs R} {idx : Int} (h1 : hid "ref" = false)
    (h2 : hid "xf" = false) (h3 : hid "error" = false) (h : SameOff hid S S') (hx : fastUpdateFilter q p S idx = .ok (p1, S1)) :
    ∃ S1', fastUpdateFilter q p S' idx = .ok (p1, S1') ∧ SameOff hid S1 S1' := by
  unfold fastUpdateFilter at hx ⊢
  rw [sigGet_off h h1]
  split at hx
  · cases hx
  · split at hx
    · cases hx
    · split at hx
      · cases hx
      · rename_i sig hs
        obtain ⟨sig', h4, h5⟩ := (sigAssign_hide h hs).1 h2
        rw [h4]
        dsimp only at hx ⊢
        rw [sigGet_off h5 h3, sigGet_off h5 h2, sigGet_off h5 h2]
        split at hx
        · split at hx
          · cases hx
          · cases hx
            exact ⟨_, rfl, h5⟩
        · cases hx

theorem fastPrepare_hide (q : FxPar R) (h1 : hid "ref" = false) (h2 : hid "xf" = false) : PrepIgnores hid (fastPrepare q) := by
  have step : ∀ (r r1 : FastSt R × Sigs R) (S' : Sigs R) (start : Nat), SameOff hid r.2 S' → fastPrepBlock q r start = .ok r1 →
      ∃ S1', fastPrepBlock q (r.1, S') start = .ok (r1.1, S1') ∧ SameOff hid r1.2 S1' := by
    intro r r1 S' start h hx
    unfold fastPrepBlock at hx ⊢
    rw [sigGet_off h h1]
    split at hx
    · cases hx
    · split at hx
      · cases hx
      · rename_i hos
        split at hx
        · cases hx
        · rename_i sig hs
          cases hx
          obtain ⟨sig', h3, h4⟩ := (sigAssign_hide h hs).1 h2
          dsimp only
          rw [hos]
          dsimp only
          rw [h3]
          exact ⟨_, rfl, h4⟩
  have fold : ∀ (l : List Nat) (r r1 : FastSt R × Sigs R) (S' : Sigs R), SameOff hid r.2 S' → l.foldlM (fastPrepBlock q) r = .ok r1 →
      ∃ S1', l.foldlM (fastPrepBlock q) (r.1, S') = .ok (r1.1, S1') ∧ SameOff hid r1.2 S1' := by
    intro l
    induction l with
    | nil =>
      intro r r1 S' h hx
      cases hx
      exact ⟨S', rfl, h⟩
    | cons a l ih =>
      intro r r1 S' h hx
      rw [List.foldlM_cons] at hx ⊢
      cases ha : fastPrepBlock q r a with
      | error e => rw [ha] at hx; cases hx
      | ok r2 =>
        rw [ha] at hx
        obtain ⟨S2, h3, h4⟩ := step r r2 S' a h ha
        rw [h3]
        exact ih r2 r1 S2 h4 hx
  intro x S S' i x1 S1 h hx
  exact fold _ (x, S) (x1, S1) S' h hx

theorem fastProc_ignores (q : FxPar R) (h1 : hid "ref" = false) (h2 : hid "xf" = false) (h3 : hid "error" = false)
    (h4 : hid "loudspeaker" = false) : (fastProc q).Ignores hid := by
  refine ⟨fun e he => ?_, ?_⟩
  · have : e = ("xf", q.nr * q.nl * q.ne) := by simpa [fastProc] using he
    rw [this]
    exact h2
  · intro x S S' i x1 S1 h hx
    change fastProcess q x S i = .ok (x1, S1) at hx
    change ∃ S1', fastProcess q x S' i = .ok (x1, S1') ∧ SameOff hid S1 S1'
    unfold fastProcess at hx ⊢
    cases ha : ancProcess "ref" "loudspeaker" q.bs x.ctrl S i with
    | error e => rw [ha] at hx; cases hx
    | ok r =>
      obtain ⟨f, sig⟩ := r
      rw [ha] at hx
      obtain ⟨sig', h5, h6⟩ := ancProcess_hide h1 h4 h ha
      rw [h5]
      dsimp only at hx ⊢
      by_cases hu : "update_filter" ∈ x.cnt.event
      · rw [if_pos hu] at hx ⊢
        cases hb : fastUpdateFilter q { x with ctrl := f } sig i with
        | error e => rw [hb] at hx; cases hx
        | ok r =>
          obtain ⟨p2, sig2⟩ := r
          rw [hb] at hx
          obtain ⟨sig2', h7, h8⟩ := fastUpdateFilter_hide h1 h2 h3 h6 hb
          rw [h7]
          dsimp only at hx ⊢
          split at hx
          · cases hx
          · cases hx
            exact ⟨_, rfl, h8⟩
      · rw [if_neg hu] at hx ⊢
        dsimp only at hx ⊢
        split at hx
        · cases hx
        · cases hx
          exact ⟨_, rfl, h6⟩

end

/-! ### simulations in a room without some microphones -/

theorem numOfArray_hide {Pt H G : Type} {hid : String → Bool} {okT : String → Prop} {gc gc' : G × Coll Pt H}
    (h : CRel hid okT gc gc') {nm : String} (hn : hid nm = false) : numOfArray gc'.2.arrays nm = numOfArray gc.2.arrays nm := by
  have := h.find hn
  unfold Coll.find at this
  unfold numOfArray
  rw [this]

theorem fxCreate_hide {Pt H G R : Type} {hid : String → Bool} {okT : String → Prop} {gc gc' : G × Coll Pt H}
    (h : CRel hid okT gc gc') (h1 : hid "ref" = false) (h2 : hid "error" = false) (h3 : hid "loudspeaker" = false)
    (bs ub L : Nat) (mu beta : R) (norm : FxNorm) :
    fxCreate gc'.2.arrays bs ub L mu beta norm = fxCreate gc.2.arrays bs ub L mu beta norm := by
  unfold fxCreate
  rw [numOfArray_hide h h1, numOfArray_hide h h2, numOfArray_hide h h3]

section
variable {F K R S P D O G : Type} [Field K] [LinearOrder K] [Zero R] [One R] [Add R]

theorem room_without {cfg : SimCfg R (IrMat R) F S (G × Coll (K × K × K) (IrMat R)) P D O} {ext : RoomExt K R G}
    {i : RoomInfo K} {g : G} {c : Coll (K × K × K) (IrMat R)} {M : List String} {par : K × Nat} {gc : G × Coll (K × K × K) (IrMat R)}
    (hc : c.Consistent) (hM : ∀ m ∈ M, m ∈ c.mics)
    (hrir : ∀ b g g' ss ms, (ext.rir b g ss ms).2 = (ext.rir b g' ss ms).2)
    (hrand : ∀ s m, m ∉ M → c.types s m ≠ some "random") (hx : roomSetup ext i g c = .ok (par, gc))
    (ea : cfg.arrays = c.infos) (eu : cfg.arrUpdate = Coll.update (createPath (i.cfg ext par))) (ep : cfg.arrPath = Coll.path)
    (hn : Names cfg) (hp : ∀ p, cfg.proc = some p → p.Ignores (signalOf cfg.contrib c.infos M)) :
    ∃ gc', roomSetup ext i g (c.without M) = .ok (par, gc') ∧ CRel M.contains (fun t => t ≠ "random") gc gc' ∧
      Hidden (signalOf cfg.contrib c.infos M) cfg ∧
      CollRel (signalOf cfg.contrib c.infos M) cfg (Coll.update (createPath (i.cfg ext par))) Coll.path
        (CRel (G := G) M.contains fun t => t ≠ "random") ∧
      (c.without M).infos = keptArrays (signalOf cfg.contrib c.infos M) cfg.arrays := by
  unfold roomSetup at hx ⊢
  cases hpar : i.parameters ext with
  | error x => rw [hpar] at hx; cases hx
  | ok par' =>
    rw [hpar] at hx
    dsimp only at hx ⊢
    cases hset : c.setupIr (createPath (i.cfg ext par')) g with
    | error x => rw [hset] at hx; cases hx
    | ok gc1 =>
      rw [hset] at hx
      cases hx
      have hst : Steady (createPath (i.cfg ext par)) fun t => t ≠ "random" :=
        createPath_steady fun g g' ss ms => hrir _ g g' _ _
      have hmics : ∀ m ∈ M, ∃ a ∈ c.arrays, a.kind = some .mic ∧ a.name = m := fun m hm => by
        rw [← hc.mem_mics]; exact hM m hm
      have hrel : CRel M.contains (fun t => t ≠ "random") (g, c) (g, c.without M) := by
        refine CRel.of_without _ ?_ ?_ ?_
        · intro a ha hm
          obtain ⟨b, hb, hk, he⟩ := hmics a.name (by simpa using hm)
          rw [← hc.inj hb ha he]
          exact hk
        · intro s hs
          cases h : M.contains s with
          | false => rfl
          | true => exact absurd hs (hc.disjoint (hM s (by simpa using h)))
        · intro s m t hm ht e
          exact hrand s m (by simpa using hm) (by rw [ht, e])
      obtain ⟨gc', hset', hrel'⟩ := setupIr_hide (gc := (g, c)) (gc' := (g, c.without M)) hst (by decide) hrel hset
      dsimp only at hset'
      rw [hset']
      refine ⟨gc', rfl, hrel', ?_, ?_, ?_⟩
      · have hMi : ∀ m ∈ M, ∃ a ∈ cfg.arrays, a.name = m := by
          intro m hm
          obtain ⟨a, ha, hk, he⟩ := hmics m hm
          rw [ea]
          exact ⟨⟨a.name, a.num, .mic, a.dynamic⟩, List.mem_filterMap.2 ⟨a, ha, by rw [hk]; rfl⟩, he⟩
        have hmic : ∀ a ∈ cfg.arrays, M.contains a.name = true → a.kind = .mic := by
          intro a ha hm
          rw [ea] at ha
          obtain ⟨b, hb, he⟩ := List.mem_filterMap.1 ha
          cases hk : b.kind with
          | none => rw [hk] at he; cases he
          | some k =>
            rw [hk] at he
            cases he
            have := hrel.mic b hb hm
            rw [hk] at this
            exact Option.some.inj this
        rw [← ea] at hp ⊢
        refine ⟨fun a ha hm => ?_, fun hcn p hp => ?_, fun p hpp q hq => (hp p hpp).1 q hq, fun p hpp => (hp p hpp).2⟩
        · rw [signalOf_array hn ha] at hm
          exact hmic a ha hm
        · rw [signalOf_contrib hn hMi hcn hp, signalOf_array hn (mem_combos_src hp).2.2]
      · refine ⟨fun a a' a1 n hr hu => ?_, fun a a' s m v hr hm hv => ?_⟩
        · exact update_hide hst hr (by rw [← hu, eu])
        · have hm' : M.contains m = false := by
            unfold signalOf at hm
            exact (Bool.or_eq_false_iff.1 hm).1
          rw [path_hide hr hm', ← hv, ep]
      · rw [infos_without, ← ea]
        unfold keptArrays
        exact List.filter_congr fun a ha => by rw [signalOf_array hn ha]

end

section
variable {F K R S P D O G : Type} [Field K] [LinearOrder K] [Field R]

theorem runWith_without {cfg : SimCfg R (IrMat R) F S (G × Coll (K × K × K) (IrMat R)) P D O} {ext : RoomExt K R G}
    {i : RoomInfo K} {g : G} {c : Coll (K × K × K) (IrMat R)} {M : List String} {par : K × Nat} {gc : G × Coll (K × K × K) (IrMat R)}
    (hc : c.Consistent) (hM : ∀ m ∈ M, m ∈ c.mics)
    (hrir : ∀ b g g' ss ms, (ext.rir b g ss ms).2 = (ext.rir b g' ss ms).2)
    (hrand : ∀ s m, m ∉ M → c.types s m ≠ some "random") (hset : roomSetup ext i g c = .ok (par, gc))
    (ea : cfg.arrays = c.infos) (eu : cfg.arrUpdate = Coll.update (createPath (i.cfg ext par))) (ep : cfg.arrPath = Coll.path)
    (hp : ∀ p, cfg.proc = some p → p.Ignores (signalOf cfg.contrib c.infos M))
    {prep : P → Sigs R → Int → Except PyErr (P × Sigs R)} (hprep : PrepIgnores (signalOf cfg.contrib c.infos M) prep)
    {Pd : D → Prop} (hb : Blind (signalOf cfg.contrib c.infos M) cfg.diag Pd) (keep : String → Bool) {ds : List (Diag D)}
    (hd : ∀ d ∈ ds, keep d.name = true → Pd d.data) {srcs : String → S} {proc : P} {f0 : F}
    {fin : SimSt R F S (G × Coll (K × K × K) (IrMat R)) P D O} (hx : cfg.runWith prep srcs gc proc f0 ds = .ok fin) :
    ∃ gc', roomSetup ext i g (c.without M) = .ok (par, gc') ∧ CRel M.contains (fun t => t ≠ "random") gc gc' ∧
      ∃ fin', { cfg with arrays := (c.without M).infos }.runWith prep srcs gc' proc f0 (ds.filter fun d => keep d.name) = .ok fin' ∧
        SameBut (signalOf cfg.contrib c.infos M) M keep fin fin' := by
  obtain ⟨gc', h1, h2, h3, h4, h5⟩ := room_without hc hM hrir hrand hset ea eu ep (runWith_names hx) hp
  have hk := runWith_keep keep _ _ _ _ _ hx
  obtain ⟨fin', h6, h7⟩ := runWith_hide h3 h4 hprep hb h2 (fun d hd' => by
    have := List.mem_filter.1 hd'
    exact hd d this.1 (by simpa using this.2)) hk
  refine ⟨gc', h1, h2, fin', ?_, ?_⟩
  · rw [← h6, h5]
    congr 1
    unfold SimCfg.without
    rw [eu, ep]
  · exact ⟨fun k hk => (h7.eng.sig k hk).symm, fun s m hm => (h7.eng.filts s m hm).symm,
      fun s m hm => (h7.eng.arr.paths s m (by simpa using hm)).symm, h7.eng.srcs.symm, h7.eng.proc.symm, h7.idx.symm,
      h7.n.symm, h7.diags.symm, h7.log.symm⟩

end
end Verif

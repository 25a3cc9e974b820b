/-
The same diagnostics on two processors in the main loop.
-/
import Verif.Spec.SameDiag
import Verif.Lemmas.WithProc
namespace Verif

section
variable {R P P' V : Type} [Field R] {K : P → P' → Prop}

theorem DData.Same.save {d d1 : DData R P V} {d' : DData R P' V} (h : d.Same K d') {p : P} {p' : P'} (hK : K p p')
    {sig : Sigs R} {c g : Int × Int} (hs : d.save (some p) sig c g = .ok d1) :
    ∃ d1', d'.save (some p') sig c g = .ok d1' ∧ d1.Same K d1' := by
  cases h with
  | recSignal s ch m =>
    unfold DData.save at hs ⊢
    dsimp only at hs ⊢
    split at hs
    · cases hs
    · split at hs
      · cases hs
      · cases hs; exact ⟨_, rfl, .recSignal ..⟩
  | recState get get' v t i hg =>
    unfold DData.save at hs ⊢
    dsimp only at hs ⊢
    rw [hg _ _ hK]
    cases hgp : get p with
    | error x =>
      rw [hgp] at hs
      dsimp only at hs
      split_ifs at hs
    | ok w =>
      rw [hgp] at hs
      dsimp only at hs ⊢
      split_ifs at hs ⊢
      split at hs
      · cases hs
      · cases hs; exact ⟨_, rfl, .recState _ _ _ _ _ hg⟩
  | power s ch m =>
    unfold DData.save at hs ⊢
    dsimp only at hs ⊢
    split at hs
    · cases hs
    · split at hs
      · cases hs
      · cases hs; exact ⟨_, rfl, .power ..⟩
  | ratio a ca b cb q v =>
    unfold DData.save at hs ⊢
    dsimp only at hs ⊢
    split at hs
    · cases hs
    · cases hs
    · split_ifs at hs ⊢
      split at hs
      · cases hs
      · cases hs; exact ⟨_, rfl, .ratio ..⟩
  | instant get get' v hg =>
    unfold DData.save at hs ⊢
    dsimp only at hs ⊢
    rw [hg _ _ hK]
    split at hs
    · cases hs
    · cases hs; exact ⟨_, rfl, .instant _ _ _ hg⟩
  | sfPower s q pw =>
    unfold DData.save at hs ⊢
    dsimp only at hs ⊢
    split at hs
    · cases hs
    · split at hs
      · cases hs
      · cases hs; exact ⟨_, rfl, .sfPower ..⟩
  | spectrum s ch w m k =>
    unfold DData.save at hs ⊢
    dsimp only at hs ⊢
    split at hs
    · cases hs
    · split at hs
      · cases hs
      · cases hs; exact ⟨_, rfl, .spectrum ..⟩
  | summary s f q y =>
    unfold DData.save at hs ⊢
    dsimp only at hs ⊢
    split at hs
    · cases hs
    · split at hs
      · cases hs
      · split_ifs at hs ⊢
        cases hs; exact ⟨_, rfl, .summary ..⟩

theorem DData.Same.output [DecidableEq R] {d : DData R P V} {d' : DData R P' V} (h : d.Same K d') (e : Int) :
    d'.output e = d.output e := by
  cases h <;> rfl

variable [DecidableEq R]

theorem Diag.Same.saveOne {d d1 : Diag (DData R P V)} {d' : Diag (DData R P' V)} (h : d.Same K d') {p : P} {p' : P'}
    (hK : K p p') {sig : Sigs R} {idx glob : Int} {last : Bool}
    (hs : saveOne (diagOps R P V) (some p) sig idx glob last d = .ok d1) :
    ∃ d1', Verif.saveOne (diagOps R P' V) (some p') sig idx glob last d' = .ok d1' ∧ d1.Same K d1' := by
  obtain ⟨h1, h2, h3, h4⟩ := h
  unfold Verif.saveOne at hs ⊢
  rw [h2]
  split at hs
  · dsimp only at hs ⊢
    split_ifs at hs ⊢
    · split at hs
      · cases hs
      · rename_i dd hdd
        split at hs
        · cases hs
        · rename_i cc hcc
          cases hs
          obtain ⟨dd', i1, i2⟩ := h4.save hK hdd
          have i1' : (diagOps R P' V).save d'.data (some p') sig _ _ = .ok dd' := i1
          rw [i1']
          exact ⟨_, rfl, h1, rfl, h3, i2⟩
    · split at hs
      · cases hs
      · rename_i dd hdd
        split at hs
        · cases hs
        · rename_i cc hcc
          cases hs
          obtain ⟨dd', i1, i2⟩ := h4.save hK hdd
          have i1' : (diagOps R P' V).save d'.data (some p') sig _ _ = .ok dd' := i1
          rw [i1']
          exact ⟨_, rfl, h1, rfl, h3, i2⟩
    · cases hs
      exact ⟨d', rfl, h1, h2, h3, h4⟩
  · split_ifs at hs ⊢
    · split at hs
      · cases hs
      · rename_i dd hdd
        split at hs
        · cases hs
        · rename_i cc hcc
          cases hs
          obtain ⟨dd', i1, i2⟩ := h4.save hK hdd
          have i1' : (diagOps R P' V).save d'.data (some p') sig _ _ = .ok dd' := i1
          rw [i1']
          exact ⟨_, rfl, h1, rfl, h3, i2⟩
    · cases hs
      exact ⟨d', rfl, h1, h2, h3, h4⟩
  · cases hs
    exact ⟨d', rfl, h1, h2, h3, h4⟩

theorem same_saveData {p : P} {p' : P'} (hK : K p p') {sig : Sigs R} {idx glob : Int} {last : Bool} :
    ∀ {ds : List (Diag (DData R P V))} {ds' : List (Diag (DData R P' V))}, List.Forall₂ (Diag.Same K) ds ds' →
    ∀ {ds1}, saveData (diagOps R P V) (some p) sig idx glob last ds = .ok ds1 →
    ∃ ds1', saveData (diagOps R P' V) (some p') sig idx glob last ds' = .ok ds1' ∧ List.Forall₂ (Diag.Same K) ds1 ds1' := by
  intro ds ds' h
  induction h with
  | nil => intro ds1 hs; cases hs; exact ⟨[], rfl, .nil⟩
  | cons h1 _ ih =>
    intro ds1 hs
    unfold saveData at hs ⊢
    rw [List.mapM_cons] at hs ⊢
    cases hd : saveOne (diagOps R P V) (some p) sig idx glob last _ with
    | error x => rw [hd] at hs; cases hs
    | ok d1 =>
      rw [hd] at hs
      obtain ⟨d1', i1, i2⟩ := h1.saveOne hK hd
      rw [i1]
      cases hr : List.mapM (saveOne (diagOps R P V) (some p) sig idx glob last) _ with
      | error x => erw [hr] at hs; cases hs
      | ok r =>
        erw [hr] at hs
        cases hs
        obtain ⟨r', j1, j2⟩ := ih hr
        unfold saveData at j1
        rw [show (Except.ok d1' >>= fun (b : Diag (DData R P' V)) => _) = _ from rfl]
        erw [j1]
        exact ⟨_, rfl, .cons i2 j2⟩

omit [Field R] [DecidableEq R] in
theorem Diag.Same.ready {d : Diag (DData R P V)} {d' : Diag (DData R P' V)} (h : d.Same K d') : d'.ready = d.ready := by
  obtain ⟨_, h2, h3, _⟩ := h
  unfold Diag.ready
  rw [h2, h3]

theorem same_exportRound : ∀ {ds : List (Diag (DData R P V))} {ds' : List (Diag (DData R P' V))},
    List.Forall₂ (Diag.Same K) ds ds' → ∀ {r}, exportRound (diagOps R P V) ds = .ok r →
    ∃ ds1', exportRound (diagOps R P' V) ds' = .ok (ds1', r.2) ∧ List.Forall₂ (Diag.Same K) r.1 ds1' := by
  intro ds ds' h
  induction h with
  | nil => intro r hs; cases hs; exact ⟨[], rfl, .nil⟩
  | @cons d d' l l' h1 _ ih =>
    intro r hs
    unfold exportRound at hs ⊢
    have hone : ∀ {x}, exportOne (diagOps R P V) d = .ok x →
        ∃ y, exportOne (diagOps R P' V) d' = .ok (y, x.2) ∧ x.1.Same K y := by
      intro x hx
      unfold exportOne at hx ⊢
      rw [h1.ready]
      have h1' := h1
      obtain ⟨g1, g2, g3, g4⟩ := h1'
      split_ifs at hx ⊢
      · rw [g3]
        split at hx
        · cases hx
        · rw [show (diagOps R P' V).output d'.data _ = (diagOps R P V).output d.data _ from g4.output _]
          split at hx
          · cases hx
          · cases hx
            dsimp only
            rw [g1]
            exact ⟨_, rfl, rfl, g2, rfl, g4⟩
      · cases hx
        exact ⟨_, rfl, h1⟩
    split at hs
    · cases hs
    · rename_i x hx
      obtain ⟨y, i1, i2⟩ := hone hx
      rw [i1]
      dsimp only at hs ⊢
      split at hs
      · cases hs
      · rename_i z hz
        obtain ⟨l1, j1, j2⟩ := ih hz
        rw [j1]
        cases hs
        exact ⟨_, rfl, .cons i2 j2⟩

omit [Field R] [DecidableEq R] in
theorem same_any {ds : List (Diag (DData R P V))} {ds' : List (Diag (DData R P' V))}
    (h : List.Forall₂ (Diag.Same K) ds ds') : ds'.any Diag.ready = ds.any Diag.ready := by
  induction h with
  | nil => rfl
  | cons h1 _ ih => rw [List.any_cons, List.any_cons, ih, h1.ready]

omit [Field R] [DecidableEq R] in
theorem same_remaining {ds : List (Diag (DData R P V))} {ds' : List (Diag (DData R P' V))}
    (h : List.Forall₂ (Diag.Same K) ds ds') :
    ds'.map (fun d => d.exportAt.remaining) = ds.map fun d => d.exportAt.remaining := by
  induction h with
  | nil => rfl
  | cons h1 _ ih => rw [List.map_cons, List.map_cons, ih, h1.2.2.1]

theorem same_dispatchLoop : ∀ (fuel : Nat) {ds : List (Diag (DData R P V))} {ds' : List (Diag (DData R P' V))}
    {log : List (Event (DOut R V))}, List.Forall₂ (Diag.Same K) ds ds' →
    ∀ {r}, dispatchLoop (diagOps R P V) fuel ds log = .ok r →
    ∃ ds1', dispatchLoop (diagOps R P' V) fuel ds' log = .ok (ds1', r.2) ∧ List.Forall₂ (Diag.Same K) r.1 ds1'
  | 0, ds, ds', log, h, r, hs => by
    unfold dispatchLoop at hs ⊢
    rw [same_any h]
    split_ifs at hs ⊢
    cases hs
    exact ⟨_, rfl, h⟩
  | fuel + 1, ds, ds', log, h, r, hs => by
    unfold dispatchLoop at hs ⊢
    rw [same_any h]
    split_ifs at hs ⊢
    · split at hs
      · cases hs
      · rename_i x hx
        obtain ⟨l1, i1, i2⟩ := same_exportRound h hx
        rw [i1]
        exact same_dispatchLoop fuel i2 hs
    · cases hs
      exact ⟨_, rfl, h⟩

theorem same_dispatch {plotNone : Bool} {ds : List (Diag (DData R P V))} {ds' : List (Diag (DData R P' V))}
    {log : List (Event (DOut R V))} (h : List.Forall₂ (Diag.Same K) ds ds') {r}
    (hs : dispatch (diagOps R P V) plotNone ds log = .ok r) :
    ∃ ds1', dispatch (diagOps R P' V) plotNone ds' log = .ok (ds1', r.2) ∧ List.Forall₂ (Diag.Same K) r.1 ds1' := by
  unfold dispatch at hs ⊢
  split_ifs at hs ⊢
  · cases hs
    exact ⟨_, rfl, h⟩
  · rw [same_remaining h]
    exact same_dispatchLoop _ h hs

end

section
variable {R IR F S A P P' V : Type} [Field R] [DecidableEq R] {K : P → P' → Prop}
  {cfg : SimCfg R IR F S A P (DData R P V) (DOut R V)}

/-- Two simulations that differ in the processor, at the same point. -/
structure SameState (K : P → P' → Prop) (st : SimSt R F S A P (DData R P V) (DOut R V))
    (st' : SimSt R F S A P' (DData R P' V) (DOut R V)) : Prop where
  eng : ∃ p', st'.eng = st.eng.setProc p' ∧ K st.eng.proc p'
  idx : st'.idx = st.idx
  n : st'.n = st.n
  log : st'.log = st.log
  diags : List.Forall₂ (Diag.Same K) st.diags st'.diags

theorem same_step {pr : Proc R P} {pr' : Proc R P'} (hp : cfg.proc = some pr) (hbs : pr'.bs = pr.bs)
    (hdiag : cfg.diag = diagOps R P V) {st st1 : SimSt R F S A P (DData R P V) (DOut R V)}
    {st' : SimSt R F S A P' (DData R P' V) (DOut R V)} (h : SameState K st st')
    (he : ∀ p' e, K st.eng.proc p' → cfg.engine st.n st.idx st.eng = .ok e →
      ∃ p'', (cfg.withProc (some pr') (diagOps R P' V)).engine st.n st.idx (st.eng.setProc p') = .ok (e.setProc p'') ∧ K e.proc p'')
    (hs : cfg.step st = .ok st1) :
    ∃ st1', (cfg.withProc (some pr') (diagOps R P' V)).step st' = .ok st1' ∧ SameState K st1 st1' := by
  obtain ⟨⟨p', hp1, hp2⟩, hidx, hn, hlog, hds⟩ := h
  have hlast : (cfg.withProc (some pr') (diagOps R P' V)).lastBlock st.idx = cfg.lastBlock st.idx := by
    have hm : (cfg.withProc (some pr') (diagOps R P' V)).mbs = cfg.mbs := by
      unfold SimCfg.mbs
      rw [hp]
      exact hbs
    unfold SimCfg.lastBlock
    rw [hm]
    rfl
  unfold SimCfg.step at hs ⊢
  cases hE : cfg.engine st.n st.idx st.eng with
  | error x => rw [hE] at hs; cases hs
  | ok e =>
    obtain ⟨p'', i1, i2⟩ := he p' e hp2 hE
    rw [hE] at hs
    rw [hn, hidx, hp1, i1]
    dsimp only at hs ⊢
    rw [hp, hdiag] at hs
    rw [hlast]
    cases hsv : saveData (diagOps R P V) (if (some pr).isSome then some e.proc else none) e.sig st.idx st.n
        (cfg.lastBlock st.idx) st.diags with
    | error x => rw [hsv] at hs; cases hs
    | ok ds =>
      rw [hsv] at hs
      obtain ⟨ds', j1, j2⟩ := same_saveData (p := e.proc) (p' := p'') i2 hds hsv
      have j1' : saveData (cfg.withProc (some pr') (diagOps R P' V)).diag
          (if (cfg.withProc (some pr') (diagOps R P' V)).proc.isSome then some (e.setProc p'').proc else none)
          (e.setProc p'').sig st.idx st.n (cfg.lastBlock st.idx) st'.diags = .ok ds' := j1
      rw [j1']
      dsimp only at hs ⊢
      split at hs
      · cases hs
      · rename_i ds2 log2 hd
        obtain ⟨ds3, k1, k2⟩ := same_dispatch j2 hd
        have k1' : dispatch (cfg.withProc (some pr') (diagOps R P' V)).diag (cfg.withProc (some pr') (diagOps R P' V)).plotNone
            ds' st'.log = .ok (ds3, log2) := by rw [hlog]; exact k1
        rw [k1']
        simp only [Except.ok.injEq] at hs
        subst hs
        refine ⟨_, rfl, ⟨p'', ?_, ?_⟩, ?_, ?_, rfl, k2⟩
        · dsimp only
          split <;> rfl
        · dsimp only
          split <;> exact i2
        · rfl
        · rfl

end
end Verif

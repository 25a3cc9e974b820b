import Verif.Spec.Trace
import Verif.Lemmas.Produced

namespace Verif

section
variable {R IR F S A P D O : Type} (cfg : SimCfg R IR F S A P D O)

theorem stepSource_forget (i : Int) (e : Eng (Sigs R) F S A (P × List (Call R))) (a : ArrInfo) :
    cfg.stepSource i e.forget a = (cfg.traced.stepSource i e a).map Eng.forget := by
  unfold SimCfg.stepSource
  dsimp only [SimCfg.traced, Eng.forget]
  cases cfg.srcGet (e.srcs a.name) 1 with
  | error x => rfl
  | ok r =>
    dsimp only
    cases sigAssign e.sig a.name i (i + 1) r.2 <;> rfl

theorem stepUpdate_forget (e : Eng (Sigs R) F S A (P × List (Call R))) (p : ArrInfo × ArrInfo) :
    cfg.stepUpdate e.forget p = (cfg.traced.stepUpdate e p).map Eng.forget := by
  unfold SimCfg.stepUpdate
  dsimp only [SimCfg.traced, Eng.forget]
  split_ifs
  · cases cfg.arrPath e.arr p.1.name p.2.name with
    | error x => rfl
    | ok ir =>
      dsimp only
      cases cfg.filt.updateIr (e.filts p.1.name p.2.name) ir <;> rfl
  · rfl

theorem stepPair_forget [Add R] (i : Int) (e : Eng (Sigs R) F S A (P × List (Call R)))
    (p : ArrInfo × ArrInfo) :
    cfg.stepPair i e.forget p = (cfg.traced.stepPair i e p).map Eng.forget := by
  unfold SimCfg.stepPair
  dsimp only [SimCfg.traced, Eng.forget]
  cases sigGet e.sig p.1.name i (i + 1) with
  | error x => rfl
  | ok x =>
    dsimp only
    cases cfg.filt.process (e.filts p.1.name p.2.name) x with
    | error x => rfl
    | ok r =>
      dsimp only
      cases sigAdd e.sig p.2.name i (i + 1) r.2 with
      | error x => rfl
      | ok sig =>
        dsimp only
        by_cases hc : cfg.contrib = true
        · simp only [hc, ↓reduceIte]
          cases sigAssign sig (contribName p.1 p.2) i (i + 1) r.2 <;> rfl
        · simp only [hc]
          rfl

theorem propagate_forget [Add R] (i : Int) (e : Eng (Sigs R) F S A (P × List (Call R))) :
    cfg.propagate i e.forget = (cfg.traced.propagate i e).map Eng.forget := by
  unfold SimCfg.propagate
  have h1 := foldlM_map Eng.forget (cfg.stepSource i) (cfg.traced.stepSource i) (freeOf cfg.arrays) e
    (fun t x _ => stepSource_forget cfg i t x)
  rw [h1, show cfg.traced.arrays = cfg.arrays from rfl]
  cases (freeOf cfg.arrays).foldlM (cfg.traced.stepSource i) e with
  | error x => rfl
  | ok e1 =>
    dsimp only [Except.map]
    have h2 := foldlM_map Eng.forget cfg.stepUpdate cfg.traced.stepUpdate (combosOf cfg.arrays) e1
      (fun t x _ => stepUpdate_forget cfg t x)
    rw [h2]
    cases (combosOf cfg.arrays).foldlM cfg.traced.stepUpdate e1 with
    | error x => rfl
    | ok e2 =>
      dsimp only [Except.map]
      exact foldlM_map Eng.forget (cfg.stepPair i) (cfg.traced.stepPair i) (combosOf cfg.arrays) e2
        (fun t x _ => stepPair_forget cfg i t x)

theorem callProc_forget (n : Nat) (i : Int) (e : Eng (Sigs R) F S A (P × List (Call R))) :
    cfg.callProc n i e.forget = (cfg.traced.callProc n i e).map Eng.forget := by
  unfold SimCfg.callProc
  dsimp only [SimCfg.traced]
  cases cfg.proc with
  | none => rfl
  | some p =>
    dsimp only [Option.map_some, Proc.traced, Eng.forget]
    split_ifs
    · rfl
    · cases p.process e.proc.1 e.sig i <;> rfl
    · rfl

theorem engine_forget [Add R] (n : Nat) (i : Int) (e : Eng (Sigs R) F S A (P × List (Call R))) :
    cfg.engine n i e.forget = (cfg.traced.engine n i e).map Eng.forget := by
  unfold SimCfg.engine
  rw [show cfg.traced.arrUpdate = cfg.arrUpdate from rfl, show e.forget.arr = e.arr from rfl]
  cases cfg.arrUpdate e.arr n with
  | error x => rfl
  | ok arr =>
    dsimp only
    have h := callProc_forget cfg n i { e with arr := arr }
    rw [show (Eng.forget { e with arr := arr }) = { e.forget with arr := arr } from rfl] at h
    rw [h]
    cases cfg.traced.callProc n i { e with arr := arr } with
    | error x => rfl
    | ok e1 => exact propagate_forget cfg i e1

/-- Wrapping the processor does not change the simulation. -/
theorem step_forget [Zero R] [Add R] (st : SimSt R F S A (P × List (Call R)) D O) :
    cfg.step st.forget = (cfg.traced.step st).map SimSt.forget := by
  unfold SimCfg.step
  have h := engine_forget cfg st.n st.idx st.eng
  rw [show st.forget.n = st.n from rfl, show st.forget.idx = st.idx from rfl,
    show st.forget.eng = st.eng.forget from rfl, h]
  cases cfg.traced.engine st.n st.idx st.eng with
  | error x => rfl
  | ok e =>
    simp only [Except.map]
    have hb : cfg.traced.lastBlock st.idx = cfg.lastBlock st.idx := by
      have hm : cfg.traced.mbs = cfg.mbs := by
        unfold SimCfg.mbs
        dsimp only [SimCfg.traced]
        cases cfg.proc <;> rfl
      unfold SimCfg.lastBlock
      rw [hm]
      rfl
    have hsave : ∀ ds, saveData cfg.traced.diag (if cfg.traced.proc.isSome then some e.proc else none)
        e.sig st.idx st.n (cfg.lastBlock st.idx) ds =
        saveData cfg.diag (if cfg.proc.isSome then some e.forget.proc else none)
        e.forget.sig st.idx st.n (cfg.lastBlock st.idx) ds := by
      intro ds
      unfold saveData
      congr 1
      funext d
      unfold saveOne
      have : ∀ a b, cfg.traced.diag.save d.data (if cfg.traced.proc.isSome then some e.proc else none)
          e.sig a b = cfg.diag.save d.data (if cfg.proc.isSome then some e.forget.proc else none)
          e.forget.sig a b := by
        intro a b
        show cfg.diag.save d.data (Option.map Prod.fst (if (cfg.proc.map Proc.traced).isSome then _ else _))
          e.sig a b = _
        cases cfg.proc <;> rfl
      simp only [this]
    rw [hb, hsave]
    rw [show st.forget.diags = st.diags from rfl, show st.forget.log = st.log from rfl]
    cases saveData cfg.diag (if cfg.proc.isSome then some e.forget.proc else none)
        e.forget.sig st.idx st.n (cfg.lastBlock st.idx) st.diags with
    | error x => rfl
    | ok ds =>
      simp only
      have hdisp : dispatch cfg.traced.diag cfg.traced.plotNone ds st.log =
          dispatch cfg.diag cfg.plotNone ds st.log := by
        unfold dispatch
        show (if cfg.plotNone then _ else _) = _
        split_ifs
        · rfl
        · have hround : ∀ ds : List (Diag D), exportRound cfg.traced.diag ds = exportRound cfg.diag ds := by
            intro ds
            induction ds with
            | nil => rfl
            | cons d ds ih =>
              unfold exportRound
              rw [ih]
              rfl
          have : ∀ fuel (ds : List (Diag D)) (log : List (Event O)),
              dispatchLoop cfg.traced.diag fuel ds log = dispatchLoop cfg.diag fuel ds log := by
            intro fuel
            induction fuel with
            | zero => intro ds log; rfl
            | succ f ih =>
              intro ds log
              unfold dispatchLoop
              rw [hround]
              split_ifs
              · cases exportRound cfg.diag ds with
                | error x => rfl
                | ok r => exact ih _ _
              · rfl
          exact this _ _ _
      rw [hdisp]
      cases dispatch cfg.diag cfg.plotNone ds st.log with
      | error x => rfl
      | ok r =>
        simp only
        show Except.ok _ = Except.ok _
        congr 1
        unfold SimSt.forget
        simp only
        congr 1
        cases cfg.lastBlock st.idx <;> rfl

theorem steps_forget [Zero R] [Add R] (st : SimSt R F S A (P × List (Call R)) D O) :
    ∀ k, cfg.steps k st.forget = (cfg.traced.steps k st).map SimSt.forget
  | 0 => rfl
  | k + 1 => by
    simp only [SimCfg.steps]
    rw [steps_forget st k]
    cases cfg.traced.steps k st with
    | error x => rfl
    | ok st' => exact step_forget cfg st'

theorem prepSource_forget (num : Nat) (e : Eng (Sigs R) F S A (P × List (Call R))) (a : ArrInfo) :
    cfg.prepSource num e.forget a = (cfg.traced.prepSource num e a).map Eng.forget := by
  unfold SimCfg.prepSource
  dsimp only [SimCfg.traced, Eng.forget]
  cases cfg.srcGet (e.srcs a.name) num with
  | error x => rfl
  | ok r =>
    dsimp only
    cases sigAssign e.sig a.name ((cfg.B : Int) - num) cfg.B r.2 <;> rfl

theorem prepPair_forget [Add R] (num : Nat) (e : Eng (Sigs R) F S A (P × List (Call R)))
    (p : ArrInfo × ArrInfo) :
    cfg.prepPair num e.forget p = (cfg.traced.prepPair num e p).map Eng.forget := by
  unfold SimCfg.prepPair
  dsimp only [SimCfg.traced, Eng.forget]
  cases sigGet e.sig p.1.name ((cfg.B : Int) - num) cfg.B with
  | error x => rfl
  | ok x =>
    dsimp only
    cases cfg.filt.process (e.filts p.1.name p.2.name) x with
    | error x => rfl
    | ok r =>
      dsimp only
      cases sigAdd e.sig p.2.name 0 cfg.B r.2 with
      | error x => rfl
      | ok sig =>
        dsimp only
        by_cases hc : cfg.contrib = true
        · simp only [hc, ↓reduceIte]
          cases sigAssign sig (contribName p.1 p.2) ((cfg.B : Int) - num) cfg.B r.2 <;> rfl
        · simp only [hc]
          rfl

theorem prepare_forget [Add R] (e : Eng (Sigs R) F S A (P × List (Call R))) :
    cfg.prepare e.forget = (cfg.traced.prepare e).map Eng.forget := by
  unfold SimCfg.prepare
  have h1 := foldlM_map Eng.forget (cfg.prepSource cfg.prepNum) (cfg.traced.prepSource cfg.prepNum)
    (freeOf cfg.arrays) e (fun t x _ => prepSource_forget cfg _ t x)
  rw [h1, show cfg.traced.arrays = cfg.arrays from rfl,
    show cfg.traced.prepNum = cfg.prepNum from rfl]
  cases (freeOf cfg.arrays).foldlM (cfg.traced.prepSource cfg.prepNum) e with
  | error x => rfl
  | ok e1 =>
    dsimp only [Except.map]
    exact foldlM_map Eng.forget (cfg.prepPair cfg.prepNum) (cfg.traced.prepPair cfg.prepNum)
      (combosOf cfg.arrays) e1 (fun t x _ => prepPair_forget cfg _ t x)

theorem init_forget [Zero R] [Add R] (srcs : String → S) (arr : A) (proc : P) (f0 : F)
    (ds : List (Diag D)) :
    cfg.init srcs arr proc f0 ds = (cfg.traced.init srcs arr (proc, []) f0 ds).map SimSt.forget := by
  unfold SimCfg.init
  have hs : cfg.traced.createSignals = cfg.createSignals := by
    unfold SimCfg.createSignals
    have : cfg.traced.signalList = cfg.signalList := by
      unfold SimCfg.signalList
      dsimp only [SimCfg.traced]
      cases cfg.proc <;> rfl
    rw [this]; rfl
  have hf : cfg.traced.createFilters arr (fun _ _ => f0) = cfg.createFilters arr (fun _ _ => f0) := rfl
  rw [hs, hf]
  cases cfg.createSignals with
  | error x => rfl
  | ok sig =>
    simp only
    cases cfg.createFilters arr (fun _ _ => f0) with
    | error x => rfl
    | ok fs =>
      simp only
      have h := prepare_forget cfg
        { sig := sig, srcs := srcs, filts := fs, arr := arr, proc := (proc, []) }
      rw [show Eng.forget { sig := sig, srcs := srcs, filts := fs, arr := arr, proc := (proc, []) } =
        ({ sig := sig, srcs := srcs, filts := fs, arr := arr, proc := proc } : Eng (Sigs R) F S A P)
        from rfl] at h
      rw [h]
      cases cfg.traced.prepare
        { sig := sig, srcs := srcs, filts := fs, arr := arr, proc := (proc, []) } <;> rfl

/-! ### the notes -/

theorem foldlM_proc {Sg : Type} {γ : Type} {P' : Type}
    (step : Eng Sg F S A P' → γ → Except PyErr (Eng Sg F S A P'))
    (H : ∀ e x e', step e x = .ok e' → e'.proc = e.proc) (l : List γ) {e e' : Eng Sg F S A P'}
    (h : l.foldlM step e = .ok e') : e'.proc = e.proc :=
  foldlM_inv (fun x => x.proc = e.proc) step l e e'
    (fun t x t' _ hI hs => (H t x t' hs).trans hI) rfl h

theorem propagate_proc [Add R] {i : Int} {e e' : Eng (Sigs R) F S A P}
    (h : cfg.propagate i e = .ok e') : e'.proc = e.proc := by
  unfold SimCfg.propagate at h
  split at h
  · cases h
  · rename_i e1 h1
    split at h
    · cases h
    · rename_i e2 h2
      have a1 := foldlM_proc (cfg.stepSource i) (by
        intro e x e' hs
        unfold SimCfg.stepSource at hs
        split at hs
        · cases hs
        · split at hs
          · cases hs
          · cases hs; rfl) _ h1
      have a2 := foldlM_proc cfg.stepUpdate (by
        intro e x e' hs
        unfold SimCfg.stepUpdate at hs
        split at hs
        · split at hs
          · cases hs
          · split at hs
            · cases hs
            · cases hs; rfl
        · cases hs; rfl) _ h2
      have a3 := foldlM_proc (cfg.stepPair i) (by
        intro e x e' hs
        unfold SimCfg.stepPair at hs
        split at hs
        · cases hs
        · split at hs
          · cases hs
          · split at hs
            · cases hs
            · split at hs
              · cases hs
              · cases hs; rfl) _ h
      rw [a3, a2, a1]

theorem engine_notes [Add R] {p : Proc R P} (hp : cfg.proc = some p) {n : Nat} {i : Int}
    {e e' : Eng (Sigs R) F S A (P × List (Call R))} (h : cfg.traced.engine n i e = .ok e') :
    0 < p.bs ∧ e'.proc.2 = if n % p.bs = p.bs - 1 then e.proc.2 ++ [(e.sig, i)] else e.proc.2 := by
  unfold SimCfg.engine at h
  split at h
  · cases h
  · rename_i arr harr
    split at h
    · cases h
    · rename_i e1 h1
      rw [propagate_proc _ h]
      unfold SimCfg.callProc at h1
      rw [show cfg.traced.proc = some p.traced by
        show cfg.proc.map Proc.traced = _
        rw [hp]; rfl] at h1
      simp only at h1
      rw [show p.traced.bs = p.bs from rfl] at h1
      split_ifs at h1 with h0 hm
      · rw [if_pos hm]
        refine ⟨by omega, ?_⟩
        unfold Proc.traced at h1
        simp only at h1
        cases hpr : p.process e.proc.1 e.sig i with
        | error x => rw [hpr] at h1; cases h1
        | ok r =>
          rw [hpr] at h1
          cases h1; rfl
      · rw [if_neg hm]
        cases h1
        exact ⟨by omega, rfl⟩

theorem step_parts [Zero R] [Add R] {st st' : SimSt R F S A P D O} (h : cfg.step st = .ok st') :
    ∃ e, cfg.engine st.n st.idx st.eng = .ok e ∧ st'.n = st.n + 1 ∧ st'.eng.proc = e.proc := by
  unfold SimCfg.step at h
  split at h
  · cases h
  · rename_i e he
    refine ⟨e, he, ?_⟩
    simp only at h
    split at h
    · cases h
    · split at h
      · cases h
      · cases h
        refine ⟨rfl, ?_⟩
        simp only
        split <;> rfl

theorem steps_n [Zero R] [Add R] {st0 : SimSt R F S A P D O} :
    ∀ k {st}, cfg.steps k st0 = .ok st → st.n = st0.n + k
  | 0, st, h => by cases h; rfl
  | k + 1, st, h => by
    simp only [SimCfg.steps] at h
    split at h
    · cases h
    · rename_i st1 h1
      obtain ⟨e, _, hn, _⟩ := step_parts cfg h
      rw [hn, steps_n k h1]; omega

/-- The calls noted after `k` steps: one for every completed block, each with
the signals and the index of its step. -/
theorem steps_notes [Zero R] [Add R] {p : Proc R P} (hp : cfg.proc = some p)
    {st0 : SimSt R F S A (P × List (Call R)) D O} (hn : st0.n = 0) (h0 : st0.eng.proc.2 = []) :
    ∀ k {st}, cfg.traced.steps k st0 = .ok st → st.eng.proc.2.length = k / p.bs ∧
      ∀ (j : Nat) q, st.eng.proc.2[j]? = some q → ∃ stj,
        cfg.traced.steps ((j + 1) * p.bs - 1) st0 = .ok stj ∧ q = (stj.eng.sig, stj.idx) ∧ 0 < p.bs
  | 0, st, h => by
    cases h
    rw [h0]
    refine ⟨by simp, ?_⟩
    intro j q hq
    simp at hq
  | k + 1, st, h => by
    simp only [SimCfg.steps] at h
    split at h
    · cases h
    · rename_i st1 h1
      obtain ⟨e, he, hn1, hpr⟩ := step_parts _ h
      obtain ⟨hlen, hcalls⟩ := steps_notes hp hn h0 k h1
      have hk : st1.n = k := by rw [steps_n _ k h1, hn]; omega
      obtain ⟨hbs, hnotes⟩ := engine_notes cfg hp he
      rw [hpr, hnotes, hk]
      have hdm := Nat.div_add_mod k p.bs
      by_cases hm : k % p.bs = p.bs - 1
      · rw [if_pos hm]
        have hk1 : k + 1 = p.bs * (k / p.bs + 1) := by rw [Nat.mul_add]; omega
        have hdiv : (k + 1) / p.bs = k / p.bs + 1 := by
          conv_lhs => rw [hk1]
          exact Nat.mul_div_cancel_left _ hbs
        refine ⟨by rw [List.length_append, hlen, hdiv]; rfl, ?_⟩
        intro j q hq
        rcases Nat.lt_or_ge j st1.eng.proc.2.length with hj | hj
        · rw [List.getElem?_append_left hj] at hq
          exact hcalls j q hq
        · rw [List.getElem?_append_right hj] at hq
          cases hd : j - st1.eng.proc.2.length with
          | succ x => rw [hd] at hq; simp at hq
          | zero =>
            rw [hd] at hq
            simp only [List.getElem?_cons_zero, Option.some.injEq] at hq
            have hjk : j = k / p.bs := by omega
            refine ⟨st1, ?_, hq.symm, hbs⟩
            have : (j + 1) * p.bs - 1 = k := by
              rw [hjk, Nat.mul_comm, ← hk1]; omega
            rw [this]; exact h1
      · rw [if_neg hm]
        have hlt := Nat.mod_lt k hbs
        have hdiv : (k + 1) / p.bs = k / p.bs := by
          rw [Nat.div_eq_iff hbs]
          have := Nat.mul_comm p.bs (k / p.bs)
          constructor <;> omega
        exact ⟨by rw [hdiv]; exact hlen, hcalls⟩

end
end Verif

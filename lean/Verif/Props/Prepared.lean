/-
C109 and C120 for processors that work during the preparation of the run.
-/
import Verif.Lemmas.Observe
import Verif.Props.Longer
import Verif.Props.AdaptiveRecording
namespace Verif

section
variable {R IR F S A P D O : Type} [Zero R] [Add R] {cfg : SimCfg R IR F S A P D O}
  {prep : P → Sigs R → Int → Except PyErr (P × Sigs R)}

theorem initWith_keep (keep : String → Bool) (srcs : String → S) (arr : A) (proc : P) (f0 : F) (ds : List (Diag D)) :
    cfg.initWith prep srcs arr proc f0 (keepDiags keep ds) =
      (cfg.initWith prep srcs arr proc f0 ds).map (keepState keep) := by
  unfold SimCfg.initWith
  rw [init_keep]
  cases cfg.init srcs arr proc f0 ds with
  | error x => rfl
  | ok st =>
    simp only [Except.map, keepState]
    cases prep st.eng.proc st.eng.sig st.idx <;> rfl

theorem runWith_keep (keep : String → Bool) (srcs : String → S) (arr : A) (proc : P) (f0 : F) (ds : List (Diag D))
    {st : SimSt R F S A P D O} (h : cfg.runWith prep srcs arr proc f0 ds = .ok st) :
    cfg.runWith prep srcs arr proc f0 (keepDiags keep ds) = .ok (keepState keep st) := by
  unfold SimCfg.runWith at h ⊢
  rw [initWith_keep]
  cases hi : cfg.initWith prep srcs arr proc f0 ds with
  | error x => rw [hi] at h; cases h
  | ok s =>
    rw [hi] at h
    simp only [Except.map] at h ⊢
    cases hs : cfg.steps (cfg.tot + cfg.mbs) s with
    | error x => rw [hs] at h; cases h
    | ok s' =>
      rw [hs] at h
      rw [steps_keep keep _ hs]
      dsimp only at h ⊢
      cases hd : dispatch cfg.diag cfg.plotNone s'.diags s'.log with
      | error x => rw [hd] at h; cases h
      | ok r =>
        obtain ⟨ds', log⟩ := r
        rw [hd] at h
        simp only [keepState]
        rw [dispatch_keep keep hd]
        cases h
        rfl

theorem runWith_join (keep : String → Bool) (srcs : String → S) (arr : A) (proc : P) (f0 : F) (ds : List (Diag D))
    {s1 s2 : SimSt R F S A P D O} (h : cfg.runWith prep srcs arr proc f0 (keepDiags keep ds) = .ok s1)
    (h' : cfg.runWith prep srcs arr proc f0 (keepDiags (fun s => !keep s) ds) = .ok s2) :
    ∃ st, cfg.runWith prep srcs arr proc f0 ds = .ok st := by
  unfold SimCfg.runWith at h h' ⊢
  rw [initWith_keep] at h h'
  cases hi : cfg.initWith prep srcs arr proc f0 ds with
  | error x => rw [hi] at h; cases h
  | ok s =>
    rw [hi] at h h'
    simp only [Except.map] at h h' ⊢
    cases hs1 : cfg.steps (cfg.tot + cfg.mbs) (keepState keep s) with
    | error x => rw [hs1] at h; cases h
    | ok t1 =>
      cases hs2 : cfg.steps (cfg.tot + cfg.mbs) (keepState (fun s => !keep s) s) with
      | error x => rw [hs2] at h'; cases h'
      | ok t2 =>
        obtain ⟨t, ht⟩ := steps_join keep _ hs1 hs2
        have k1 := steps_keep keep _ ht
        have k2 := steps_keep (fun s => !keep s) _ ht
        rw [k1] at h
        rw [k2] at h'
        rw [ht]
        simp only [keepState] at h h' ⊢
        cases hd1 : dispatch cfg.diag cfg.plotNone (keepDiags keep t.diags) (keepEvents keep t.log) with
        | error x => rw [hd1] at h; cases h
        | ok r1 =>
          cases hd2 : dispatch cfg.diag cfg.plotNone (keepDiags (fun s => !keep s) t.diags)
              (keepEvents (fun s => !keep s) t.log) with
          | error x => rw [hd2] at h'; cases h'
          | ok r2 =>
            obtain ⟨⟨ds', log⟩, hd⟩ := dispatch_join keep (log := t.log) hd1 hd2
            rw [hd]
            exact ⟨_, rfl⟩

/-- **C109** for processors with work of their own in `prepare`, as the adaptive ones: a run with fewer diagnostics
gives the same signals, sources, filters, arrays and processor; every diagnostic that is kept ends in the same
state, and the exported results are those of the kept diagnostics. -/
theorem C109_prepared_fewer (cfg : SimCfg R IR F S A P D O) (prep : P → Sigs R → Int → Except PyErr (P × Sigs R))
    (keep : String → Bool) (srcs : String → S) (arr : A) (proc : P) (f0 : F) (ds : List (Diag D))
    {fin : SimSt R F S A P D O} (h : cfg.runWith prep srcs arr proc f0 ds = .ok fin) :
    ∃ fin', cfg.runWith prep srcs arr proc f0 (ds.filter fun d => keep d.name) = .ok fin' ∧
      fin'.eng = fin.eng ∧ fin'.idx = fin.idx ∧ fin'.n = fin.n ∧
      fin'.diags = fin.diags.filter (fun d => keep d.name) ∧
      fin'.log = fin.log.filter (fun e => keep e.diag) :=
  ⟨_, runWith_keep keep srcs arr proc f0 ds h, rfl, rfl, rfl, rfl, rfl⟩

/-- **C109** for such processors: two sets of diagnostics that can each be used alone can be used together. -/
theorem C109_prepared_together (cfg : SimCfg R IR F S A P D O)
    (prep : P → Sigs R → Int → Except PyErr (P × Sigs R)) (keep : String → Bool) (srcs : String → S) (arr : A)
    (proc : P) (f0 : F) (ds : List (Diag D)) {s1 s2 : SimSt R F S A P D O}
    (h1 : cfg.runWith prep srcs arr proc f0 (ds.filter fun d => keep d.name) = .ok s1)
    (h2 : cfg.runWith prep srcs arr proc f0 (ds.filter fun d => !keep d.name) = .ok s2) :
    ∃ fin, cfg.runWith prep srcs arr proc f0 ds = .ok fin ∧ fin.eng = s1.eng ∧ fin.eng = s2.eng ∧
      fin.log.filter (fun e => keep e.diag) = s1.log ∧ fin.log.filter (fun e => !keep e.diag) = s2.log := by
  obtain ⟨fin, hf⟩ := runWith_join keep srcs arr proc f0 ds h1 h2
  have e1 := Except.ok.inj ((runWith_keep keep srcs arr proc f0 ds hf).symm.trans h1)
  have e2 := Except.ok.inj ((runWith_keep (fun s => !keep s) srcs arr proc f0 ds hf).symm.trans h2)
  have a1 := congrArg SimSt.eng e1
  have a2 := congrArg SimSt.eng e2
  have a3 := congrArg SimSt.log e1
  have a4 := congrArg SimSt.log e2
  exact ⟨fin, hf, a1, a2, a3, a4⟩

/-- Two states with the same engine at the same place run alike, whatever their diagnostics are. -/
theorem lasting_alike {tot' k : Nat} {s s' st st' : SimSt R F S A P D O} (he : s'.eng = s.eng) (hi : s'.idx = s.idx)
    (hn : s'.n = s.n) (h : cfg.steps k s = .ok st) (h' : (cfg.lasting tot').steps k s' = .ok st') :
    st'.eng = st.eng ∧ st'.idx = st.idx ∧ st'.n = st.n := by
  have hs : ∀ (k : Nat) (x : SimSt R F S A P D O), (cfg.lasting tot').steps k x = cfg.steps k x := by
    intro k x
    induction k with
    | zero => rfl
    | succ k ih =>
      unfold SimCfg.steps
      rw [ih]
      rfl
  rw [hs] at h'
  have h1 := steps_keep (fun _ => false) _ h
  have h2 := steps_keep (fun _ => false) _ h'
  have e0 : ∀ x : SimSt R F S A P D O, keepState (fun _ => false) x = ⟨x.eng, x.idx, x.n, [], []⟩ := by
    intro x
    simp [keepState, keepDiags, keepEvents]
  rw [e0, e0] at h1 h2
  rw [he, hi, hn, h1] at h2
  have h3 := Except.ok.inj h2
  exact ⟨(congrArg SimSt.eng h3).symm, (congrArg SimSt.idx h3).symm, (congrArg SimSt.n h3).symm⟩

/-- **C120** for processors with work of their own in `prepare`: two simulations that differ in the number of
samples and in the diagnostics only have, after every number of iterations, produced the same samples of every
signal and left processor, filters, sources and arrays in the same state. -/
theorem C120_prepared {tot' k : Nat} {srcs : String → S} {arr : A} {proc : P} {f0 : F} {ds0 ds0' : List (Diag D)}
    {st0 st0' st st' : SimSt R F S A P D O} (h : cfg.initWith prep srcs arr proc f0 ds0 = .ok st0)
    (h' : (cfg.lasting tot').initWith prep srcs arr proc f0 ds0' = .ok st0')
    (hk : cfg.steps k st0 = .ok st) (hk' : (cfg.lasting tot').steps k st0' = .ok st') :
    (∀ t ≤ k, ∀ name c v, (cfg.lasting tot').Produced st0' name c t v ↔ cfg.Produced st0 name c t v) ∧
      st'.eng = st.eng := by
  have hI : (cfg.lasting tot').initWith prep srcs arr proc f0 ds0' = cfg.initWith prep srcs arr proc f0 ds0' := rfl
  rw [hI] at h'
  have e0 : ∀ ds : List (Diag D), keepDiags (fun _ => false) ds = [] := by
    intro ds
    simp [keepDiags]
  have i1 := initWith_keep (cfg := cfg) (prep := prep) (fun _ => false) srcs arr proc f0 ds0
  have i2 := initWith_keep (cfg := cfg) (prep := prep) (fun _ => false) srcs arr proc f0 ds0'
  rw [e0, h] at i1
  rw [e0, h', i1] at i2
  have i3 := Except.ok.inj i2
  have he : st0'.eng = st0.eng := (congrArg SimSt.eng i3).symm
  have hi : st0'.idx = st0.idx := (congrArg SimSt.idx i3).symm
  have hn : st0'.n = st0.n := (congrArg SimSt.n i3).symm
  refine ⟨?_, (lasting_alike he hi hn hk hk').1⟩
  intro t ht name c v
  cases t with
  | zero =>
    show st0'.eng.sig.At name c (cfg.B - 1) v ↔ st0.eng.sig.At name c (cfg.B - 1) v
    rw [he]
  | succ t =>
    obtain ⟨m, rfl⟩ : ∃ m, k = t + m := ⟨k - t, by omega⟩
    obtain ⟨s, hs⟩ := steps_prefix _ m hk
    obtain ⟨s', hs'⟩ := steps_prefix _ m hk'
    obtain ⟨j1, j2, j3⟩ := lasting_alike he hi hn hs hs'
    show (∃ x e, (cfg.lasting tot').steps t st0' = .ok x ∧ cfg.engine x.n x.idx x.eng = .ok e ∧
        0 ≤ x.idx ∧ e.sig.At name c x.idx.toNat v) ↔ ∃ x e, cfg.steps t st0 = .ok x ∧
        cfg.engine x.n x.idx x.eng = .ok e ∧ 0 ≤ x.idx ∧ e.sig.At name c x.idx.toNat v
    constructor
    · rintro ⟨x, e, g1, g2, g3, g4⟩
      rw [hs'] at g1
      cases g1
      rw [j1, j2, j3] at g2
      rw [j2] at g3 g4
      exact ⟨s, e, hs, g2, g3, g4⟩
    · rintro ⟨x, e, g1, g2, g3, g4⟩
      rw [hs] at g1
      cases g1
      rw [← j1, ← j2, ← j3] at g2
      rw [← j2] at g3 g4
      exact ⟨s', e, hs', g2, g3, g4⟩

end

/-- The run with FxLMS and four diagnostics, with two of them. -/
example : ∃ fin' : FxS, fxSc.runWith fxPrepare (fun _ => 0) () (fxInit (fxDemo 1 2 2 .sample) (fxSec [1, -1])) demoFilt
      (fxDs.filter fun d => ["ls", "pw"].contains d.name) = .ok fin' ∧
    fin'.log.map (fun (e : Event (DOut ℚ ℚ)) => (e.diag, e.time)) = [("pw", 4), ("ls", 3), ("ls", 8)] := by
  obtain ⟨st0, fin, h, hl⟩ := fx_demo_run
  obtain ⟨fin', h1, -, -, -, -, h2⟩ := C109_prepared_fewer fxSc fxPrepare (fun s => ["ls", "pw"].contains s) _ _ _ _ _ h.run
  refine ⟨fin', h1, ?_⟩
  have e : ∀ l : List (Event (DOut ℚ ℚ)), (l.filter fun e => ["ls", "pw"].contains e.diag).map (fun ev => (ev.diag, ev.time)) =
      ((l.map fun ev => (ev.diag, ev.time, fxOut ev.out)).filter fun p => ["ls", "pw"].contains p.1).map
        fun p => (p.1, p.2.1) := fun l => by
    rw [List.filter_map, List.map_map]; rfl
  rw [h2, e, hl]
  decide

/-- Two of the diagnostics alone, the other two alone, and all four together. -/
example : ∃ s1 s2 fin : FxS,
    fxSc.runWith fxPrepare (fun _ => 0) () (fxInit (fxDemo 1 2 2 .sample) (fxSec [1, -1])) demoFilt
      (fxDs.filter fun d => ["ls", "pw"].contains d.name) = .ok s1 ∧
    fxSc.runWith fxPrepare (fun _ => 0) () (fxInit (fxDemo 1 2 2 .sample) (fxSec [1, -1])) demoFilt
      (fxDs.filter fun d => !(["ls", "pw"].contains d.name)) = .ok s2 ∧ s1.log.length = 3 ∧ s2.log.length = 3 ∧
    fxSc.runWith fxPrepare (fun _ => 0) () (fxInit (fxDemo 1 2 2 .sample) (fxSec [1, -1])) demoFilt fxDs = .ok fin ∧
    fin.log.filter (fun e => ["ls", "pw"].contains e.diag) = s1.log := by
  have h : (match fxSc.runWith fxPrepare (fun _ => 0) () (fxInit (fxDemo 1 2 2 .sample) (fxSec [1, -1])) demoFilt
      (fxDs.filter fun d => ["ls", "pw"].contains d.name) with
      | .error _ => none
      | .ok (s : FxS) => some s.log.length) = some 3 := by decide +kernel
  have h' : (match fxSc.runWith fxPrepare (fun _ => 0) () (fxInit (fxDemo 1 2 2 .sample) (fxSec [1, -1])) demoFilt
      (fxDs.filter fun d => !(["ls", "pw"].contains d.name)) with
      | .error _ => none
      | .ok (s : FxS) => some s.log.length) = some 3 := by decide +kernel
  split at h
  · cases h
  · rename_i s1 h1
    split at h'
    · cases h'
    · rename_i s2 h2
      obtain ⟨fin, g1, -, -, g2, -⟩ := C109_prepared_together fxSc fxPrepare (fun s => ["ls", "pw"].contains s) _ _ _ _ _ h1 h2
      exact ⟨s1, s2, fin, h1, h2, Option.some.inj h, Option.some.inj h', g1, g2⟩

/-- With FxLMS: eight iterations of the run over eight samples are those of a run over a hundred, which has no
diagnostics; the control filter at that time has been adapted three times. -/
example : ∃ st0 st0' st st' : FxS,
    fxSc.initWith fxPrepare (fun _ => 0) () (fxInit (fxDemo 1 2 2 .sample) (fxSec [1, -1])) demoFilt fxDs = .ok st0 ∧
    (fxSc.lasting 100).initWith fxPrepare (fun _ => 0) () (fxInit (fxDemo 1 2 2 .sample) (fxSec [1, -1])) demoFilt [] =
      .ok st0' ∧
    fxSc.steps 8 st0 = .ok st ∧ (fxSc.lasting 100).steps 8 st0' = .ok st' ∧
    st'.eng = st.eng ∧ (st'.eng.proc.ctrl.mat.ir 0 0).headD 0 = -447/722 ∧
    ∀ c v, (fxSc.lasting 100).Produced st0' "error" c 8 v ↔ fxSc.Produced st0 "error" c 8 v := by
  have h : (match fxSc.initWith fxPrepare (fun _ => 0) () (fxInit (fxDemo 1 2 2 .sample) (fxSec [1, -1])) demoFilt fxDs with
      | .error _ => false
      | .ok s => match fxSc.steps 8 s with
        | .error _ => false
        | .ok _ => true) = true := by decide +kernel
  have h' : (match (fxSc.lasting 100).initWith fxPrepare (fun _ => 0) () (fxInit (fxDemo 1 2 2 .sample) (fxSec [1, -1])) demoFilt [] with
      | .error _ => none
      | .ok s => match (fxSc.lasting 100).steps 8 s with
        | .error _ => none
        | .ok (st : FxS) => some ((st.eng.proc.ctrl.mat.ir 0 0).headD 0)) = some (-447/722 : ℚ) := by decide +kernel
  split at h
  · cases h
  · rename_i st0 hi
    split at h
    · cases h
    · rename_i st hk
      split at h'
      · cases h'
      · rename_i st0' hi'
        split at h'
        · cases h'
        · rename_i st' hk'
          obtain ⟨g1, g2⟩ := C120_prepared hi hi' hk hk'
          exact ⟨st0, st0', st, st', hi, hi', hk, hk', g2, Option.some.inj h', fun c v => g1 8 (le_refl _) _ c v⟩

end Verif

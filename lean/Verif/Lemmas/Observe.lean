/-
Taking diagnostics away from a run.
-/
import Verif.Lemmas.Loop
namespace Verif

section
variable {R P D O : Type} {ops : DiagOps R P D O}

/-- The diagnostics whose names are kept. -/
def keepDiags (keep : String → Bool) (ds : List (Diag D)) : List (Diag D) := ds.filter fun d => keep d.name

/-- The exports of diagnostics whose names are kept. -/
def keepEvents (keep : String → Bool) (log : List (Event O)) : List (Event O) := log.filter fun e => keep e.diag

theorem saveData_keep {proc : Option P} {sig : Sigs R} {idx glob : Int} {last : Bool} (keep : String → Bool) :
    ∀ {ds ds' : List (Diag D)}, saveData ops proc sig idx glob last ds = .ok ds' →
      saveData ops proc sig idx glob last (keepDiags keep ds) = .ok (keepDiags keep ds')
  | [], ds', h => by
    simp only [saveData, List.mapM_nil] at h
    cases h; rfl
  | d :: ds, ds', h => by
    simp only [saveData, List.mapM_cons] at h
    cases h1 : saveOne ops proc sig idx glob last d with
    | error x => rw [h1] at h; cases h
    | ok d1 =>
      rw [h1] at h
      cases h2 : ds.mapM (saveOne ops proc sig idx glob last) with
      | error x => rw [h2] at h; cases h
      | ok ds1 =>
        rw [h2] at h
        cases h
        have ih := saveData_keep keep (ds := ds) (ds' := ds1) h2
        have hn := saveOne_name h1
        unfold keepDiags at ih ⊢
        rw [List.filter_cons, List.filter_cons, hn]
        split
        · simp only [saveData, List.mapM_cons] at ih ⊢
          rw [h1, ih]; rfl
        · exact ih

theorem saveData_join {proc : Option P} {sig : Sigs R} {idx glob : Int} {last : Bool} (keep : String → Bool) :
    ∀ {ds l l' : List (Diag D)}, saveData ops proc sig idx glob last (keepDiags keep ds) = .ok l →
      saveData ops proc sig idx glob last (keepDiags (fun s => !keep s) ds) = .ok l' →
      ∃ ds', saveData ops proc sig idx glob last ds = .ok ds'
  | [], l, l', _, _ => ⟨[], rfl⟩
  | d :: ds, l, l', h, h' => by
    unfold keepDiags at h h'
    rw [List.filter_cons] at h h'
    have step : ∀ {k : List (Diag D)} {m}, saveData ops proc sig idx glob last (d :: k) = .ok m →
        ∃ d1 m1, saveOne ops proc sig idx glob last d = .ok d1 ∧ saveData ops proc sig idx glob last k = .ok m1 := by
      intro k m hk
      simp only [saveData, List.mapM_cons] at hk
      cases h1 : saveOne ops proc sig idx glob last d with
      | error x => rw [h1] at hk; cases hk
      | ok d1 =>
        rw [h1] at hk
        cases h2 : k.mapM (saveOne ops proc sig idx glob last) with
        | error x => rw [h2] at hk; cases hk
        | ok ds1 => exact ⟨d1, ds1, rfl, h2⟩
    have fin : ∀ {d1 ds1}, saveOne ops proc sig idx glob last d = .ok d1 →
        saveData ops proc sig idx glob last ds = .ok ds1 → ∃ ds', saveData ops proc sig idx glob last (d :: ds) = .ok ds' := by
      intro d1 ds1 h1 h2
      refine ⟨d1 :: ds1, ?_⟩
      simp only [saveData, List.mapM_cons] at h2 ⊢
      rw [h1, h2]; rfl
    cases hk : keep d.name with
    | true =>
      simp only [hk, if_true, Bool.not_true, Bool.false_eq_true, if_false] at h h'
      obtain ⟨d1, m1, h1, h2⟩ := step h
      obtain ⟨ds1, h3⟩ := saveData_join keep (ds := ds) h2 h'
      exact fin h1 h3
    | false =>
      simp only [hk, if_true, Bool.not_false, Bool.false_eq_true, if_false] at h h'
      obtain ⟨d1, m1, h1, h2⟩ := step h'
      obtain ⟨ds1, h3⟩ := saveData_join keep (ds := ds) h h2
      exact fin h1 h3

theorem exportOne_shape {d d' : Diag D} {ev : List (Event O)} (h : exportOne ops d = .ok (d', ev)) :
    d'.name = d.name ∧ (∀ e ∈ ev, e.diag = d.name) ∧
      d'.exportAt.remaining + (if d.ready then 1 else 0) = d.exportAt.remaining ∧ (d.ready = false → d' = d ∧ ev = []) := by
  unfold exportOne at h
  split at h
  · rename_i hr
    split at h
    · cases h
    · rename_i e he
      split at h
      · cases h
      · cases h
        refine ⟨rfl, by simp, ?_, by simp [hr]⟩
        simp only [hr, if_true, IxCounter.remaining, IxCounter.progress, he]
        cases d.exportAt.rest <;> simp [IxCounter.init]
  · rename_i hr
    cases h
    simp [hr]

theorem exportRound_keep (keep : String → Bool) : ∀ {ds ds' : List (Diag D)} {ev : List (Event O)},
    exportRound ops ds = .ok (ds', ev) →
      exportRound ops (keepDiags keep ds) = .ok (keepDiags keep ds', keepEvents keep ev)
  | [], ds', ev, h => by
    simp only [exportRound] at h
    cases h; rfl
  | d :: ds, ds', ev, h => by
    simp only [exportRound] at h
    split at h
    · cases h
    · rename_i d1 ev1 h1
      split at h
      · cases h
      · rename_i ds1 evs1 h2
        cases h
        have ih := exportRound_keep keep h2
        obtain ⟨a1, a2, -, -⟩ := exportOne_shape h1
        unfold keepDiags keepEvents at ih ⊢
        rw [List.filter_cons, List.filter_cons, a1, List.filter_append]
        cases hk : keep d.name with
        | true =>
          have : ev1.filter (fun e => keep e.diag) = ev1 := List.filter_eq_self.2 fun e he => by rw [a2 e he, hk]
          simp only [if_true]
          rw [this]
          simp only [exportRound]
          rw [h1, ih]
        | false =>
          have : ev1.filter (fun e => keep e.diag) = [] := List.filter_eq_nil_iff.2 fun e he => by rw [a2 e he, hk]; simp
          simp only [Bool.false_eq_true, if_false]
          rw [this]
          exact ih

theorem exportRound_idle : ∀ {ds : List (Diag D)}, ds.any Diag.ready = false → exportRound ops ds = .ok (ds, [])
  | [], _ => rfl
  | d :: ds, h => by
    simp only [List.any_cons, Bool.or_eq_false_iff] at h
    have hd : exportOne ops d = .ok (d, []) := by
      unfold exportOne
      rw [if_neg (by rw [h.1]; simp)]
    simp only [exportRound]
    rw [hd, exportRound_idle h.2]
    rfl

/-- The number of exports left. -/
def exportsLeft (ds : List (Diag D)) : Nat := (ds.map fun d => d.exportAt.remaining).sum

theorem exportRound_left : ∀ {ds ds' : List (Diag D)} {ev : List (Event O)}, exportRound ops ds = .ok (ds', ev) →
    exportsLeft ds' + ds.countP Diag.ready = exportsLeft ds
  | [], ds', ev, h => by
    simp only [exportRound] at h
    cases h; rfl
  | d :: ds, ds', ev, h => by
    simp only [exportRound] at h
    split at h
    · cases h
    · rename_i d1 ev1 h1
      split at h
      · cases h
      · rename_i ds1 evs1 h2
        cases h
        have ih := exportRound_left h2
        obtain ⟨-, -, a3, -⟩ := exportOne_shape h1
        simp only [exportsLeft, List.map_cons, List.sum_cons, List.countP_cons] at ih ⊢
        split_ifs at a3 ⊢ <;> omega

theorem ready_left {ds : List (Diag D)} (h : ds.any Diag.ready = true) :
    0 < ds.countP Diag.ready ∧ ds.countP Diag.ready ≤ exportsLeft ds := by
  constructor
  · rw [List.countP_pos_iff]
    obtain ⟨d, hd, hr⟩ := List.any_eq_true.1 h
    exact ⟨d, hd, hr⟩
  · clear h
    induction ds with
    | nil => simp
    | cons d ds ih =>
      simp only [exportsLeft, List.map_cons, List.sum_cons, List.countP_cons] at ih ⊢
      split
      · rename_i hd
        have : 0 < d.exportAt.remaining := by
          unfold Diag.ready at hd
          unfold IxCounter.remaining
          cases hu : d.exportAt.up with
          | none => rw [hu] at hd; cases hd
          | some e => simp
        omega
      · omega

theorem dispatchLoop_keep (keep : String → Bool) : ∀ (fuel : Nat) {ds ds' : List (Diag D)} {log log' : List (Event O)},
    dispatchLoop ops fuel ds log = .ok (ds', log') → ∀ fuel', exportsLeft (keepDiags keep ds) ≤ fuel' →
      dispatchLoop ops fuel' (keepDiags keep ds) (keepEvents keep log) = .ok (keepDiags keep ds', keepEvents keep log') := by
  have idle : ∀ {ds : List (Diag D)} {log : List (Event O)} (fuel : Nat), ds.any Diag.ready = false →
      dispatchLoop ops fuel ds log = .ok (ds, log) := by
    intro ds log fuel h
    cases fuel <;> (unfold dispatchLoop; rw [if_neg (by rw [h]; simp)])
  have sub : ∀ {ds : List (Diag D)}, ds.any Diag.ready = false → (keepDiags keep ds).any Diag.ready = false := by
    intro ds h
    rw [List.any_eq_false] at h ⊢
    exact fun d hd => h d (List.mem_filter.1 hd).1
  intro fuel
  induction fuel with
  | zero =>
    intro ds ds' log log' h fuel' _
    simp only [dispatchLoop] at h
    split at h
    · cases h
    · rename_i hr
      cases h
      exact idle fuel' (sub (by simpa using hr))
  | succ fuel ih =>
    intro ds ds' log log' h fuel' hf
    simp only [dispatchLoop] at h
    split at h
    · split at h
      · cases h
      · rename_i ds1 evs h1
        have hk := exportRound_keep keep h1
        cases hr : (keepDiags keep ds).any Diag.ready with
        | false =>
          have hi := exportRound_idle (ops := ops) hr
          rw [hk] at hi
          simp only [Except.ok.injEq, Prod.mk.injEq] at hi
          have := ih h fuel' (by rw [hi.1]; exact hf)
          unfold keepEvents at this hi
          rw [hi.1, List.filter_append, hi.2, List.append_nil] at this
          exact this
        | true =>
          have hl := exportRound_left hk
          obtain ⟨h0, h0'⟩ := ready_left hr
          obtain ⟨k, rfl⟩ : ∃ k, fuel' = k + 1 := ⟨fuel' - 1, by omega⟩
          have := ih h k (by omega)
          simp only [dispatchLoop]
          rw [hr, hk]
          simp only [if_true]
          unfold keepEvents at this ⊢
          rw [List.filter_append] at this
          exact this
    · rename_i hr
      cases h
      exact idle fuel' (sub (by simpa using hr))

theorem dispatch_keep (keep : String → Bool) {pn : Bool} {ds ds' : List (Diag D)} {log log' : List (Event O)}
    (h : dispatch ops pn ds log = .ok (ds', log')) :
    dispatch ops pn (keepDiags keep ds) (keepEvents keep log) = .ok (keepDiags keep ds', keepEvents keep log') := by
  unfold dispatch at h ⊢
  split at h
  · rename_i hp
    rw [if_pos hp]
    cases h; rfl
  · rename_i hp
    rw [if_neg hp]
    exact dispatchLoop_keep keep _ h _ (Nat.le_refl _)

theorem exportRound_join (keep : String → Bool) : ∀ {ds : List (Diag D)} {r r' : List (Diag D) × List (Event O)},
    exportRound ops (keepDiags keep ds) = .ok r → exportRound ops (keepDiags (fun s => !keep s) ds) = .ok r' →
      ∃ r'', exportRound ops ds = .ok r''
  | [], _, _, _, _ => ⟨_, rfl⟩
  | d :: ds, r, r', h, h' => by
    unfold keepDiags at h h'
    rw [List.filter_cons] at h h'
    have step : ∀ {k : List (Diag D)} {m}, exportRound ops (d :: k) = .ok m →
        ∃ d1 m1, exportOne ops d = .ok d1 ∧ exportRound ops k = .ok m1 := by
      intro k m hk
      simp only [exportRound] at hk
      split at hk
      · cases hk
      · rename_i d1 ev1 h1
        split at hk
        · cases hk
        · rename_i ds1 evs1 h2
          exact ⟨_, _, h1, h2⟩
    have fin : ∀ {d1 m1}, exportOne ops d = .ok d1 → exportRound ops ds = .ok m1 → ∃ r'', exportRound ops (d :: ds) = .ok r'' := by
      rintro ⟨d1, e1⟩ ⟨ds1, es1⟩ h1 h2
      refine ⟨(d1 :: ds1, e1 ++ es1), ?_⟩
      simp only [exportRound]
      rw [h1, h2]
    cases hk : keep d.name with
    | true =>
      simp only [hk, if_true, Bool.not_true, Bool.false_eq_true, if_false] at h h'
      obtain ⟨d1, m1, h1, h2⟩ := step h
      obtain ⟨ds1, h3⟩ := exportRound_join keep (ds := ds) h2 h'
      exact fin h1 h3
    | false =>
      simp only [hk, if_true, Bool.not_false, Bool.false_eq_true, if_false] at h h'
      obtain ⟨d1, m1, h1, h2⟩ := step h'
      obtain ⟨ds1, h3⟩ := exportRound_join keep (ds := ds) h h2
      exact fin h1 h3

theorem dispatchLoop_first {fuel : Nat} {ds : List (Diag D)} {log : List (Event O)} {r : List (Diag D) × List (Event O)}
    (h : dispatchLoop ops fuel ds log = .ok r) :
    ∃ ds1 ev, exportRound ops ds = .ok (ds1, ev) ∧ ∃ fuel' log', dispatchLoop ops fuel' ds1 log' = .ok r := by
  cases hr : ds.any Diag.ready with
  | false => exact ⟨ds, [], exportRound_idle hr, fuel, log, h⟩
  | true =>
    cases fuel with
    | zero => simp only [dispatchLoop, hr, if_true] at h; cases h
    | succ fuel =>
      simp only [dispatchLoop, hr, if_true] at h
      split at h
      · cases h
      · rename_i ds1 ev h1
        exact ⟨ds1, ev, h1, _, _, h⟩

theorem dispatchLoop_join (keep : String → Bool) : ∀ (fuel : Nat) {ds : List (Diag D)} {log : List (Event O)}
    {f1 f2 : Nat} {l1 l2 : List (Event O)} {r r' : List (Diag D) × List (Event O)}, exportsLeft ds ≤ fuel →
    dispatchLoop ops f1 (keepDiags keep ds) l1 = .ok r → dispatchLoop ops f2 (keepDiags (fun s => !keep s) ds) l2 = .ok r' →
      ∃ r'', dispatchLoop ops fuel ds log = .ok r'' := by
  intro fuel
  induction fuel with
  | zero =>
    intro ds log f1 f2 l1 l2 r r' hf _ _
    cases hr : ds.any Diag.ready with
    | false => exact ⟨_, by simp only [dispatchLoop, hr]; rfl⟩
    | true =>
      have := ready_left hr
      omega
  | succ fuel ih =>
    intro ds log f1 f2 l1 l2 r r' hf h h'
    cases hr : ds.any Diag.ready with
    | false => exact ⟨_, by simp only [dispatchLoop, hr]; rfl⟩
    | true =>
      obtain ⟨d1, e1, h1, f1', l1', h2⟩ := dispatchLoop_first h
      obtain ⟨d2, e2, h3, f2', l2', h4⟩ := dispatchLoop_first h'
      obtain ⟨⟨ds1, ev⟩, h5⟩ := exportRound_join keep h1 h3
      have k1 := exportRound_keep keep h5
      have k2 := exportRound_keep (fun s => !keep s) h5
      rw [h1] at k1
      rw [h3] at k2
      simp only [Except.ok.injEq, Prod.mk.injEq] at k1 k2
      rw [k1.1] at h2
      rw [k2.1] at h4
      have hl := exportRound_left h5
      have h0 := ready_left hr
      obtain ⟨r'', h6⟩ := ih (ds := ds1) (log := log ++ ev) (by omega) h2 h4
      exact ⟨r'', by simp only [dispatchLoop, hr, if_true]; rw [h5]; exact h6⟩

theorem dispatch_join (keep : String → Bool) {pn : Bool} {ds : List (Diag D)} {log l1 l2 : List (Event O)}
    {r r' : List (Diag D) × List (Event O)} (h : dispatch ops pn (keepDiags keep ds) l1 = .ok r)
    (h' : dispatch ops pn (keepDiags (fun s => !keep s) ds) l2 = .ok r') : ∃ r'', dispatch ops pn ds log = .ok r'' := by
  unfold dispatch at h h' ⊢
  split at h
  · rename_i hp
    rw [if_pos hp]
    exact ⟨_, rfl⟩
  · rename_i hp
    rw [if_neg hp] at h' ⊢
    exact dispatchLoop_join keep _ (Nat.le_refl _) h h'

end

section
variable {R IR F S A P D O : Type} [Zero R] [Add R] {cfg : SimCfg R IR F S A P D O}

/-- The state without the diagnostics that are not kept. -/
def keepState (keep : String → Bool) (st : SimSt R F S A P D O) : SimSt R F S A P D O :=
  { st with diags := keepDiags keep st.diags, log := keepEvents keep st.log }

theorem step_keep (keep : String → Bool) {st st' : SimSt R F S A P D O} (h : cfg.step st = .ok st') :
    cfg.step (keepState keep st) = .ok (keepState keep st') := by
  unfold SimCfg.step at h ⊢
  simp only [keepState]
  cases he : cfg.engine st.n st.idx st.eng with
  | error x => rw [he] at h; cases h
  | ok e =>
    rw [he] at h
    dsimp only at h ⊢
    cases hs : saveData cfg.diag (if cfg.proc.isSome then some e.proc else none) e.sig st.idx st.n (cfg.lastBlock st.idx) st.diags with
    | error x => rw [hs] at h; cases h
    | ok ds =>
      rw [hs] at h
      rw [saveData_keep keep hs]
      dsimp only at h ⊢
      cases hd : dispatch cfg.diag cfg.plotNone ds st.log with
      | error x => rw [hd] at h; cases h
      | ok r =>
        obtain ⟨ds', log⟩ := r
        rw [hd] at h
        rw [dispatch_keep keep hd]
        cases h
        rfl

theorem steps_keep (keep : String → Bool) : ∀ (k : Nat) {st st' : SimSt R F S A P D O}, cfg.steps k st = .ok st' →
    cfg.steps k (keepState keep st) = .ok (keepState keep st')
  | 0, st, st', h => by cases h; rfl
  | k + 1, st, st', h => by
    unfold SimCfg.steps at h ⊢
    cases h1 : cfg.steps k st with
    | error x => rw [h1] at h; cases h
    | ok s =>
      rw [h1] at h
      rw [steps_keep keep k h1]
      exact step_keep keep h

theorem step_join (keep : String → Bool) {st s1 s2 : SimSt R F S A P D O} (h : cfg.step (keepState keep st) = .ok s1)
    (h' : cfg.step (keepState (fun s => !keep s) st) = .ok s2) : ∃ st', cfg.step st = .ok st' := by
  unfold SimCfg.step at h h' ⊢
  simp only [keepState] at h h'
  cases he : cfg.engine st.n st.idx st.eng with
  | error x => rw [he] at h; cases h
  | ok e =>
    rw [he] at h h'
    dsimp only at h h' ⊢
    cases hs1 : saveData cfg.diag (if cfg.proc.isSome then some e.proc else none) e.sig st.idx st.n (cfg.lastBlock st.idx)
        (keepDiags keep st.diags) with
    | error x => rw [hs1] at h; cases h
    | ok l1 =>
      cases hs2 : saveData cfg.diag (if cfg.proc.isSome then some e.proc else none) e.sig st.idx st.n (cfg.lastBlock st.idx)
          (keepDiags (fun s => !keep s) st.diags) with
      | error x => rw [hs2] at h'; cases h'
      | ok l2 =>
        obtain ⟨ds, hs⟩ := saveData_join keep hs1 hs2
        have k1 := saveData_keep keep hs
        have k2 := saveData_keep (fun s => !keep s) hs
        rw [k1] at h
        rw [k2] at h'
        rw [hs]
        dsimp only at h h' ⊢
        cases hd1 : dispatch cfg.diag cfg.plotNone (keepDiags keep ds) (keepEvents keep st.log) with
        | error x => rw [hd1] at h; cases h
        | ok r1 =>
          cases hd2 : dispatch cfg.diag cfg.plotNone (keepDiags (fun s => !keep s) ds) (keepEvents (fun s => !keep s) st.log) with
          | error x => rw [hd2] at h'; cases h'
          | ok r2 =>
            obtain ⟨⟨ds', log⟩, hd⟩ := dispatch_join keep (log := st.log) hd1 hd2
            rw [hd]
            exact ⟨_, rfl⟩

theorem steps_join (keep : String → Bool) : ∀ (k : Nat) {st s1 s2 : SimSt R F S A P D O},
    cfg.steps k (keepState keep st) = .ok s1 → cfg.steps k (keepState (fun s => !keep s) st) = .ok s2 →
    ∃ st', cfg.steps k st = .ok st'
  | 0, st, s1, s2, _, _ => ⟨_, rfl⟩
  | k + 1, st, s1, s2, h, h' => by
    unfold SimCfg.steps at h h' ⊢
    cases h1 : cfg.steps k (keepState keep st) with
    | error x => rw [h1] at h; cases h
    | ok t1 =>
      cases h2 : cfg.steps k (keepState (fun s => !keep s) st) with
      | error x => rw [h2] at h'; cases h'
      | ok t2 =>
        obtain ⟨t, ht⟩ := steps_join keep k h1 h2
        have k1 := steps_keep keep k ht
        have k2 := steps_keep (fun s => !keep s) k ht
        rw [k1] at h
        rw [k2] at h'
        rw [ht]
        exact step_join keep h h'

theorem init_keep (keep : String → Bool) (srcs : String → S) (arr : A) (proc : P) (f0 : F) (ds : List (Diag D)) :
    cfg.init srcs arr proc f0 (keepDiags keep ds) = (cfg.init srcs arr proc f0 ds).map (keepState keep) := by
  unfold SimCfg.init
  cases cfg.createSignals with
  | error x => rfl
  | ok sig =>
    dsimp only
    cases cfg.createFilters arr (fun _ _ => f0) with
    | error x => rfl
    | ok fs =>
      dsimp only
      cases cfg.prepare { sig := sig, srcs := srcs, filts := fs, arr := arr, proc := proc } <;> rfl

theorem run_keep (keep : String → Bool) (srcs : String → S) (arr : A) (proc : P) (f0 : F) (ds : List (Diag D))
    {st : SimSt R F S A P D O} (h : cfg.run srcs arr proc f0 ds = .ok st) :
    cfg.run srcs arr proc f0 (keepDiags keep ds) = .ok (keepState keep st) := by
  unfold SimCfg.run at h ⊢
  rw [init_keep]
  cases hi : cfg.init srcs arr proc f0 ds with
  | error x => rw [hi] at h; cases h
  | ok s =>
    rw [hi] at h
    simp only [Except.map] at h ⊢
    cases hs : cfg.steps (cfg.tot + cfg.mbs) s with
    | error x => rw [hs] at h; cases h
    | ok s' =>
      rw [hs] at h
      rw [steps_keep keep _ hs]
      dsimp only at h ⊢
      cases hd : dispatch cfg.diag cfg.plotNone s'.diags s'.log with
      | error x => rw [hd] at h; cases h
      | ok r =>
        obtain ⟨ds', log⟩ := r
        rw [hd] at h
        simp only [keepState]
        rw [dispatch_keep keep hd]
        cases h
        rfl

theorem run_join (keep : String → Bool) (srcs : String → S) (arr : A) (proc : P) (f0 : F) (ds : List (Diag D))
    {s1 s2 : SimSt R F S A P D O} (h : cfg.run srcs arr proc f0 (keepDiags keep ds) = .ok s1)
    (h' : cfg.run srcs arr proc f0 (keepDiags (fun s => !keep s) ds) = .ok s2) :
    ∃ st, cfg.run srcs arr proc f0 ds = .ok st := by
  unfold SimCfg.run at h h' ⊢
  rw [init_keep] at h h'
  cases hi : cfg.init srcs arr proc f0 ds with
  | error x => rw [hi] at h; cases h
  | ok s =>
    rw [hi] at h h'
    simp only [Except.map] at h h' ⊢
    cases hs1 : cfg.steps (cfg.tot + cfg.mbs) (keepState keep s) with
    | error x => rw [hs1] at h; cases h
    | ok t1 =>
      cases hs2 : cfg.steps (cfg.tot + cfg.mbs) (keepState (fun s => !keep s) s) with
      | error x => rw [hs2] at h'; cases h'
      | ok t2 =>
        obtain ⟨t, ht⟩ := steps_join keep _ hs1 hs2
        have k1 := steps_keep keep _ ht
        have k2 := steps_keep (fun s => !keep s) _ ht
        rw [k1] at h
        rw [k2] at h'
        rw [ht]
        simp only [keepState] at h h' ⊢
        cases hd1 : dispatch cfg.diag cfg.plotNone (keepDiags keep t.diags) (keepEvents keep t.log) with
        | error x => rw [hd1] at h; cases h
        | ok r1 =>
          cases hd2 : dispatch cfg.diag cfg.plotNone (keepDiags (fun s => !keep s) t.diags) (keepEvents (fun s => !keep s) t.log) with
          | error x => rw [hd2] at h'; cases h'
          | ok r2 =>
            obtain ⟨⟨ds', log⟩, hd⟩ := dispatch_join keep (log := t.log) hd1 hd2
            rw [hd]
            exact ⟨_, rfl⟩

end
end Verif

/-
A second run: diagnostics that have finished are left alone, streams go on.
-/
import Verif.Model.Again
import Verif.Lemmas.Engine
import Verif.Lemmas.Recording
namespace Verif

section
variable {R IR F S A P D O : Type}

theorem saveOne_done {ops : DiagOps R P D O} {proc : Option P} {sig : Sigs R} {idx glob : Int} {last : Bool} {d : Diag D}
    (h : d.saveAt.start = none) : saveOne ops proc sig idx glob last d = .ok d := by
  unfold saveOne
  rw [h]

theorem saveData_done {ops : DiagOps R P D O} {proc : Option P} {sig : Sigs R} {idx glob : Int} {last : Bool} :
    ∀ {ds : List (Diag D)}, (∀ d ∈ ds, d.saveAt.start = none) → saveData ops proc sig idx glob last ds = .ok ds
  | [], _ => rfl
  | d :: ds, h => by
    have ih := saveData_done (ops := ops) (proc := proc) (sig := sig) (idx := idx) (glob := glob) (last := last)
      (ds := ds) (fun d hd => h d (by simp [hd]))
    unfold saveData at ih ⊢
    rw [List.mapM_cons, saveOne_done (h d (by simp))]
    show (do let ds' ← ds.mapM _; Except.ok (d :: ds')) = _
    rw [ih]; rfl

theorem dispatch_idle {ops : DiagOps R P D O} {pn : Bool} {ds : List (Diag D)} {log : List (Event O)}
    (h : pn = false → ∀ d ∈ ds, d.ready = false) : dispatch ops pn ds log = .ok (ds, log) := by
  unfold dispatch
  cases pn with
  | true => rfl
  | false =>
    have hr : ds.any Diag.ready = false := by
      rw [List.any_eq_false]; intro d hd; rw [h rfl d hd]; simp
    simp only [Bool.false_eq_true, if_false]
    generalize (ds.map fun d => d.exportAt.remaining).sum = fuel
    cases fuel <;> (unfold dispatchLoop; rw [if_neg (by rw [hr]; simp)])

theorem steps_idle [Zero R] [Add R] {cfg : SimCfg R IR F S A P D O} {st0 : SimSt R F S A P D O}
    (h1 : ∀ d ∈ st0.diags, d.saveAt.start = none) (h2 : cfg.plotNone = false → ∀ d ∈ st0.diags, d.ready = false) :
    ∀ k {st}, cfg.steps k st0 = .ok st → st.diags = st0.diags ∧ st.log = st0.log
  | 0, st, h => by cases h; exact ⟨rfl, rfl⟩
  | k + 1, st, h => by
    simp only [SimCfg.steps] at h
    split at h
    · cases h
    · rename_i s hs
      obtain ⟨i1, i2⟩ := steps_idle h1 h2 k hs
      unfold SimCfg.step at h
      split at h
      · cases h
      · dsimp only at h
        rw [i1, saveData_done h1] at h
        dsimp only at h
        rw [dispatch_idle h2] at h
        cases h
        exact ⟨rfl, i2⟩

theorem runAgain_of_bind [Zero R] [Add R] {cfg : SimCfg R IR F S A P D O} {r : Except PyErr (SimSt R F S A P D O)}
    {fin : SimSt R F S A P D O} {f0 : F} {n : Nat} (h : r = .ok fin)
    (h1 : (r.bind fun fin => cfg.runAgain fin f0 fin.diags).map (fun fin => fin.n) = .ok n) :
    ∃ fin2, cfg.runAgain fin f0 fin.diags = .ok fin2 := by
  subst h
  cases h2 : cfg.runAgain fin f0 fin.diags with
  | error x => simp only [Except.bind, h2] at h1; cases h1
  | ok fin2 => exact ⟨fin2, rfl⟩

theorem runAgain_init [Zero R] [Add R] {cfg : SimCfg R IR F S A P D O} {last fin : SimSt R F S A P D O} {f0 : F}
    {ds : List (Diag D)} (h : cfg.runAgain last f0 ds = .ok fin) :
    ∃ st1, cfg.init last.eng.srcs last.eng.arr last.eng.proc f0 ds = .ok st1 := by
  unfold SimCfg.runAgain SimCfg.run at h
  split at h
  · cases h
  · exact ⟨_, by assumption⟩

theorem blocksOf_shift (x : Nat → Nat → R) (ch d : Nat) : ∀ (ns : List Nat) (off : Nat),
    blocksOf (fun c j => x c (d + j)) ch off ns = blocksOf x ch (d + off) ns
  | [], _ => rfl
  | n :: ns, off => by
    simp only [blocksOf, blocksOf_shift x ch d ns, blockOf, Nat.add_assoc]

theorem StreamAt.isStream {get : S → Nat → Except PyErr (S × List (List R))} {s : S} {ch off : Nat} {x : Nat → Nat → R}
    (h : StreamAt get s ch off x) : IsStream get s ch (fun c j => x c (off + j)) := by
  intro ns
  obtain ⟨s', hs⟩ := h ns
  exact ⟨s', by rw [hs, blocksOf_shift, Nat.add_zero]⟩

end


section
variable {R IR F S A P V : Type} [Field R] [DecidableEq R]
  {cfg : SimCfg R IR F S A P (DData R P V) (DOut R V)} {lp : ProcView R P}
  {srcs : String → S} {arr : A} {proc : P} {f0 f1 : F} {ds0 : List (Diag (DData R P V))}
  {st0 fin : SimSt R F S A P (DData R P V) (DOut R V)}

theorem CompletedRun.last (h : CompletedRun cfg lp srcs arr proc f0 ds0 st0 fin) :
    ∃ st, cfg.steps (cfg.tot + cfg.mbs) st0 = .ok st ∧ fin.eng = st.eng := by
  have hrun := h.run
  unfold SimCfg.run at hrun
  rw [h.init] at hrun
  dsimp only at hrun
  split at hrun
  · cases hrun
  · rename_i st1 hst1
    split at hrun
    · cases hrun
    · cases hrun
      exact ⟨st1, hst1, rfl⟩

end
end Verif

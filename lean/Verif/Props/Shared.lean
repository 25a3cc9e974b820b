/-
C50: simulators created from one setup.
-/
import Verif.Lemmas.SharedInv
import Verif.Props.SessionDemo
import Verif.Demo.Small
namespace Verif

/-- The operations that neither use the `j`-th simulator nor change the configuration. -/
def UserOp.Other {F S P D : Type} (j : Nat) : UserOp F S P D → Prop
  | .setInfo _ => False
  | .setArrays _ _ => True
  | .create _ => True
  | .equip i _ _ _ => i ≠ j
  | .run i => i ≠ j

/-- The operations that do not use the `j`-th simulator. -/
def UserOp.Apart {F S P D : Type} (j : Nat) : UserOp F S P D → Prop
  | .equip i _ _ _ => i ≠ j
  | .run i => i ≠ j
  | _ => True

/-- The generated responses depend on the global state only through the constants `k`,
which the generation does not change, and which the constructor of a path generator sets
to `κ` of the configuration.  This holds for the image-source method without
randomisation; it does not hold for random responses. -/
structure ShareSys.ReadsConstants {F Fl S P D O G K : Type} (sys : ShareSys F Fl S P D O G) (k : G → K)
    (κ : SimInfo F → K) : Prop where
  init : ∀ i g, k (sys.init i g) = κ i
  keep : ∀ i i' g s m t r, sys.gen i i' g s m t = .ok r → k r.1 = k g
  only : ∀ i i' g g' s m t, k g = k g' → (sys.gen i i' g s m t).map Prod.snd = (sys.gen i i' g' s m t).map Prod.snd

section
variable {F Fl S P D O G K : Type} [Zero F] [Add F] (sys : ShareSys F Fl S P D O G)

theorem exec_apart (j : Nat) (w : World F S P D O G) (op : UserOp F S P D) (hop : op.Apart j) (hj : j < w.sims.length) :
    (sys.exec w op).sims[j]? = w.sims[j]? ∧ j < (sys.exec w op).sims.length := by
  cases op with
  | setInfo f => exact ⟨rfl, hj⟩
  | setArrays f s => exact ⟨rfl, hj⟩
  | create p0 =>
    unfold ShareSys.exec
    dsimp only
    split_ifs
    · exact ⟨rfl, hj⟩
    · split
      · exact ⟨rfl, hj⟩
      · dsimp only
        rw [List.getElem?_append_left hj, List.length_append]
        exact ⟨rfl, Nat.lt_add_right _ hj⟩
  | equip i a b c =>
    have hij : i ≠ j := hop
    unfold ShareSys.exec
    dsimp only
    rw [List.getElem?_modify_ne _ _ hij, List.length_modify]
    exact ⟨rfl, hj⟩
  | run i =>
    have hij : i ≠ j := hop
    unfold ShareSys.exec
    dsimp only
    split
    · exact ⟨rfl, hj⟩
    · split
      · dsimp only
        rw [List.getElem?_modify_ne _ _ hij, List.length_modify]
        exact ⟨rfl, hj⟩
      · dsimp only
        rw [List.getElem?_modify_ne _ _ hij, List.length_modify]
        exact ⟨rfl, hj⟩

theorem execs_apart (j : Nat) : ∀ (ops : List (UserOp F S P D)) (w : World F S P D O G), (∀ op ∈ ops, op.Apart j) →
    j < w.sims.length → (sys.execs w ops).sims[j]? = w.sims[j]?
  | [], _, _, _ => rfl
  | op :: ops, w, hops, hj => by
    obtain ⟨h1, h2⟩ := exec_apart sys j w op (hops op (by simp)) hj
    have := execs_apart j ops (sys.exec w op) (fun o ho => hops o (by simp [ho])) h2
    exact this.trans h1

/-- Running the `j`-th simulator in two worlds that have the same `j`-th simulator. -/
theorem exec_run_congr (j : Nat) (w w' : World F S P D O G) (o : SimObj F S P D O) (ho : w.sims[j]? = some o)
    (ho' : w'.sims[j]? = some o)
    (h : (sys.runSim w'.info w'.g o).map (SimSt.mapArr Prod.snd) = (sys.runSim w.info w.g o).map (SimSt.mapArr Prod.snd)) :
    (sys.exec w' (.run j)).sims[j]? = (sys.exec w (.run j)).sims[j]? := by
  unfold ShareSys.exec
  dsimp only
  rw [ho, ho']
  dsimp only
  cases h1 : sys.runSim w'.info w'.g o with
  | error x =>
    rw [h1] at h
    cases h2 : sys.runSim w.info w.g o with
    | error y =>
      rw [h2] at h
      cases h
      simp only [List.getElem?_modify, ho, ho']
    | ok st => rw [h2] at h; cases h
  | ok st =>
    rw [h1] at h
    cases h2 : sys.runSim w.info w.g o with
    | error y => rw [h2] at h; cases h
    | ok st2 =>
      rw [h2] at h
      have h3 : st.mapArr Prod.snd = st2.mapArr Prod.snd := Except.ok.inj h
      have e1 : st.eng.arr.2 = st2.eng.arr.2 := congrArg (fun s => s.eng.arr) h3
      have e2 : st.eng.srcs = st2.eng.srcs := congrArg (fun s => s.eng.srcs) h3
      have e3 : st.eng.proc = st2.eng.proc := congrArg (fun s => s.eng.proc) h3
      have e4 : st.diags = st2.diags := congrArg (fun s => s.diags) h3
      have e5 : st.log = st2.log := congrArg (fun s => s.log) h3
      simp only [List.getElem?_modify, ho, ho', e1, e2, e3, e4, e5]

/-- The invariant of `C50_partial`. -/
theorem exec_current (k : G → K) (κ : SimInfo F → K) (hc : sys.ReadsConstants k κ) (j : Nat) (w : World F S P D O G)
    (op : UserOp F S P D) (hop : op.Other j) (hw : k w.g = κ w.info) :
    (sys.exec w op).info = w.info ∧ k (sys.exec w op).g = κ w.info := by
  cases op with
  | setInfo f => exact hop.elim
  | setArrays f s => exact ⟨rfl, hw⟩
  | create p0 =>
    unfold ShareSys.exec
    dsimp only
    split_ifs
    · exact ⟨rfl, hw⟩
    · split
      · exact ⟨rfl, hw⟩
      · next g b heq =>
        refine ⟨rfl, ?_⟩
        unfold setupArrays at heq
        split at heq
        · cases heq
        · next g' c' h =>
          have := setupIr_keeps k (κ w.info) (sys.gen w.info w.info) (hc.keep _ _) _ _ _ (hc.init _ _) h
          cases heq
          exact this
  | equip i a b c => exact ⟨rfl, hw⟩
  | run i =>
    unfold ShareSys.exec
    dsimp only
    split
    · exact ⟨rfl, hw⟩
    · next o _ =>
      split
      · exact ⟨rfl, hw⟩
      · next fin h =>
        refine ⟨rfl, ?_⟩
        exact (run_visible (sys.cfg w.info o) Prod.snd (fun c s m => Coll.path (((), c) : Unit × Coll (List F) (IrMat F)) s m)
          (fun _ _ _ => rfl) (fun gc => k gc.1 = κ w.info)
          (fun a n a' ha h => update_keeps k (κ w.info) (sys.gen o.made w.info) (hc.keep _ _) a n a' ha h)
          (fun a b n ha hb hab => update_visible k (κ w.info) (sys.gen o.made w.info) (hc.keep _ _) (hc.only _ _) a b n ha hb hab)
          o.source o.proc sys.filt0 o.diags (w.g, { o.coll with freq := w.info.updateFreq }) hw).1 fin h

theorem execs_current (k : G → K) (κ : SimInfo F → K) (hc : sys.ReadsConstants k κ) (j : Nat) :
    ∀ (ops : List (UserOp F S P D)) (w : World F S P D O G), (∀ op ∈ ops, op.Other j) → k w.g = κ w.info →
      (sys.execs w ops).info = w.info ∧ k (sys.execs w ops).g = κ w.info
  | [], _, _, hw => ⟨rfl, hw⟩
  | op :: ops, w, hops, hw => by
    obtain ⟨h1, h2⟩ := exec_current sys k κ hc j w op (hops op (by simp)) hw
    have := execs_current k κ hc j ops (sys.exec w op) (fun o ho => hops o (by simp [ho])) (by rw [h2, h1])
    rw [h1] at this
    exact this

omit [Zero F] [Add F] in
theorem UserOp.Other.apart {j : Nat} {op : UserOp F S P D} (h : op.Other j) : op.Apart j := by
  cases op with
  | setInfo f => exact h.elim
  | setArrays f s => trivial
  | create p0 => trivial
  | equip i a b c => exact h
  | run i => exact h

/-- Changing the arrays of the setup, creating further simulators, equipping and running
them leaves a simulator, and what it will produce, unchanged, provided that the
configuration of the setup is not changed since its creation and the responses are not
random. -/
theorem C50_partial (k : G → K) (κ : SimInfo F → K) (hc : sys.ReadsConstants k κ) (w : World F S P D O G)
    (hw : k w.g = κ w.info) (j : Nat) (hj : j < w.sims.length) (ops : List (UserOp F S P D))
    (hops : ∀ op ∈ ops, op.Other j) :
    (sys.execs w ops).sims[j]? = w.sims[j]? ∧
    (sys.exec (sys.execs w ops) (.run j)).sims[j]? = (sys.exec w (.run j)).sims[j]? := by
  have h1 := execs_apart sys j ops w (fun op ho => (hops op ho).apart) hj
  obtain ⟨h2, h3⟩ := execs_current sys k κ hc j ops w hops hw
  refine ⟨h1, ?_⟩
  obtain ⟨o, ho⟩ : ∃ o, w.sims[j]? = some o := ⟨_, List.getElem?_eq_getElem hj⟩
  refine exec_run_congr sys j w (sys.execs w ops) o ho (h1.trans ho) ?_
  rw [h2]
  exact (run_visible (sys.cfg w.info o) Prod.snd (fun c s m => Coll.path (((), c) : Unit × Coll (List F) (IrMat F)) s m)
    (fun _ _ _ => rfl) (fun gc => k gc.1 = κ w.info)
    (fun a n a' ha h => update_keeps k (κ w.info) (sys.gen o.made w.info) (hc.keep _ _) a n a' ha h)
    (fun a b n ha hb hab => update_visible k (κ w.info) (sys.gen o.made w.info) (hc.keep _ _) (hc.only _ _) a b n ha hb hab)
    o.source o.proc sys.filt0 o.diags ((sys.execs w ops).g, { o.coll with freq := w.info.updateFreq }) h3).2
    (w.g, { o.coll with freq := w.info.updateFreq }) hw rfl

/-- A simulator without moving arrays: also changes of the configuration in between have
no effect if the configuration is the same again when it is run; with random responses as
well. -/
theorem C50_static_partial (w : World F S P D O G) (j : Nat) (o : SimObj F S P D O) (ho : w.sims[j]? = some o)
    (hs : ∀ a ∈ o.coll.arrays, a.dynamic = false) (ops : List (UserOp F S P D)) (hops : ∀ op ∈ ops, op.Apart j)
    (hinfo : (sys.execs w ops).info = w.info) :
    (sys.execs w ops).sims[j]? = some o ∧
    (sys.exec (sys.execs w ops) (.run j)).sims[j]? = (sys.exec w (.run j)).sims[j]? := by
  have hj : j < w.sims.length := (List.getElem?_eq_some_iff.1 ho).1
  have h1 := execs_apart sys j ops w hops hj
  refine ⟨h1.trans ho, ?_⟩
  refine exec_run_congr sys j w (sys.execs w ops) o ho (h1.trans ho) ?_
  rw [hinfo]
  refine (run_visible (sys.cfg w.info o) Prod.snd (fun c s m => Coll.path (((), c) : Unit × Coll (List F) (IrMat F)) s m)
    (fun _ _ _ => rfl) (fun gc => ∀ a ∈ gc.2.arrays, a.dynamic = false) ?_ ?_
    o.source o.proc sys.filt0 o.diags ((sys.execs w ops).g, { o.coll with freq := w.info.updateFreq }) hs).2
    (w.g, { o.coll with freq := w.info.updateFreq }) hs rfl
  · intro a n a' ha h
    by_cases hf : a.2.freq = 0
    · have e : (sys.cfg w.info o).arrUpdate a n = .error .zeroDivision := by
        show Coll.update _ a n = _
        unfold Coll.update
        rw [if_pos hf]
      rw [e] at h
      cases h
    · have e : (sys.cfg w.info o).arrUpdate a n = .ok a := update_static _ a n ha hf
      rw [e] at h
      cases h
      exact ha
  · intro a b n ha hb hab
    by_cases hf : a.2.freq = 0
    · have e : ∀ x : G × Coll (List F) (IrMat F), x.2.freq = 0 → (sys.cfg w.info o).arrUpdate x n = .error .zeroDivision := by
        intro x hx
        show Coll.update _ x n = _
        unfold Coll.update
        rw [if_pos hx]
      rw [e a hf, e b (by rw [← hab]; exact hf)]
    · have e1 : (sys.cfg w.info o).arrUpdate a n = .ok a := update_static _ a n ha hf
      have e2 : (sys.cfg w.info o).arrUpdate b n = .ok b := update_static _ b n hb (by rw [← hab]; exact hf)
      rw [e1, e2]
      show Except.ok a.2 = Except.ok b.2
      rw [hab]

end

/-! ### concrete worlds -/

/-- A system whose only global state is the speed of sound (rounded down), and counting
sources. -/
def shareDemo : ShareSys ℚ (Fir ℚ) Nat (DebugSt ℚ) DemoD DemoO Nat where
  gen := fun _ _ => globalSys.gen demoInfo
  init := globalSys.init
  srcGet := fun p n => .ok (p + n, [(List.range n).map fun k => ((p + k + 1 : Nat) : ℚ)])
  filt := firOps ℚ
  filt0 := demoFilt
  diag := diagOps ℚ (DebugSt ℚ) ℚ

theorem shareDemo_constants : shareDemo.ReadsConstants id (fun i => i.c.floor.toNat) where
  init := fun _ _ => rfl
  keep := by
    intro i i' g s m t r h
    cases h
    rfl
  only := by
    intro i i' g g' s m t h
    have : g = g' := h
    rw [this]

def shareInfo : SimInfo ℚ := { demoInfo with totSamples := 6, simBuffer := 4, chunk := 2, plotOutput := "pdf" }

/-- A setup with a microphone and a source at rest (`none`) or moving, and one simulator
that records the microphone. -/
def shareWorld (traj : Option (Nat → List (List ℚ))) : World ℚ Nat (DebugSt ℚ) DemoD DemoO Nat :=
  shareDemo.execs ⟨shareInfo, demoColl 3 true traj, fun _ => 0, 0, []⟩
    [.create demoProc, .equip 0 none demoProc [okD demoRec]]

/-- What simulator `j` has logged: times and recorded signals; `none` if it was not run or
raised. -/
def shareOutcome (w : World ℚ Nat (DebugSt ℚ) DemoD DemoO Nat) (j : Nat) :
    Option (List (Int × List (List ℚ))) :=
  match w.sims[j]? with
  | some o => o.outcome.bind fun r => r.toOption.map fun l => l.map fun ev =>
      (ev.time, match ev.out with
        | .series sig _ => sig
        | _ => [])
  | none => none

/-- C50 does not hold: the configuration is shared.  Shortening the simulation for the
next simulator shortens the first one, too. -/
theorem C50_violated_config :
    shareOutcome (shareDemo.execs (shareWorld demoTraj) [.run 0]) 0 =
      some [(3, [[3, 349, 692]]), (6, [[3, 349, 692, 1033, 1372, 1709]])] ∧
    shareOutcome (shareDemo.execs (shareWorld demoTraj)
      [.setInfo fun i => { i with totSamples := 3 }, .create demoProc, .run 0]) 0 =
      some [(3, [[3, 349, 692]])] := by
  decide +kernel

/-- C50 does not hold: creating a simulator with another speed of sound (300) changes the
signals of one created before with a moving source, although the configuration is
restored before it is run. -/
theorem C50_violated_constants :
    shareOutcome (shareDemo.execs (shareWorld demoTraj) [.run 0]) 0 =
      some [(3, [[3, 349, 692]]), (6, [[3, 349, 692, 1033, 1372, 1709]])] ∧
    shareOutcome (shareDemo.execs (shareWorld demoTraj)
      [.setInfo fun i => { i with c := 300 }, .create demoProc, .setInfo fun i => { i with c := 343 }, .run 0]) 0 =
      some [(3, [[3, 306, 606]]), (6, [[3, 306, 606, 904, 1200, 1494]])] := by
  decide +kernel

/-- The hypotheses of `C50_partial`, with a moving source and a second simulator from
changed arrays that is run before. -/
example :
    id (shareWorld demoTraj).g = (shareWorld demoTraj).info.c.floor.toNat ∧ 0 < (shareWorld demoTraj).sims.length ∧
    (∀ op ∈ ([.setArrays (fun _ => demoColl 5 true none) id, .create demoProc, .equip 1 none demoProc [okD demoRec],
      .run 1] : List (UserOp ℚ Nat (DebugSt ℚ) DemoD)), op.Other 0) ∧
    shareOutcome (shareDemo.execs (shareWorld demoTraj) [UserOp.setArrays (fun _ => demoColl 5 true none) id,
      .create demoProc, .equip 1 none demoProc [okD demoRec], .run 1]) 1 =
      some [(3, [[5, 353, 701]]), (6, [[5, 353, 701, 1049, 1397, 1745]])] := by
  refine ⟨by decide +kernel, by decide +kernel, ?_, by decide +kernel⟩
  intro op hop
  simp only [List.mem_cons, List.not_mem_nil, or_false] at hop
  rcases hop with rfl | rfl | rfl | rfl
  · trivial
  · trivial
  · exact Nat.one_ne_zero
  · exact Nat.one_ne_zero

/-- The hypotheses of `C50_static_partial`: the operations of `C50_violated_constants`
with a source at rest. -/
example : ∃ o, (shareWorld none).sims[0]? = some o ∧ (∀ a ∈ o.coll.arrays, a.dynamic = false) ∧
    (shareDemo.execs (shareWorld none) [.setInfo fun i => { i with c := 300 }, .create demoProc,
      .setInfo fun i => { i with c := 343 }]).info = (shareWorld none).info ∧
    shareOutcome (shareDemo.execs (shareWorld none) [.run 0]) 0 =
      some [(3, [[3, 349, 695]]), (6, [[3, 349, 695, 1041, 1387, 1733]])] := by
  refine ⟨_, rfl, ?_, by decide +kernel, by decide +kernel⟩
  decide +kernel

end Verif

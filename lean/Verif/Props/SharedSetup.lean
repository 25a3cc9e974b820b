/-
C50: what running simulators leaves of the setup.
-/
import Verif.Props.Shared
namespace Verif

/-- Creating, equipping and running simulators. -/
def UserOp.OfSims {F S P D : Type} : UserOp F S P D → Prop
  | .setInfo _ => False
  | .setArrays _ _ => False
  | _ => True

section
variable {Pt H G K : Type} (k : G → K) (κ : K) (gen : GenFn Pt H G)

theorem setupIr_visible (hpres : ∀ g s m t r, gen g s m t = .ok r → k r.1 = k g)
    (hdep : ∀ g g' s m t, k g = k g' → (gen g s m t).map Prod.snd = (gen g' s m t).map Prod.snd)
    (g g' : G) (c : Coll Pt H) (h : k g = κ) (h' : k g' = κ) :
    (Coll.setupIr gen g c).map Prod.snd = (Coll.setupIr gen g' c).map Prod.snd := by
  obtain ⟨gen', hg'⟩ := genOn_unit k κ gen hpres hdep
  have key : ∀ x : G, k x = κ → (Coll.setupIr gen x c).map Prod.snd = (Coll.setupIr gen' () c).map Prod.snd := by
    intro x hx
    have h1 := projG_setupIr (Subtype.val : {g : G // k g = κ} → G) (genOn k κ gen hpres) gen
      (genOn_val k κ gen hpres) ⟨x, hx⟩ c
    have h2 := projG_setupIr (fun _ : {g : G // k g = κ} => ()) (genOn k κ gen hpres) gen'
      (fun g s m t => hg' g s m t) ⟨x, hx⟩ c
    dsimp only at h1 h2
    rw [h1, h2]
    cases Coll.setupIr (genOn k κ gen hpres) (⟨x, hx⟩ : {g : G // k g = κ}) c <;> rfl
  rw [key g h, key g' h']

end

section
variable {F Fl S P D O G : Type} [Zero F] [Add F] (sys : ShareSys F Fl S P D O G)

/-- C50, the other direction: creating, equipping and running simulators leaves the
configuration, the arrays and the sources of the setup as they were. -/
theorem C50_setup : ∀ (ops : List (UserOp F S P D)) (w : World F S P D O G), (∀ op ∈ ops, op.OfSims) →
    (sys.execs w ops).info = w.info ∧ (sys.execs w ops).coll = w.coll ∧ (sys.execs w ops).source = w.source
  | [], _, _ => ⟨rfl, rfl, rfl⟩
  | op :: ops, w, h => by
    obtain ⟨h1, h2, h3⟩ := C50_setup ops (sys.exec w op) fun o ho => h o (by simp [ho])
    have hop := h op (by simp)
    have key : (sys.exec w op).info = w.info ∧ (sys.exec w op).coll = w.coll ∧ (sys.exec w op).source = w.source := by
      cases op with
      | setInfo f => exact hop.elim
      | setArrays f s => exact hop.elim
      | create p0 =>
        unfold ShareSys.exec
        dsimp only
        split_ifs
        · exact ⟨rfl, rfl, rfl⟩
        · split <;> exact ⟨rfl, rfl, rfl⟩
      | equip i a b c => exact ⟨rfl, rfl, rfl⟩
      | run i =>
        unfold ShareSys.exec
        dsimp only
        split
        · exact ⟨rfl, rfl, rfl⟩
        · split <;> exact ⟨rfl, rfl, rfl⟩
    exact ⟨h1.trans key.1, h2.trans key.2.1, h3.trans key.2.2⟩

/-- C50, a repeated setup: a simulator created after others were created, equipped and run
is the same as one created at once, if the responses are not random. -/
theorem C50_again {K : Type} (k : G → K) (κ : SimInfo F → K) (hc : sys.ReadsConstants k κ) (w : World F S P D O G)
    (ops : List (UserOp F S P D)) (hops : ∀ op ∈ ops, op.OfSims) (p0 : P) {o : SimObj F S P D O}
    (ho : (sys.exec w (.create p0)).sims[w.sims.length]? = some o) :
    (sys.exec (sys.execs w ops) (.create p0)).sims[(sys.execs w ops).sims.length]? = some o := by
  obtain ⟨e1, e2, e3⟩ := C50_setup sys ops w hops
  have ho' := ho
  unfold ShareSys.exec at ho ⊢
  dsimp only at ho ⊢
  rw [e1, e2, e3]
  split_ifs at ho ⊢
  · simp at ho
  · unfold setupArrays at ho ⊢
    have hv := setupIr_visible k (κ w.info) (sys.gen w.info w.info) (hc.keep _ _) (hc.only _ _)
      (sys.init w.info w.g) (sys.init w.info (sys.execs w ops).g)
      { w.coll.setDefault w.info.reverb with freq := w.info.updateFreq } (hc.init _ _) (hc.init _ _)
    change (Coll.setupIr (sys.gens.gen w.info) (sys.gens.init w.info w.g) _).map Prod.snd =
      (Coll.setupIr (sys.gens.gen w.info) (sys.gens.init w.info (sys.execs w ops).g) _).map Prod.snd at hv
    cases h1 : Coll.setupIr (sys.gens.gen w.info) (sys.gens.init w.info w.g)
        { w.coll.setDefault w.info.reverb with freq := w.info.updateFreq } with
    | error x =>
      rw [h1] at ho
      simp at ho
    | ok r =>
      rw [h1] at hv ho
      cases h2 : Coll.setupIr (sys.gens.gen w.info) (sys.gens.init w.info (sys.execs w ops).g)
          { w.coll.setDefault w.info.reverb with freq := w.info.updateFreq } with
      | error x => rw [h2] at hv; cases hv
      | ok r' =>
        rw [h2] at hv
        have : r.2 = r'.2 := Except.ok.inj hv
        dsimp only at ho ⊢
        rw [List.getElem?_concat_length] at ho ⊢
        rw [← this]
        exact ho

end

/-- The first simulator (moving source) is equipped and run; the setup and the next
simulator created are as before. -/
example : (∀ op ∈ ([.run 0, .create demoProc, .equip 1 none demoProc [okD demoRec], .run 1] :
      List (UserOp ℚ Nat (DebugSt ℚ) DemoD)), op.OfSims) ∧
    shareOutcome (shareDemo.execs (shareWorld demoTraj) [.run 0, .create demoProc, .equip 1 none demoProc [okD demoRec],
      .run 1]) 1 = some [(3, [[3, 349, 692]]), (6, [[3, 349, 692, 1033, 1372, 1709]])] ∧
    ∃ o, (shareDemo.exec (shareWorld demoTraj) (.create demoProc)).sims[(shareWorld demoTraj).sims.length]? = some o := by
  refine ⟨?_, by decide +kernel, _, rfl⟩
  intro op hop
  simp only [List.mem_cons, List.not_mem_nil, or_false] at hop
  rcases hop with rfl | rfl | rfl | rfl <;> trivial

end Verif

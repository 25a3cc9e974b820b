/-
C123: saving the contributions of the sources only observes.
-/
import Verif.Lemmas.AlikeBase
import Verif.Lemmas.HideRun
import Verif.Demo.Small
namespace Verif

/-- The names of the contribution signals: source, tilde, microphone array. -/
def isContrib (arrays : List ArrInfo) (k : String) : Bool := (combosOf arrays).any fun p => k == contribName p.1 p.2

section
variable {R IR F S A P V : Type} [Field R] [DecidableEq R]

/-- **C123** If a simulation with `save_source_contributions` completes, then it completes as well
without it, provided that the processor and the diagnostics do not use the contribution
signals.  All other signals, the sources, the filters, the arrays, the processor, the diagnostics and the
exported results are the same. -/
theorem C123_contributions (cfg : SimCfg R IR F S A P (DData R P V) (DOut R V))
    (hdiag : cfg.diag = diagOps R P V) (hcon : cfg.contrib = true)
    (hproc : ∀ p, cfg.proc = some p → p.Ignores (isContrib cfg.arrays))
    {ds : List (Diag (DData R P V))} (hds : ∀ d ∈ ds, ∀ k ∈ d.data.reads, isContrib cfg.arrays k = false)
    {srcs : String → S} {arr : A} {proc : P} {f0 : F} {fin : SimSt R F S A P (DData R P V) (DOut R V)}
    (h : cfg.run srcs arr proc f0 ds = .ok fin) :
    ∃ fin', { cfg with contrib := false }.run srcs arr proc f0 ds = .ok fin' ∧
      (∀ k, isContrib cfg.arrays k = false → fin'.eng.sig k = fin.eng.sig k) ∧
      (∀ p ∈ combosOf cfg.arrays, fin'.eng.filts p.1.name p.2.name = fin.eng.filts p.1.name p.2.name) ∧
      fin'.eng.srcs = fin.eng.srcs ∧ fin'.eng.arr = fin.eng.arr ∧ fin'.eng.proc = fin.eng.proc ∧
      fin'.idx = fin.idx ∧ fin'.n = fin.n ∧ fin'.diags = fin.diags ∧ fin'.log = fin.log := by
  have hN : Names cfg := by
    unfold SimCfg.run at h
    split at h
    · cases h
    · rename_i st hst
      exact names_of cfg (init_nodup cfg hst)
  obtain ⟨dyn, hd1, hd2⟩ := exists_dyn cfg.arrays hN.inj
  have hpd : ∀ p ∈ combosOf cfg.arrays, pairDyn dyn p = p := by
    intro p hp
    have hm := mem_combos_src hp
    have e : ∀ a ∈ cfg.arrays, a.withDyn dyn = a := fun a ha => by
      unfold ArrInfo.withDyn
      rw [hd2 a ha]
    unfold pairDyn
    rw [e _ hm.1, e _ hm.2.2]
  have H : Alike (isContrib cfg.arrays) dyn cfg { cfg with contrib := false } (fun a a' => a = a')
      (fun _ _ f f' => f = f') := by
    refine ⟨rfl, rfl, rfl, rfl, rfl, rfl, rfl, rfl, hd1.symm, (by simp), ?_, ?_, fun p hp => (hproc p hp).1,
      fun p hp => (hproc p hp).2, ?_, ?_, ?_, ?_⟩
    · intro _ p hp
      unfold isContrib
      exact List.any_eq_true.2 ⟨p, hp, by simp⟩
    · intro a ha
      unfold isContrib
      rw [List.any_eq_false]
      intro p hp
      have := hN.conArr hcon p hp a ha
      simpa using fun e : a.name = contribName p.1 p.2 => this e.symm
    · rintro a a' a1 n rfl hu
      exact ⟨a1, hu, rfl⟩
    · rintro a a' rfl p hp ir hir
      have hm := mem_combos_src hp
      refine ⟨ir, hir, ?_⟩
      rw [hd2 _ hm.1, hd2 _ hm.2.2]
    · rintro p hp f f' x g y rfl hx
      exact ⟨g, hx, rfl⟩
    · rintro a a' rfl p hp f f' g rfl hg
      rw [hpd p hp]
      exact ⟨g, hg, rfl⟩
  obtain ⟨fin', h1, h2⟩ := H.run (Pd := fun d => ∀ k ∈ d.reads, isContrib cfg.arrays k = false)
    (by rw [hdiag]; exact diagOps_blind _) rfl (f0' := f0) hds h
  exact ⟨fin', h1, fun k hk => (h2.eng.sig k hk).symm, fun p hp => (h2.eng.filts p hp).symm, h2.eng.srcs.symm,
    h2.eng.arr.symm, h2.eng.proc.symm, h2.idx.symm, h2.n.symm, h2.diags.symm, h2.log.symm⟩

end

/-- The debug processor uses the signals "mic" and "loudspeaker" only. -/
theorem debug_ignores {R : Type} {hid : String → Bool} (h1 : hid "mic" = false) (h2 : hid "loudspeaker" = false) (tot bs : Nat) :
    (debugProc tot bs : Proc R (DebugSt R)).Ignores hid := by
  refine ⟨fun q hq => (List.not_mem_nil hq).elim, ?_⟩
  intro x S S' i x1 S1 hS hp
  change debugProcess tot bs x S i = .ok (x1, S1) at hp
  change ∃ S1', debugProcess tot bs x S' i = .ok (x1, S1') ∧ _
  unfold debugProcess at hp ⊢
  have hg : sigGet S' "mic" (i - bs) i = sigGet S "mic" (i - bs) i := by
    unfold sigGet
    rw [hS "mic" h1]
  rw [hg]
  split at hp
  · cases hp
  · rename_i v hv
    split at hp
    · cases hp
    · rename_i sig hsig
      obtain ⟨sig', h3, h4⟩ := (sigAssign_hide (S' := S') hS hsig).1 h2
      rw [h3]
      dsimp only at hp ⊢
      rw [← h4 _ h1, ← h4 _ h2]
      split at hp
      · rename_i mic ls hm hl
        split at hp
        · cases hp
        · rename_i p' hf
          cases hp
          exact ⟨_, rfl, h4⟩
      · cases hp

/-- The closed loop of the demonstration run with and without contributions. -/
example : ∃ fin fin', (demoCfg 4 2 6).run (fun _ => 0) () demoProc demoFilt demoDs = .ok fin ∧
    { demoCfg 4 2 6 with contrib := false }.run (fun _ => 0) () demoProc demoFilt demoDs = .ok fin' ∧
    fin'.log = fin.log ∧ fin.log.length = 6 ∧ fin'.eng.sig "mic" = fin.eng.sig "mic" ∧
    fin.eng.sig "src~mic" ≠ fin'.eng.sig "src~mic" := by
  obtain ⟨st0, fin, h, hl⟩ := demo_completed
  obtain ⟨fin', h1, h2, -, -, -, -, -, -, -, h3⟩ := C123_contributions (demoCfg 4 2 6) rfl rfl
    (by rintro p ⟨⟩; exact debug_ignores (by decide) (by decide) 6 2)
    (ds := demoDs) (by
      intro d hd k hk
      simp only [demoDs, List.mem_cons, List.not_mem_nil, or_false] at hd
      have : k = "mic" ∨ k = "loudspeaker" := by
        rcases hd with rfl | rfl | rfl
        · exact .inl (List.mem_singleton.1 hk)
        · exact .inl (List.mem_singleton.1 hk)
        · exact .inr (List.mem_singleton.1 hk)
      rcases this with rfl | rfl <;> decide) h.run
  refine ⟨fin, fin', h.run, h1, h3, ?_, h2 _ (by decide), ?_⟩
  · have := congrArg List.length hl
    simpa using this
  · have e1 : ((demoCfg 4 2 6).run (fun _ => 0) () demoProc demoFilt demoDs).map (fun st => (st.eng.sig "src~mic").isSome) =
        .ok true := rfl
    have e2 : (({ demoCfg 4 2 6 with contrib := false } : SimCfg ℚ (IrMat ℚ) (Fir ℚ) Nat Unit (DebugSt ℚ) DemoD DemoO).run
        (fun _ => 0) () demoProc demoFilt demoDs).map (fun st => (st.eng.sig "src~mic").isSome) = .ok false := rfl
    rw [h.run] at e1
    rw [h1] at e2
    have e1 := Except.ok.inj e1
    have e2 := Except.ok.inj e2
    intro e
    dsimp only at e1 e2
    rw [e] at e1
    rw [e1] at e2
    cases e2

end Verif

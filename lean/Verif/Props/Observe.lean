/-
Properties C109 and C110: diagnostics and microphones only observe.
-/
import Verif.Lemmas.Observe
import Verif.Lemmas.HideRun
import Verif.Props.Room
namespace Verif

section
variable {R IR F S A P D O : Type} [Zero R] [Add R]

/-- C109: a run with fewer diagnostics gives the same signals, sources, filters, arrays and
processor; every diagnostic that is kept ends in the same state, and the exported results
are those of the kept diagnostics, in the same order, at the same times. -/
theorem C109_fewer (cfg : SimCfg R IR F S A P D O) (keep : String → Bool) (srcs : String → S) (arr : A) (proc : P)
    (f0 : F) (ds : List (Diag D)) {fin : SimSt R F S A P D O} (h : cfg.run srcs arr proc f0 ds = .ok fin) :
    ∃ fin', cfg.run srcs arr proc f0 (ds.filter fun d => keep d.name) = .ok fin' ∧
      fin'.eng = fin.eng ∧ fin'.idx = fin.idx ∧ fin'.n = fin.n ∧
      fin'.diags = fin.diags.filter (fun d => keep d.name) ∧
      fin'.log = fin.log.filter (fun e => keep e.diag) :=
  ⟨_, run_keep keep srcs arr proc f0 ds h, rfl, rfl, rfl, rfl, rfl⟩

/-- C109: two sets of diagnostics that can each be used alone can be used together, and then
the exported results of either set are those of its own run. -/
theorem C109_together (cfg : SimCfg R IR F S A P D O) (keep : String → Bool) (srcs : String → S) (arr : A) (proc : P)
    (f0 : F) (ds : List (Diag D)) {s1 s2 : SimSt R F S A P D O}
    (h1 : cfg.run srcs arr proc f0 (ds.filter fun d => keep d.name) = .ok s1)
    (h2 : cfg.run srcs arr proc f0 (ds.filter fun d => !keep d.name) = .ok s2) :
    ∃ fin, cfg.run srcs arr proc f0 ds = .ok fin ∧ fin.eng = s1.eng ∧ fin.eng = s2.eng ∧
      fin.log.filter (fun e => keep e.diag) = s1.log ∧ fin.log.filter (fun e => !keep e.diag) = s2.log := by
  obtain ⟨fin, hf⟩ := run_join keep srcs arr proc f0 ds h1 h2
  have e1 := (run_keep keep srcs arr proc f0 ds hf).symm.trans h1
  have e2 := (run_keep (fun s => !keep s) srcs arr proc f0 ds hf).symm.trans h2
  have e1 := Except.ok.inj e1
  have e2 := Except.ok.inj e2
  have a1 := congrArg SimSt.eng e1
  have a2 := congrArg SimSt.eng e2
  have a3 := congrArg SimSt.log e1
  have a4 := congrArg SimSt.log e2
  exact ⟨fin, hf, a1, a2, a3, a4⟩

/-- The demonstration run with one of the three recordings. -/
example : ∃ fin', (demoCfg 4 2 6).run (fun _ => 0) () demoProc demoFilt [okD demoRec] = .ok fin' ∧
    fin'.log.map (fun ev => (ev.diag, ev.time)) = [("rec", 3), ("rec", 6)] := by
  obtain ⟨st0, fin, h, hl⟩ := demo_completed
  obtain ⟨fin', h1, -, -, -, -, h2⟩ := C109_fewer (demoCfg 4 2 6) (fun s => s == "rec") _ _ _ _ _ h.run
  refine ⟨fin', h1, ?_⟩
  have e : ∀ l : List (Event DemoO), (l.filter fun e => e.diag == "rec").map (fun ev => (ev.diag, ev.time)) =
      (l.map fun ev => (ev.diag, ev.time)).filter fun p => p.1 == "rec" := fun l => by
    rw [List.filter_map]; rfl
  rw [h2, e, hl]
  decide

end

section
variable {F K R S P V G : Type} [Field K] [LinearOrder K] [Field R] [DecidableEq R]

/-- C110: leaving out microphones changes nothing else.  If a simulation completes, then it
completes as well without the microphones `M`, provided that the processor and the
diagnostics do not use the signals of these microphones.  All other signals, the sources,
the filters and impulse responses to the other microphones, the processor, the diagnostics
and the exported results are the same.  The image-source method must be deterministic, and
paths to the other microphones must not be of type "random", as all random responses come
from one generator. -/
theorem C110_run (base : SimCfg R (IrMat R) F S (G × Coll (K × K × K) (IrMat R)) P (DData R P V) (DOut R V))
    (hdiag : base.diag = diagOps R P V) (ext : RoomExt K R G) (i : RoomInfo K) (g : G) (c : Coll (K × K × K) (IrMat R))
    (srcs : String → S) (proc : P) (f0 : F) (ds : List (Diag (DData R P V))) (M : List String)
    (hc : c.Consistent) (hM : ∀ m ∈ M, m ∈ c.mics)
    (hrir : ∀ b g g' ss ms, (ext.rir b g ss ms).2 = (ext.rir b g' ss ms).2)
    (hrand : ∀ s m, m ∉ M → c.types s m ≠ some "random")
    (hproc : ∀ p, base.proc = some p → p.Ignores (signalOf base.contrib c.infos M))
    (hds : ∀ d ∈ ds, ∀ k ∈ d.data.reads, signalOf base.contrib c.infos M k = false)
    {fin : SimSt R F S (G × Coll (K × K × K) (IrMat R)) P (DData R P V) (DOut R V)}
    (h : simulate base ext i g c srcs proc f0 ds = .ok fin) :
    ∃ fin', simulate base ext i g (c.without M) srcs proc f0 ds = .ok fin' ∧
      (∀ k, signalOf base.contrib c.infos M k = false → fin'.eng.sig k = fin.eng.sig k) ∧
      (∀ s m, signalOf base.contrib c.infos M m = false → fin'.eng.filts s m = fin.eng.filts s m) ∧
      (∀ s m, m ∉ M → fin'.eng.arr.2.paths s m = fin.eng.arr.2.paths s m) ∧
      fin'.eng.srcs = fin.eng.srcs ∧ fin'.eng.proc = fin.eng.proc ∧ fin'.idx = fin.idx ∧ fin'.n = fin.n ∧
      fin'.diags = fin.diags ∧ fin'.log = fin.log := by
  obtain ⟨fin', h1, hr⟩ := simulate_without hc hM hrir hrand hproc (by rw [hdiag]; exact diagOps_blind _) hds h
  exact ⟨fin', h1, fun k hk => (hr.eng.sig k hk).symm, fun s m hm => (hr.eng.filts s m hm).symm,
    fun s m hm => (hr.eng.arr.paths s m (by simpa using hm)).symm, hr.eng.srcs.symm, hr.eng.proc.symm, hr.idx.symm,
    hr.n.symm, hr.diags.symm, hr.log.symm⟩

/-- C110: the collection without the microphones `M` is the one that is made by adding only
the other arrays. -/
theorem C110_setup {Pt H : Type} (f : Nat) (as : List (Arr Pt)) (t : String) (M : List String)
    (h : ∀ a ∈ as, a.name ∈ M → a.kind = some .mic) :
    (((Coll.empty f : Coll Pt H).addAll as).setDefault t).without M =
      ((Coll.empty f).addAll (as.filter fun a => !M.contains a.name)).setDefault t := by
  rw [setDefault_without, addAll_without as _ (fun a ha hm => h a ha (by simpa using hm)), without_empty]

end

/-! ### the concrete room with one more microphone -/

/-- A microphone that is added before the others. -/
def boxMic : Arr (ℚ × ℚ × ℚ) := ⟨"first", some .mic, 1, [(1, 1, 3)], none, 1, none, true, []⟩

/-- The arrays of the box with one more microphone. -/
def boxColl2 (t : String) : Coll (ℚ × ℚ × ℚ) (IrMat ℚ) := ((Coll.empty 2).addAll (boxMic :: boxArrays)).setDefault t

theorem boxColl2_without (t : String) : (boxColl2 t).without ["first"] = boxColl t :=
  C110_setup 2 (boxMic :: boxArrays) t ["first"] (by
    intro a ha hm
    simp only [boxArrays, List.mem_cons, List.not_mem_nil, or_false] at ha hm
    rcases ha with rfl | rfl | rfl <;> first | rfl | exact absurd hm (by decide))

theorem boxColl2_consistent (t : String) : (boxColl2 t).Consistent :=
  Coll.setDefault_consistent (Coll.addAll_spec _ (Coll.empty_consistent 2) (by
    intro a ha
    simp only [boxArrays, List.mem_cons, List.not_mem_nil, or_false] at ha
    rcases ha with rfl | rfl | rfl <;> simp [boxMic])).1 t

/-- With image-source responses the other microphones do not notice. -/
example : ∃ fin fin', boxSim boxInfo (boxColl2 "ism") = .ok fin ∧ boxSim boxInfo (boxColl "ism") = .ok fin' ∧
    fin'.eng.sig "mic" = fin.eng.sig "mic" ∧ fin.eng.sig "mic" ≠ none ∧ fin.eng.sig "first" ≠ none ∧
    fin'.eng.sig "first" = none := by
  have hx : (match boxSim boxInfo (boxColl2 "ism"), boxSim boxInfo (boxColl "ism") with
      | .ok fin, .ok fin' => (fin.eng.sig "mic").isSome && (fin.eng.sig "first").isSome && (fin'.eng.sig "first").isNone
      | _, _ => false) = true := by decide +kernel
  cases h : boxSim boxInfo (boxColl2 "ism") with
  | error x => rw [h] at hx; cases hx
  | ok fin =>
    obtain ⟨fin', h1, h2, -⟩ := C110_run boxBase rfl boxExt boxInfo 0 (boxColl2 "ism") (fun _ => 0) () demoFilt [] ["first"]
      (boxColl2_consistent _) (by decide +kernel) (fun _ _ _ _ _ => rfl)
      (by
        intro s m hm
        have : (boxColl2 "ism").types s m = if s = "src" ∧ m = "mic" then some "ism" else
          if s = "src" ∧ m = "first" then some "ism" else none := rfl
        rw [this]
        split
        · decide
        · split
          · decide
          · simp)
      (by intro p hp; cases hp) (by simp) h
    rw [boxColl2_without] at h1
    have h1 : boxSim boxInfo (boxColl "ism") = .ok fin' := h1
    rw [h, h1] at hx
    simp only [Bool.and_eq_true, Option.isNone_iff_eq_none] at hx
    exact ⟨fin, fin', rfl, h1, h2 "mic" (by decide +kernel), fun e => by rw [e] at hx; simp at hx,
      fun e => by rw [e] at hx; simp at hx, hx.2⟩

/-- C110, the exception: with random responses an additional microphone changes the signal
of another one, as both responses come from the same generator. -/
theorem C110_random : (boxColl2 "random").without ["first"] = boxColl "random" ∧
    micBuffer ((boxSim boxInfo (boxColl2 "random")).map observe) ≠
    micBuffer ((boxSim boxInfo (boxColl "random")).map observe) :=
  ⟨boxColl2_without _, by decide +kernel⟩

end Verif

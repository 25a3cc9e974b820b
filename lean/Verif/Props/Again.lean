/-
C112: calling `run_simulation` a second time on the same simulator.
-/
import Verif.Lemmas.Again
import Verif.Props.Signals
import Verif.Props.Recording
import Verif.Demo.Small
namespace Verif

section
variable {R IR F S A P V : Type} [Field R] [DecidableEq R]
  {cfg : SimCfg R IR F S A P (DData R P V) (DOut R V)} {lp : ProcView R P}
  {srcs : String → S} {arr : A} {proc : P} {f0 f1 : F} {ds0 : List (Diag (DData R P V))}
  {st0 fin : SimSt R F S A P (DData R P V) (DOut R V)}

/-- **C112** A second run neither changes what the diagnostics of the first run have recorded
nor exports anything again. -/
theorem C112_recordings (h : CompletedRun cfg lp srcs arr proc f0 ds0 st0 fin)
    (hiv : ∀ d ∈ ds0, ∃ ivs, d.saveAt = IvCounter.init ivs ∧ Increasing 0 ivs ∧ ∀ q ∈ ivs, q.2 ≤ (cfg.tot : Int))
    {fin2 : SimSt R F S A P (DData R P V) (DOut R V)} (h2 : cfg.runAgain fin f1 fin.diags = .ok fin2) :
    fin2.diags = fin.diags ∧ fin2.log = [] := by
  obtain ⟨e0, te, _, hR, _⟩ := h.runInv
  have hall : ∀ d ∈ fin.diags, d.saveAt.start = none ∧ (cfg.plotNone = false → d.ready = false) := by
    intro d hd
    obtain ⟨d0, hd0, _, hD⟩ := forall₂_mem_left hR.diags.flip hd
    obtain ⟨ivs, hs, hinc, hle⟩ := hiv d0 hd0
    obtain ⟨ps, xs, r, hI, hready⟩ := hD ⟨ivs, hs, hinc⟩
    have hI' := hI.iv
    rw [show d0.saveAt.left = ivs by rw [hs, IvCounter.left_init]] at hI'
    refine ⟨?_, hready⟩
    rcases hI'.2.2 with g | ⟨done, dp, cp, a, s, e, g1, _, _, _, _, _, _, g8, _⟩
    · exact g.2.1
    · have := hle (a, e) (by rw [g1]; simp)
      have := h.sizes.block
      simp only at *
      omega
  unfold SimCfg.runAgain SimCfg.run at h2
  split at h2
  · cases h2
  · rename_i s0 hs0
    have hd0 : s0.diags = fin.diags ∧ s0.log = [] := by
      unfold SimCfg.init at hs0
      split at hs0
      · cases hs0
      · split at hs0
        · cases hs0
        · split at hs0
          · cases hs0
          · cases hs0; exact ⟨rfl, rfl⟩
    split at h2
    · cases h2
    · rename_i s1 hs1
      obtain ⟨i1, i2⟩ := steps_idle (fun d hd => (hall d (by rwa [← hd0.1])).1)
        (fun hp d hd => (hall d (by rwa [← hd0.1])).2 hp) _ hs1
      rw [i1, hd0.1, dispatch_idle (fun hp d hd => (hall d hd).2 hp)] at h2
      cases h2
      exact ⟨rfl, by rw [i2, hd0.2]⟩

/-- **C112** In a second run the free sources go on where they stopped: the first run took `sim_buffer`
samples (with `start_sources_before_0`) or one during preparation and one in each iteration. -/
theorem C112_sources (h : CompletedRun cfg lp srcs arr proc f0 ds0 st0 fin) {a : ArrInfo} (ha : a ∈ cfg.arrays)
    (hfree : a.kind = .free) {x : Nat → Nat → R} (hx : IsStream cfg.srcGet (srcs a.name) a.num x)
    {ds1 : List (Diag (DData R P V))} {st1 st : SimSt R F S A P (DData R P V) (DOut R V)} {k : Nat}
    (hn : (ds1.map Diag.name).Nodup) (h2 : cfg.init fin.eng.srcs fin.eng.arr fin.eng.proc f1 ds1 = .ok st1)
    (hk : cfg.steps k st1 = .ok st) :
    ∀ t ≤ k, ∀ c v, cfg.Produced st1 a.name c t v ↔ c < a.num ∧
      v = x c (if cfg.warm then cfg.B + cfg.tot + cfg.mbs + (cfg.B - 1) + t else 1 + cfg.tot + cfg.mbs + t) := by
  have hS : Started cfg lp srcs arr proc f0 ds0 st0 := ⟨h.sizes, h.diag, h.names, h.init⟩
  have hS1 : Started cfg lp fin.eng.srcs fin.eng.arr fin.eng.proc f1 ds1 st1 := ⟨h.sizes, h.diag, hn, h2⟩
  obtain ⟨s, hs, hsf⟩ := h.last
  obtain ⟨e0, he0, te, off, r, hI⟩ := call_state cfg hS.sizes hS.local hS.names hS.init hs
  have ham : a ∈ freeOf cfg.arrays := by
    unfold freeOf; rw [List.mem_filter]; exact ⟨ha, by simpa using hfree⟩
  obtain ⟨g1, g2⟩ := tInit_source cfg hS.nm he0 ham hx
  obtain ⟨g3, _⟩ := tSteps_source cfg hS.nm ham g1 g2 _ hI.tape
  have hsrc : fin.eng.srcs = te.srcs := by rw [hsf, hI.eng]; rfl
  have hst : IsStream cfg.srcGet (fin.eng.srcs a.name) a.num (fun c j => x c (cfg.prepNum + (cfg.tot + cfg.mbs) + j)) := by
    rw [hsrc]
    exact g3.isStream
  intro t ht c v
  rw [C12_source_order hS1 hk ha hfree hst t ht c v]
  have : (cfg.prepNum + (cfg.tot + cfg.mbs) + ((if cfg.warm then cfg.B - 1 else 0) + t)) =
      (if cfg.warm then cfg.B + cfg.tot + cfg.mbs + (cfg.B - 1) + t else 1 + cfg.tot + cfg.mbs + t) := by
    unfold SimCfg.prepNum
    split <;> omega
  rw [this]

/-- **C112** What a recording made in the second run shows of a free source: the samples that follow
those taken in the first run. -/
theorem C112_recorded (h : CompletedRun cfg lp srcs arr proc f0 ds0 st0 fin) {a : ArrInfo} (ha : a ∈ cfg.arrays)
    (hfree : a.kind = .free) {x : Nat → Nat → R} (hx : IsStream cfg.srcGet (srcs a.name) a.num x)
    {ds1 : List (Diag (DData R P V))} {fin2 : SimSt R F S A P (DData R P V) (DOut R V)}
    (hn : (ds1.map Diag.name).Nodup) (h2 : cfg.runAgain fin f1 ds1 = .ok fin2)
    {info : DiagInfo} {name : String} {ex : Option IdxSel} {numCh : Nat} {chan : Option (List Int)} {rows : List Nat}
    {d : Diag (DData R P V)} (hd : mkRecordSignal info name a.name ex none numCh chan = .ok d) (hmem : d ∈ ds1)
    (htot : info.tot = cfg.tot) (hpos : 0 < cfg.tot) (hsig : cfg.dims a.name = some a.num)
    (hrows : chanRows a.num chan = some rows) (hlen : rows.length = numCh) :
    ∃ d' ∈ fin2.diags, d'.name = name ∧ ∃ signal : Mat (Option R), d'.data = .recSignal a.name chan signal ∧
      signal.length = numCh ∧ ∀ (j c : Nat), rows[j]? = some c → ∃ row, signal[j]? = some row ∧
        row.length = cfg.tot ∧ ∀ t < cfg.tot, row[t]? = some (some
          (x c (if cfg.warm then cfg.B + cfg.tot + cfg.mbs + (cfg.B - 1) + t else 1 + cfg.tot + cfg.mbs + t))) := by
  obtain ⟨st1, hi⟩ := runAgain_init h2
  have hC : CompletedRun cfg lp fin.eng.srcs fin.eng.arr fin.eng.proc f1 ds1 st1 fin2 := ⟨h.sizes, h.diag, hn, hi, h2⟩
  obtain ⟨s, hs, _⟩ := hC.last
  obtain ⟨d', g1, g2, signal, g3, g4, g5⟩ := C01_recording hC hd hmem htot hpos hsig hrows hlen
  refine ⟨d', g1, g2, signal, g3, g4, ?_⟩
  intro j c hjc
  obtain ⟨row, k1, k2, k3⟩ := g5 j c hjc
  refine ⟨row, k1, k2, ?_⟩
  intro t ht
  obtain ⟨v, hv, hr⟩ := k3 t ht
  rw [hr, ((C112_sources h ha hfree hx hn hi hs t (by omega) c v).1 hv).2]

end

theorem demo_again : ∃ st0 fin fin2, CompletedRun (demoCfg 4 2 6) ((debugProc 6 2).view 2) (fun _ => 0) () demoProc demoFilt
    demoDs st0 fin ∧ (demoCfg 4 2 6).runAgain fin demoFilt fin.diags = .ok fin2 := by
  obtain ⟨st0, fin, h, _⟩ := demo_completed
  have h1 : (((demoCfg 4 2 6).run (fun _ => 0) () demoProc demoFilt demoDs).bind
      fun fin => (demoCfg 4 2 6).runAgain fin demoFilt fin.diags).map (fun fin => fin.n) = .ok 8 := by rfl
  obtain ⟨fin2, h2⟩ := runAgain_of_bind h.run h1
  exact ⟨st0, fin, fin2, h, h2⟩

/-- The three recordings of the demonstration, with six exports in the first run. -/
example : ∃ fin fin2, (demoCfg 4 2 6).run (fun _ => 0) () demoProc demoFilt demoDs = .ok fin ∧
    (demoCfg 4 2 6).runAgain fin demoFilt fin.diags = .ok fin2 ∧ fin2.diags = fin.diags ∧ fin2.log = [] := by
  obtain ⟨st0, fin, fin2, h, h2⟩ := demo_again
  refine ⟨fin, fin2, h.run, h2, C112_recordings h ?_ h2⟩
  intro d hd
  simp only [demoDs, List.mem_cons, List.not_mem_nil, or_false] at hd
  rcases hd with rfl | rfl | rfl
  · exact ⟨[(0, 6)], rfl, by simp [Increasing], by simp [demoCfg]⟩
  · exact ⟨[(1, 2), (3, 6)], rfl, by simp [Increasing], by simp [demoCfg]⟩
  · exact ⟨[(0, 6)], rfl, by simp [Increasing], by simp [demoCfg]⟩

/-- The counting source has delivered 1 to 9 in the first run; the second one starts with 10. -/
example : ∃ fin st1, (demoCfg 4 2 6).run (fun _ => 0) () demoProc demoFilt demoDs = .ok fin ∧
    (demoCfg 4 2 6).init fin.eng.srcs fin.eng.arr fin.eng.proc demoFilt fin.diags = .ok st1 ∧
    (demoCfg 4 2 6).Produced st1 "src" 0 0 10 := by
  obtain ⟨st0, fin, fin2, h, h2⟩ := demo_again
  obtain ⟨st1, hi⟩ := runAgain_init h2
  have hn : (fin.diags.map Diag.name).Nodup := by
    obtain ⟨_, _, _, hR, _⟩ := h.runInv
    rw [forall₂_map_name hR.diags (fun _ _ hD => hD.1)]
    exact h.names
  refine ⟨fin, st1, h.run, hi, ?_⟩
  rw [C112_sources h (a := ⟨"src", 1, .free, false⟩) (by simp [demoCfg]) rfl (demo_stream 4 2 6) hn hi (k := 0) rfl 0 (le_refl _)]
  exact ⟨by decide, by show (10 : ℚ) = ((1 + 6 + 2 + 0 + 1 : Nat) : ℚ); norm_num⟩

def againRec : Except PyErr (Diag DemoD) := mkRecordSignal ⟨6, 3, 1⟩ "again" "src" none none 1 none

/-- A recording of the counting source added for the second run shows 10 to 15. -/
example : ∃ st0 fin fin2, CompletedRun (demoCfg 4 2 6) ((debugProc 6 2).view 2) (fun _ => 0) () demoProc demoFilt
      demoDs st0 fin ∧ (demoCfg 4 2 6).runAgain fin demoFilt [okD againRec] = .ok fin2 ∧
    ∃ d' ∈ fin2.diags, d'.name = "again" ∧ ∃ row, d'.data = .recSignal "src" none [row] ∧ row.length = 6 ∧
      ∀ t < 6, row[t]? = some (some ((10 + t : Nat) : ℚ)) := by
  obtain ⟨st0, fin, h, _⟩ := demo_completed
  have h1 : (((demoCfg 4 2 6).run (fun _ => 0) () demoProc demoFilt demoDs).bind
      fun fin => (demoCfg 4 2 6).runAgain fin demoFilt [okD againRec]).map (fun fin => fin.n) = .ok 8 := by rfl
  rw [h.run] at h1
  cases h2 : (demoCfg 4 2 6).runAgain fin demoFilt [okD againRec] with
  | error e => simp only [Except.bind, h2] at h1; cases h1
  | ok fin2 =>
    obtain ⟨d', g1, g2, signal, g3, g4, g5⟩ := C112_recorded h (a := ⟨"src", 1, .free, false⟩) (by simp [demoCfg]) rfl
      (demo_stream 4 2 6) (by simp) h2 (info := ⟨6, 3, 1⟩) (name := "again") (ex := none) (numCh := 1) (chan := none)
      (rows := [0]) (d := okD againRec) rfl (by simp) rfl (by decide) rfl rfl rfl
    obtain ⟨row, k1, k2, k3⟩ := g5 0 0 rfl
    refine ⟨st0, fin, fin2, h, h2, d', g1, g2, row, ?_, k2, ?_⟩
    · rw [g3]
      match signal, g4, k1 with
      | [r], _, k1 => cases k1; rfl
    · intro t ht
      rw [k3 t ht]
      rw [if_neg (by decide)]
      refine congrArg (fun q => some (some q)) ?_
      rw [show (10 + t : Nat) = (1 + (demoCfg 4 2 6).tot + (demoCfg 4 2 6).mbs + t) + 1 by
        rw [show (demoCfg 4 2 6).tot = 6 from rfl, show (demoCfg 4 2 6).mbs = 2 from rfl]; omega]

end Verif

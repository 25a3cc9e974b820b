/-
C188: calling `run_simulation` again on a simulator with `FxLMS` or `FastBlockFxLMS`.
-/
import Verif.Lemmas.AgainWith
import Verif.Props.FastExact
namespace Verif

section
variable {R IR F S A P D O : Type} [Field R] {cfg : SimCfg R IR F S A P D O}

theorem initWith_names {prep : P → Sigs R → Int → Except PyErr (P × Sigs R)} {srcs : String → S} {arr : A} {proc : P} {f0 : F}
    {ds : List (Diag D)} {st0 : SimSt R F S A P D O} (h : cfg.initWith prep srcs arr proc f0 ds = .ok st0) : Names cfg := by
  unfold SimCfg.initWith at h
  split at h
  · cases h
  · exact names_of cfg (init_nodup cfg (by assumption))

variable {q : FxPar R}

omit [Field R] in
theorem handled_dvd [Zero R] [Add R] (cfg : SimCfg R IR F S A P D O) (q : FxPar R) (n : Nat) : q.bs ∣ cfg.handled q n := by
  unfold SimCfg.handled
  exact Dvd.intro_left _ (Nat.mul_assoc _ _ _)

theorem handled_at {n j : Nat} (hbs : 0 < q.bs) (hm : j % q.bs = q.bs - 1) :
    cfg.handled q n + j + 1 - q.bs = (n * ((cfg.tot + q.bs) / q.bs) + j / q.bs) * q.bs := by
  have h1 := Nat.div_add_mod j q.bs
  rw [Nat.mul_comm] at h1
  unfold SimCfg.handled
  rw [Nat.add_mul, Nat.mul_assoc]
  omega

end

/-! ### FxLMS -/

section
variable {R IR F S A V : Type} [Field R] [DecidableEq R] {q : FxPar R}
  {cfg : SimCfg R IR F S A (FxSt R) (DData R (FxSt R) V) (DOut R V)} {Sp : IrMat R}
  {srcs s : String → S} {arr a : A} {pr : FxSt R} {f f1 : F} {ds : List (Diag (DData R (FxSt R) V))}
  {st0 st fin fin2 : SimSt R F S A (FxSt R) (DData R (FxSt R) V) (DOut R V)} {n k : Nat}

/-- **C188** What the diagnostics of a run with `FxLMS` have recorded stays as it is in the next run, and
nothing is exported again, whatever runs came before: the next run is the one without diagnostics,
also if it raises. -/
theorem C188_recordings_fxlms (h : FxScene cfg q) (hdiag : cfg.diag = diagOps R (FxSt R) V)
    (hA : cfg.AfterRuns fxPrepare srcs arr (fxInit q Sp) n s a pr) (hnd : (ds.map Diag.name).Nodup)
    (hr : cfg.runWith fxPrepare s a pr f ds = .ok fin)
    (hiv : ∀ d ∈ ds, ∃ ivs, d.saveAt = IvCounter.init ivs ∧ Increasing 0 ivs ∧ ∀ p ∈ ivs, p.2 ≤ (cfg.tot : Int))
    (hreads : ∀ d ∈ ds, ∀ name ∈ d.data.reads, name ≠ "xf") :
    cfg.runWithAgain fxPrepare fin f1 fin.diags = (cfg.runWithAgain fxPrepare fin f1 []).map (fun st => { st with diags := fin.diags }) ∧
    ∀ fin2, cfg.runWithAgain fxPrepare fin f1 fin.diags = .ok fin2 → fin2.diags = fin.diags ∧ fin2.log = [] := by
  obtain ⟨st0, _, _, _, hi, _⟩ := runWith_steps hr
  have hN := initWith_names hi
  have heq := (fx_anc h hN).recordings (f1 := f1) (fx_sizes h hN) hdiag
    ((fx_anc h hN).after (fx_sizes h hN) (fxInit_good q Sp) (fxInit_at q Sp) hA).1 hnd hr hiv hreads
  refine ⟨heq, fun fin2 h2 => ?_⟩
  rw [heq] at h2
  cases h3 : cfg.runWithAgain fxPrepare fin f1 [] with
  | error e => rw [h3] at h2; cases h2
  | ok fin3 =>
    rw [h3] at h2
    cases h2
    have hl := runWith_unwatched (fin := fin3) h3
    exact ⟨rfl, hl⟩

/-- **C188** The free sources go on where they stopped: in the run after `n` runs they first play the sample
that follows those delivered before (with `start_sources_before_0` after those of the preparation). -/
theorem C188_sources_fxlms (h : FxScene cfg q) (hA : cfg.AfterRuns fxPrepare srcs arr (fxInit q Sp) n s a pr)
    {b : ArrInfo} (hb : b ∈ cfg.arrays) (hfree : b.kind = .free) {x : Nat → Nat → R}
    (hx : IsStream cfg.srcGet (srcs b.name) b.num x) (hi : cfg.initWith fxPrepare s a pr f ds = .ok st0)
    (hk : cfg.steps k st0 = .ok st) : ∀ t ≤ k, ∀ c v, cfg.Produced st0 b.name c t v ↔ c < b.num ∧
      v = x c (n * ((if cfg.warm then cfg.B else 1) + cfg.tot + q.bs) + (if cfg.warm then cfg.B - 1 else 0) + t) := by
  have hN := initWith_names hi
  intro t ht c v
  rw [(fx_anc h hN).produced (fx_sizes h hN) (fxInit_good q Sp) (fxInit_at q Sp) hb hfree (h.own b hb) hx hA hi hk ht]
  unfold SimCfg.delivered
  rw [h.mbs]

/-- **C188** The control filter is carried over: in the run after `n` runs its taps are those at the end of the
previous run until the first call at which the number of samples handled in all runs is a multiple
of the update block size. -/
theorem C188_filter_fxlms (h : FxScene cfg q) (hA : cfg.AfterRuns fxPrepare srcs arr (fxInit q Sp) n s a pr)
    (hi : cfg.initWith fxPrepare s a pr f ds = .ok st0) (hk : cfg.steps k st0 = .ok st)
    (hno : ∀ j, (j + 1) * q.bs ≤ k → ¬ (0 < n * ((cfg.tot + q.bs) / q.bs) + j ∧
      q.ub ∣ (n * ((cfg.tot + q.bs) / q.bs) + j) * q.bs)) : st.eng.proc.ctrl.mat = pr.ctrl.mat := by
  have hN := initWith_names hi
  have hbs := h.bs
  obtain ⟨g1, g2⟩ := (fx_anc h hN).after (fx_sizes h hN) (fxInit_good q Sp) (fxInit_at q Sp) hA
  obtain ⟨_, e, e0, _, hI, g3, g4, _⟩ := (fx_anc h hN).begin (fx_sizes h hN) g1 hi
  obtain ⟨te, off, r, hT⟩ := GInv.steps (fx_sizes h hN) hI k hk
  have hst := (fx_anc h hN).stills hbs (handled_dvd cfg q n) (by rw [g3]; exact g2) k hT.tape (by
    intro j hj hm
    have := hno (j / q.bs) (by
      have h1 := Nat.div_add_mod j q.bs
      rw [Nat.add_mul, Nat.one_mul, Nat.mul_comm]
      omega)
    rw [handled_at hbs hm]
    intro hc
    refine this ⟨?_, hc.2⟩
    exact Nat.pos_of_mul_pos_right hc.1)
  rw [hT.eng]
  exact hst.trans g4

end

section
variable {R S A V : Type} [Field R] [DecidableEq R] {q : FxPar R}
  {cfg : SimCfg R (IrMat R) (Fir R) S A (FxSt R) (DData R (FxSt R) V) (DOut R V)} {Sp : IrMat R}
  {srcs s : String → S} {arr a : A} {pr : FxSt R} {J : A → Prop} {n : Nat}

/-- **C188**, in part: the run after `n` runs of a valid scene with `FxLMS` completes if the buffer is large
enough wherever the updates fall, or at every update of this run. -/
theorem C188_completes_fxlms_partial (h : FxScene cfg q) (hv : ValidScene cfg srcs arr J)
    (hA : cfg.AfterRuns fxPrepare srcs arr (fxInit q Sp) n s a pr)
    (hb : q.ub + q.L - 1 + q.bs ≤ cfg.B + 1 ∨ q.bs ≤ cfg.C ∧ ReachesFrom cfg q (q.ub + q.L - 1) (cfg.handled q n)) (f : Fir R)
    {ds : List (Diag (DData R (FxSt R) V))} (hnd : (ds.map Diag.name).Nodup) (hds : ∀ d ∈ ds, d.Fits cfg (FxShape q))
    (hreads : ∀ d ∈ ds, ∀ name ∈ d.data.reads, name ≠ "xf") : ∃ fin, cfg.runWith fxPrepare s a pr f ds = .ok fin :=
  have hN := names_of cfg hv.names
  (fx_anc h hN).completes (fx_sizes h hN) hv (fxInit_good q Sp) (fxInit_at q Sp) hA hb f hnd
    (fun d hd => (hds d hd).mono fun _ hp => ⟨hp.cIn, hp.cOut, hp.cLen⟩) hreads

/-- **C188** Otherwise it raises `ValueError`. -/
theorem C188_raises_fxlms (h : FxScene cfg q) (hv : ValidScene cfg srcs arr J)
    (hA : cfg.AfterRuns fxPrepare srcs arr (fxInit q Sp) n s a pr) (hC : q.bs ≤ cfg.C)
    (hb : ¬ ReachesFrom cfg q (q.ub + q.L - 1) (cfg.handled q n)) (f : Fir R)
    {ds : List (Diag (DData R (FxSt R) V))} (hnd : (ds.map Diag.name).Nodup) (hds : ∀ d ∈ ds, d.Fits cfg (FxShape q))
    (hreads : ∀ d ∈ ds, ∀ name ∈ d.data.reads, name ≠ "xf") : cfg.runWith fxPrepare s a pr f ds = .error .value :=
  have hN := names_of cfg hv.names
  (fx_anc h hN).raises (fx_sizes h hN) hv (fxInit_good q Sp) (fxInit_at q Sp) hA hC hb f hnd
    (fun d hd => (hds d hd).mono fun _ hp => ⟨hp.cIn, hp.cOut, hp.cLen⟩) hreads

end

/-! ### FastBlockFxLMS -/

section
variable {R IR F S A V : Type} [Field R] [DecidableEq R] {q : FxPar R}
  {cfg : SimCfg R IR F S A (FastSt R) (DData R (FastSt R) V) (DOut R V)} {Sp : IrMat R}
  {srcs s : String → S} {arr a : A} {pr : FastSt R} {f f1 : F} {ds : List (Diag (DData R (FastSt R) V))}
  {st0 st fin fin2 : SimSt R F S A (FastSt R) (DData R (FastSt R) V) (DOut R V)} {n k : Nat}

/-- **C188** What the diagnostics of a run with `FastBlockFxLMS` have recorded stays as it is in the next run, and
nothing is exported again, whatever runs came before: the next run is the one without diagnostics,
also if it raises. -/
theorem C188_recordings_fast (h : FastScene cfg q) (hdiag : cfg.diag = diagOps R (FastSt R) V)
    (hA : cfg.AfterRuns (fastPrepare q) srcs arr (fastInit q Sp) n s a pr) (hnd : (ds.map Diag.name).Nodup)
    (hr : cfg.runWith (fastPrepare q) s a pr f ds = .ok fin)
    (hiv : ∀ d ∈ ds, ∃ ivs, d.saveAt = IvCounter.init ivs ∧ Increasing 0 ivs ∧ ∀ p ∈ ivs, p.2 ≤ (cfg.tot : Int))
    (hreads : ∀ d ∈ ds, ∀ name ∈ d.data.reads, name ≠ "xf") :
    cfg.runWithAgain (fastPrepare q) fin f1 fin.diags = (cfg.runWithAgain (fastPrepare q) fin f1 []).map (fun st => { st with diags := fin.diags }) ∧
    ∀ fin2, cfg.runWithAgain (fastPrepare q) fin f1 fin.diags = .ok fin2 → fin2.diags = fin.diags ∧ fin2.log = [] := by
  obtain ⟨st0, _, _, _, hi, _⟩ := runWith_steps hr
  have hN := initWith_names hi
  have heq := (fast_anc h hN).recordings (f1 := f1) (fast_sizes h hN) hdiag
    ((fast_anc h hN).after (fast_sizes h hN) (fastInit_good q h.ub.1 Sp) (fastInit_at Sp) hA).1 hnd hr hiv hreads
  refine ⟨heq, fun fin2 h2 => ?_⟩
  rw [heq] at h2
  cases h3 : cfg.runWithAgain (fastPrepare q) fin f1 [] with
  | error e => rw [h3] at h2; cases h2
  | ok fin3 =>
    rw [h3] at h2
    cases h2
    have hl := runWith_unwatched (fin := fin3) h3
    exact ⟨rfl, hl⟩

/-- **C188** The free sources go on where they stopped: in the run after `n` runs they first play the sample
that follows those delivered before (with `start_sources_before_0` after those of the preparation). -/
theorem C188_sources_fast (h : FastScene cfg q) (hA : cfg.AfterRuns (fastPrepare q) srcs arr (fastInit q Sp) n s a pr)
    {b : ArrInfo} (hb : b ∈ cfg.arrays) (hfree : b.kind = .free) {x : Nat → Nat → R}
    (hx : IsStream cfg.srcGet (srcs b.name) b.num x) (hi : cfg.initWith (fastPrepare q) s a pr f ds = .ok st0)
    (hk : cfg.steps k st0 = .ok st) : ∀ t ≤ k, ∀ c v, cfg.Produced st0 b.name c t v ↔ c < b.num ∧
      v = x c (n * ((if cfg.warm then cfg.B else 1) + cfg.tot + q.bs) + (if cfg.warm then cfg.B - 1 else 0) + t) := by
  have hN := initWith_names hi
  intro t ht c v
  rw [(fast_anc h hN).produced (fast_sizes h hN) (fastInit_good q h.ub.1 Sp) (fastInit_at Sp) hb hfree (h.own b hb) hx hA hi hk ht]
  unfold SimCfg.delivered
  rw [h.mbs]

/-- **C188** The control filter is carried over: in the run after `n` runs its taps are those at the end of the
previous run until the first call at which the number of samples handled in all runs is a multiple
of the update block size. -/
theorem C188_filter_fast (h : FastScene cfg q) (hA : cfg.AfterRuns (fastPrepare q) srcs arr (fastInit q Sp) n s a pr)
    (hi : cfg.initWith (fastPrepare q) s a pr f ds = .ok st0) (hk : cfg.steps k st0 = .ok st)
    (hno : ∀ j, (j + 1) * q.bs ≤ k → ¬ (0 < n * ((cfg.tot + q.bs) / q.bs) + j ∧
      q.ub ∣ (n * ((cfg.tot + q.bs) / q.bs) + j) * q.bs)) : st.eng.proc.ctrl.mat = pr.ctrl.mat := by
  have hN := initWith_names hi
  have hbs := h.bs
  obtain ⟨g1, g2⟩ := (fast_anc h hN).after (fast_sizes h hN) (fastInit_good q h.ub.1 Sp) (fastInit_at Sp) hA
  obtain ⟨_, e, e0, _, hI, g3, g4, _⟩ := (fast_anc h hN).begin (fast_sizes h hN) g1 hi
  obtain ⟨te, off, r, hT⟩ := GInv.steps (fast_sizes h hN) hI k hk
  have hst := (fast_anc h hN).stills hbs (handled_dvd cfg q n) (by rw [g3]; exact g2) k hT.tape (by
    intro j hj hm
    have := hno (j / q.bs) (by
      have h1 := Nat.div_add_mod j q.bs
      rw [Nat.add_mul, Nat.one_mul, Nat.mul_comm]
      omega)
    rw [handled_at hbs hm]
    intro hc
    refine this ⟨?_, hc.2⟩
    exact Nat.pos_of_mul_pos_right hc.1)
  rw [hT.eng]
  exact hst.trans g4

end

section
variable {R S A V : Type} [Field R] [DecidableEq R] {q : FxPar R}
  {cfg : SimCfg R (IrMat R) (Fir R) S A (FastSt R) (DData R (FastSt R) V) (DOut R V)} {Sp : IrMat R}
  {srcs s : String → S} {arr a : A} {pr : FastSt R} {J : A → Prop} {n : Nat}

/-- **C188**, in part: the run after `n` runs of a valid scene with `FastBlockFxLMS` completes if the buffer is large
enough wherever the updates fall, or at every update of this run. -/
theorem C188_completes_fast_partial (h : FastScene cfg q) (hv : ValidScene cfg srcs arr J)
    (hA : cfg.AfterRuns (fastPrepare q) srcs arr (fastInit q Sp) n s a pr)
    (hb : 2 * q.L + q.bs ≤ cfg.B + 1 ∨ q.bs ≤ cfg.C ∧ ReachesFrom cfg q (2 * q.L) (cfg.handled q n)) (f : Fir R)
    {ds : List (Diag (DData R (FastSt R) V))} (hnd : (ds.map Diag.name).Nodup) (hds : ∀ d ∈ ds, d.Fits cfg (FastShape q))
    (hreads : ∀ d ∈ ds, ∀ name ∈ d.data.reads, name ≠ "xf") : ∃ fin, cfg.runWith (fastPrepare q) s a pr f ds = .ok fin :=
  have hN := names_of cfg hv.names
  (fast_anc h hN).completes (fast_sizes h hN) hv (fastInit_good q h.ub.1 Sp) (fastInit_at Sp) hA hb f hnd
    (fun d hd => (hds d hd).mono fun _ hp => ⟨hp.cIn, hp.cOut, hp.cLen⟩) hreads

/-- **C188** Otherwise it raises `ValueError`. -/
theorem C188_raises_fast (h : FastScene cfg q) (hv : ValidScene cfg srcs arr J)
    (hA : cfg.AfterRuns (fastPrepare q) srcs arr (fastInit q Sp) n s a pr) (hC : q.bs ≤ cfg.C)
    (hb : ¬ ReachesFrom cfg q (2 * q.L) (cfg.handled q n)) (f : Fir R)
    {ds : List (Diag (DData R (FastSt R) V))} (hnd : (ds.map Diag.name).Nodup) (hds : ∀ d ∈ ds, d.Fits cfg (FastShape q))
    (hreads : ∀ d ∈ ds, ∀ name ∈ d.data.reads, name ≠ "xf") : cfg.runWith (fastPrepare q) s a pr f ds = .error .value :=
  have hN := names_of cfg hv.names
  (fast_anc h hN).raises (fast_sizes h hN) hv (fastInit_good q h.ub.1 Sp) (fastInit_at Sp) hA hC hb f hnd
    (fun d hd => (hds d hd).mono fun _ hp => ⟨hp.cIn, hp.cOut, hp.cLen⟩) hreads

end

/-! ### Examples and the violation -/

theorem fxAll_reads (L : Nat) : ∀ d ∈ fxAll L, ∀ name ∈ d.data.reads, name ≠ "xf" := by
  intro d hd
  simp only [fxAll, List.mem_cons, List.not_mem_nil, or_false] at hd
  rcases hd with rfl | rfl | rfl | rfl | rfl | rfl | rfl | rfl <;> simp [DData.reads]

/-- **C188** is violated by `FxLMS`: a run that completes, and the next one raises.  Blocks of one sample, updates
after 5, a control filter of 4 taps, a buffer of 3 samples: the update of the first run comes after 5
steps, that of the second one after 1. -/
theorem C188_violated_fxlms : ∃ (cfg : SimCfg ℚ (IrMat ℚ) (Fir ℚ) Nat Unit (FxSt ℚ) (DData ℚ (FxSt ℚ) ℚ) (DOut ℚ ℚ)) (q : FxPar ℚ)
    (Sp : IrMat ℚ) (ds : List (Diag (DData ℚ (FxSt ℚ) ℚ))) (fin : SimSt ℚ (Fir ℚ) Nat Unit (FxSt ℚ) (DData ℚ (FxSt ℚ) ℚ) (DOut ℚ ℚ)),
    FxScene cfg q ∧ ValidScene cfg (fun _ => 0) () (fun _ => True) ∧
    cfg.runWith fxPrepare (fun _ => 0) () (fxInit q Sp) demoFilt ds = .ok fin ∧
    cfg.runWithAgain fxPrepare fin demoFilt ds = .error .value := by
  have hsc : FxScene (fxCfg 3 9 (fxDemo 1 5 4 .sample) [1, 2] [0, 1] [1, -1]) (fxDemo 1 5 4 .sample) :=
    fxCfg_scene (by decide) (by decide) (by decide) (by decide) (by decide)
  have hv := fxCfg_valid 3 9 (fxDemo 1 5 4 .sample) [1, 2] [0, 1] [1, -1]
  have hm : (fxCfg 3 9 (fxDemo 1 5 4 .sample) [1, 2] [0, 1] [1, -1]).mbs = 1 := rfl
  have hfits := fxAll_fits 3 9 1 5 4 .sample [1, 2] [0, 1] [1, -1] (by decide)
  obtain ⟨fin, hr⟩ := C157_adaptive_runs_through hsc (.inr ⟨by decide, by
    intro k hk _
    have hk' : k < 9 := hk
    unfold looksBack SimCfg.indexAt
    rw [hm]
    show (if 0 < k + 1 - 1 ∧ 5 ∣ k + 1 - 1 then 8 else 1) ≤ 3 + 1 - 1 + (k + 1 - 1) % 9
    split
    · omega
    · omega⟩) hv (fxSec [1, -1]) demoFilt (by simp [fxAll]) hfits (fxAll_reads 4)
  refine ⟨_, _, fxSec [1, -1], fxAll 4, fin, hsc, hv, hr, ?_⟩
  refine C188_raises_fxlms hsc hv (SimCfg.AfterRuns.start.again (by simp [fxAll]) hr) (by decide) ?_ demoFilt (by simp [fxAll])
    hfits (fxAll_reads 4)
  intro hR
  have := hR 1 (show 1 < 9 by decide) (by decide)
  unfold looksBack SimCfg.indexAt at this
  rw [hm] at this
  exact absurd (show (if 0 < 9 + 1 + 1 - 1 ∧ 5 ∣ 9 + 1 + 1 - 1 then 8 else 1) ≤ 3 + 1 - 1 + (1 + 1 - 1) % 9 from this) (by decide)

/-- **C188** is violated by `FastBlockFxLMS` too. -/
theorem C188_violated_fast : ∃ (cfg : SimCfg ℚ (IrMat ℚ) (Fir ℚ) Nat Unit (FastSt ℚ) (DData ℚ (FastSt ℚ) ℚ) (DOut ℚ ℚ)) (q : FxPar ℚ)
    (Sp : IrMat ℚ) (ds : List (Diag (DData ℚ (FastSt ℚ) ℚ))) (fin : SimSt ℚ (Fir ℚ) Nat Unit (FastSt ℚ) (DData ℚ (FastSt ℚ) ℚ) (DOut ℚ ℚ)),
    FastScene cfg q ∧ ValidScene cfg (fun _ => 0) () (fun _ => True) ∧
    cfg.runWith (fastPrepare q) (fun _ => 0) () (fastInit q Sp) demoFilt ds = .ok fin ∧
    cfg.runWithAgain (fastPrepare q) fin demoFilt ds = .error .value := by
  have hsc : FastScene (fastCfg (fxCfg 5 9 (fxDemo 1 5 5 .block) [1, 2] [0, 1] [1, -1]) (fxDemo 1 5 5 .block)) (fxDemo 1 5 5 .block) :=
    fastCfg_scene (by decide) (by decide) (by decide) (by decide)
  have hv := fastCfg_valid 5 9 (fxDemo 1 5 5 .block) [1, 2] [0, 1] [1, -1]
  have hm : (fastCfg (fxCfg 5 9 (fxDemo 1 5 5 .block) [1, 2] [0, 1] [1, -1]) (fxDemo 1 5 5 .block)).mbs = 1 := rfl
  have hfits := fastAll_fits 5 9 1 5 .block [1, 2] [0, 1] [1, -1] (by decide)
  obtain ⟨fin, hr⟩ := (C174_when hsc (show 1 ≤ 9 by decide) hv (fxSec [1, -1]) demoFilt (by simp [fastAll]) hfits (fastAll_reads 5)).2 (by
    intro k hk _
    have hk' : k < 9 := hk
    unfold looksBack SimCfg.indexAt
    rw [hm]
    show (if 0 < k + 1 - 1 ∧ 5 ∣ k + 1 - 1 then 10 else 1) ≤ 5 + 1 - 1 + (k + 1 - 1) % 9
    split
    · omega
    · omega)
  refine ⟨_, _, fxSec [1, -1], fastAll 5, fin, hsc, hv, hr, ?_⟩
  refine C188_raises_fast hsc hv (SimCfg.AfterRuns.start.again (by simp [fastAll]) hr) (show 1 ≤ 9 by decide) ?_ demoFilt
    (by simp [fastAll]) hfits (fastAll_reads 5)
  intro hR
  have := hR 1 (show 1 < 9 by decide) (by decide)
  unfold looksBack SimCfg.indexAt at this
  rw [hm] at this
  exact absurd (show (if 0 < 9 + 1 + 1 - 1 ∧ 5 ∣ 9 + 1 + 1 - 1 then 10 else 1) ≤ 5 + 1 - 1 + (1 + 1 - 1) % 9 from this) (by decide)

/-- Any number of runs completes with `FxLMS` and a buffer that is large enough, for all sizes and paths. -/
theorem fx_sessions (B C bs ub L : Nat) (norm : FxNorm) (a b s : List ℚ) (h1 : 0 < L) (h2 : 0 < bs) (h3 : 0 < ub ∧ bs ∣ ub)
    (h4 : 2 ≤ C) (h5 : bs + 1 ≤ B ∧ ub + L + bs ≤ B + 2) : ∀ n, ∃ src pr,
    (fxCfg B C (fxDemo bs ub L norm) a b s).AfterRuns fxPrepare (fun _ => 0) () (fxInit (fxDemo bs ub L norm) (fxSec s)) n src () pr
  | 0 => ⟨_, _, .start⟩
  | n + 1 => by
    obtain ⟨src, pr, hA⟩ := fx_sessions B C bs ub L norm a b s h1 h2 h3 h4 h5 n
    obtain ⟨fin, hr⟩ := C188_completes_fxlms_partial (fxCfg_scene h1 h2 h3 ⟨by omega, .inl h4⟩ ⟨h5.1, by omega⟩) (fxCfg_valid B C _ a b s) hA
      (.inl (show ub + L - 1 + bs ≤ B + 1 by omega)) demoFilt (by simp [fxAll]) (fxAll_fits B C bs ub L norm a b s h1) (fxAll_reads L)
    exact ⟨_, _, hA.again (by simp [fxAll]) hr⟩

/-- The third run of such a scene: the counting source, which has delivered 1 to 20 before, plays 21, 22, ...,
and the taps are those after the second run until the third call, as the processor has handled 18
samples before. -/
example (a b s : List ℚ) : ∃ src pr st0 st,
    (fxCfg 12 3 (fxDemo 1 5 4 .sample) a b s).AfterRuns fxPrepare (fun _ => 0) () (fxInit (fxDemo 1 5 4 .sample) (fxSec s)) 2 src () pr ∧
    (fxCfg 12 3 (fxDemo 1 5 4 .sample) a b s).initWith fxPrepare src () pr demoFilt (fxAll 4) = .ok st0 ∧
    (fxCfg 12 3 (fxDemo 1 5 4 .sample) a b s).steps 2 st0 = .ok st ∧ st.eng.proc.ctrl.mat = pr.ctrl.mat ∧
    (fxCfg 12 3 (fxDemo 1 5 4 .sample) a b s).Produced st0 "noise" 0 0 21 := by
  obtain ⟨src, pr, hA⟩ := fx_sessions 12 3 1 5 4 .sample a b s (by decide) (by decide) (by decide) (by decide) (by decide) 2
  have hsc : FxScene (fxCfg 12 3 (fxDemo 1 5 4 .sample) a b s) (fxDemo 1 5 4 .sample) :=
    fxCfg_scene (by decide) (by decide) (by decide) (by decide) (by decide)
  obtain ⟨fin, hr⟩ := C188_completes_fxlms_partial hsc (fxCfg_valid 12 3 _ a b s) hA
    (.inl (show 5 + 4 - 1 + 1 ≤ 12 + 1 by decide)) demoFilt (by simp [fxAll]) (fxAll_fits 12 3 1 5 4 .sample a b s (by decide)) (fxAll_reads 4)
  obtain ⟨st0, st1, _, _, hi, hk, _⟩ := runWith_steps hr
  obtain ⟨st, hst⟩ := steps_prefix (fxCfg 12 3 (fxDemo 1 5 4 .sample) a b s) (n := 2) 7 hk
  refine ⟨src, pr, st0, st, hA, hi, hst, C188_filter_fxlms hsc hA hi hst ?_, ?_⟩
  · intro j hj
    have hj' : (j + 1) * 1 ≤ 2 := hj
    show ¬ (0 < 2 * ((8 + 1) / 1) + j ∧ 5 ∣ (2 * ((8 + 1) / 1) + j) * 1)
    omega
  · rw [C188_sources_fxlms hsc hA (b := ⟨"noise", 1, .free, false⟩) (by simp [fxCfg]) rfl (open_stream 0) hi hst 0 (by decide)]
    refine ⟨by decide, ?_⟩
    show (21 : ℚ) = ((0 + (2 * (1 + 8 + 1) + 0 + 0) + 1 : Nat) : ℚ)
    norm_num

/-- The same with `FastBlockFxLMS`: any number of runs. -/
theorem fast_sessions (B C bs L : Nat) (norm : FxNorm) (a b s : List ℚ) (h1 : 0 < L) (h2 : 0 < bs ∧ bs ∣ L)
    (h4 : 2 ≤ C) (h5 : bs + 1 ≤ B ∧ 2 * L + bs ≤ B + 1) : ∀ n, ∃ src pr,
    (fastCfg (fxCfg B C (fxDemo bs L L norm) a b s) (fxDemo bs L L norm)).AfterRuns (fastPrepare (fxDemo bs L L norm)) (fun _ => 0) ()
      (fastInit (fxDemo bs L L norm) (fxSec s)) n src () pr
  | 0 => ⟨_, _, .start⟩
  | n + 1 => by
    obtain ⟨src, pr, hA⟩ := fast_sessions B C bs L norm a b s h1 h2 h4 h5 n
    obtain ⟨fin, hr⟩ := C188_completes_fast_partial (fastCfg_scene h1 h2 ⟨by omega, .inl h4⟩ ⟨h5.1, by omega⟩) (fastCfg_valid B C _ a b s) hA
      (.inl (show 2 * L + bs ≤ B + 1 by omega)) demoFilt (by simp [fastAll]) (fastAll_fits B C bs L norm a b s h1) (fastAll_reads L)
    exact ⟨_, _, hA.again (by simp [fastAll]) hr⟩

/-- What the third run has recorded, the fourth one leaves alone, and it completes as well. -/
example (B C bs ub L : Nat) (norm : FxNorm) (a b s : List ℚ) (h1 : 0 < L) (h2 : 0 < bs) (h3 : 0 < ub ∧ bs ∣ ub)
    (h4 : 2 ≤ C) (h5 : bs + 1 ≤ B ∧ ub + L + bs ≤ B + 2) : ∃ src pr fin fin2,
    (fxCfg B C (fxDemo bs ub L norm) a b s).AfterRuns fxPrepare (fun _ => 0) () (fxInit (fxDemo bs ub L norm) (fxSec s)) 2 src () pr ∧
    (fxCfg B C (fxDemo bs ub L norm) a b s).runWith fxPrepare src () pr demoFilt (fxAll L) = .ok fin ∧
    (fxCfg B C (fxDemo bs ub L norm) a b s).runWithAgain fxPrepare fin demoFilt fin.diags = .ok fin2 ∧
    fin2.diags = fin.diags ∧ fin2.log = [] := by
  obtain ⟨src, pr, hA⟩ := fx_sessions B C bs ub L norm a b s h1 h2 h3 h4 h5 2
  have hsc : FxScene (fxCfg B C (fxDemo bs ub L norm) a b s) (fxDemo bs ub L norm) :=
    fxCfg_scene h1 h2 h3 ⟨by omega, .inl h4⟩ ⟨h5.1, by omega⟩
  have hb : ub + L - 1 + bs ≤ B + 1 := by omega
  obtain ⟨fin, hr⟩ := C188_completes_fxlms_partial hsc (fxCfg_valid B C _ a b s) hA (.inl hb) demoFilt (by simp [fxAll])
    (fxAll_fits B C bs ub L norm a b s h1) (fxAll_reads L)
  obtain ⟨fin3, h3⟩ := C188_completes_fxlms_partial hsc (fxCfg_valid B C _ a b s) (hA.again (by simp [fxAll]) hr) (.inl hb) demoFilt
    (ds := []) (by simp) (by simp) (by simp)
  obtain ⟨g1, g2⟩ := C188_recordings_fxlms (f1 := demoFilt) hsc rfl hA (by simp [fxAll]) hr (by
    intro d hd
    obtain ⟨ivs, g1, g2, g3, _⟩ := fxAll_fits B C bs ub L norm a b s h1 d hd
    exact ⟨ivs, g1, g2, g3⟩) (fxAll_reads L)
  have h4 : (fxCfg B C (fxDemo bs ub L norm) a b s).runWithAgain fxPrepare fin demoFilt fin.diags = .ok { fin3 with diags := fin.diags } := by
    rw [g1]
    unfold SimCfg.runWithAgain
    rw [h3]
    rfl
  exact ⟨src, pr, fin, _, hA, hr, h4, g2 _ h4⟩

/-- With `FastBlockFxLMS`, filters of 4 taps and blocks of 2: the second run of 8 samples comes after 10 handled
ones, so its first update is at the second block (12), and before that the filter is that of the
first run. -/
example (a b s : List ℚ) : ∃ src pr st0 st,
    (fastCfg (fxCfg 12 4 (fxDemo 2 4 4 .block) a b s) (fxDemo 2 4 4 .block)).AfterRuns (fastPrepare (fxDemo 2 4 4 .block)) (fun _ => 0) ()
      (fastInit (fxDemo 2 4 4 .block) (fxSec s)) 1 src () pr ∧
    (fastCfg (fxCfg 12 4 (fxDemo 2 4 4 .block) a b s) (fxDemo 2 4 4 .block)).initWith (fastPrepare (fxDemo 2 4 4 .block)) src () pr demoFilt
      (fastAll 4) = .ok st0 ∧
    (fastCfg (fxCfg 12 4 (fxDemo 2 4 4 .block) a b s) (fxDemo 2 4 4 .block)).steps 3 st0 = .ok st ∧ st.eng.proc.ctrl.mat = pr.ctrl.mat ∧
    (fastCfg (fxCfg 12 4 (fxDemo 2 4 4 .block) a b s) (fxDemo 2 4 4 .block)).Produced st0 "noise" 0 0 12 := by
  obtain ⟨src, pr, hA⟩ := fast_sessions 12 4 2 4 .block a b s (by decide) (by decide) (by decide) (by decide) 1
  have hsc : FastScene (fastCfg (fxCfg 12 4 (fxDemo 2 4 4 .block) a b s) (fxDemo 2 4 4 .block)) (fxDemo 2 4 4 .block) :=
    fastCfg_scene (by decide) (by decide) (by decide) (by decide)
  obtain ⟨fin, hr⟩ := C188_completes_fast_partial hsc (fastCfg_valid 12 4 _ a b s) hA
    (.inl (show 2 * 4 + 2 ≤ 12 + 1 by decide)) demoFilt (by simp [fastAll]) (fastAll_fits 12 4 2 4 .block a b s (by decide)) (fastAll_reads 4)
  obtain ⟨st0, st1, _, _, hi, hk, _⟩ := runWith_steps hr
  obtain ⟨st, hst⟩ := steps_prefix (fastCfg (fxCfg 12 4 (fxDemo 2 4 4 .block) a b s) (fxDemo 2 4 4 .block)) (n := 3) 7 hk
  refine ⟨src, pr, st0, st, hA, hi, hst, C188_filter_fast hsc hA hi hst ?_, ?_⟩
  · intro j hj
    have hj' : (j + 1) * 2 ≤ 3 := hj
    show ¬ (0 < 1 * ((8 + 2) / 2) + j ∧ 4 ∣ (1 * ((8 + 2) / 2) + j) * 2)
    omega
  · rw [C188_sources_fast hsc hA (b := ⟨"noise", 1, .free, false⟩) (show _ ∈ (fxCfg 12 4 (fxDemo 2 4 4 .block) a b s).arrays by simp [fxCfg]) rfl (open_stream 0) hi hst 0 (by decide)]
    refine ⟨by decide, ?_⟩
    show (12 : ℚ) = ((0 + (1 * (1 + 8 + 2) + 0 + 0) + 1 : Nat) : ℚ)
    norm_num

end Verif

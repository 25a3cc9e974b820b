/-
Property C184: with the adaptive processors, diagnostics, further microphones and saved contributions only observe.
-/
import Verif.Lemmas.ObserveWith
import Verif.Props.Contrib
import Verif.Props.Observe
import Verif.Props.AncReal
import Verif.Props.FastRecording
namespace Verif

section
variable {R IR F S A P D O : Type} [Zero R] [Add R]

/-- C184: C109 for processors that prepare themselves.  A run with fewer diagnostics gives the same signals,
sources, filters, arrays and processor, and of the diagnostics and exported results those that are kept. -/
theorem C184_fewer (cfg : SimCfg R IR F S A P D O) (prep : P → Sigs R → Int → Except PyErr (P × Sigs R)) (keep : String → Bool)
    (srcs : String → S) (arr : A) (proc : P) (f0 : F) (ds : List (Diag D)) {fin : SimSt R F S A P D O}
    (h : cfg.runWith prep srcs arr proc f0 ds = .ok fin) :
    ∃ fin', cfg.runWith prep srcs arr proc f0 (ds.filter fun d => keep d.name) = .ok fin' ∧
      fin'.eng = fin.eng ∧ fin'.idx = fin.idx ∧ fin'.n = fin.n ∧
      fin'.diags = fin.diags.filter (fun d => keep d.name) ∧
      fin'.log = fin.log.filter (fun e => keep e.diag) :=
  ⟨_, runWith_keep keep srcs arr proc f0 ds h, rfl, rfl, rfl, rfl, rfl⟩

/-- C184: two sets of diagnostics that can each be used alone can be used together, and then
the exported results of either set are those of its own run. -/
theorem C184_together (cfg : SimCfg R IR F S A P D O) (prep : P → Sigs R → Int → Except PyErr (P × Sigs R)) (keep : String → Bool)
    (srcs : String → S) (arr : A) (proc : P) (f0 : F) (ds : List (Diag D)) {s1 s2 : SimSt R F S A P D O}
    (h1 : cfg.runWith prep srcs arr proc f0 (ds.filter fun d => keep d.name) = .ok s1)
    (h2 : cfg.runWith prep srcs arr proc f0 (ds.filter fun d => !keep d.name) = .ok s2) :
    ∃ fin, cfg.runWith prep srcs arr proc f0 ds = .ok fin ∧ fin.eng = s1.eng ∧ fin.eng = s2.eng ∧
      fin.log.filter (fun e => keep e.diag) = s1.log ∧ fin.log.filter (fun e => !keep e.diag) = s2.log := by
  obtain ⟨fin, hf⟩ := runWith_join keep srcs arr proc f0 ds h1 h2
  have e1 := Except.ok.inj ((runWith_keep keep srcs arr proc f0 ds hf).symm.trans h1)
  have e2 := Except.ok.inj ((runWith_keep (fun s => !keep s) srcs arr proc f0 ds hf).symm.trans h2)
  have a1 := congrArg SimSt.eng e1
  have a2 := congrArg SimSt.eng e2
  have a3 := congrArg SimSt.log e1
  have a4 := congrArg SimSt.log e2
  exact ⟨fin, hf, a1, a2, a3, a4⟩

end

section
variable {R IR F S A P V : Type} [Field R] [DecidableEq R]

/-- C184: C123 for processors that prepare themselves.  If a simulation with `save_source_contributions` completes,
then it completes as well without it, with the same signals, filters, processor, diagnostics and exported results,
provided that the processor and the diagnostics do not use the contribution signals. -/
theorem C184_contributions (cfg : SimCfg R IR F S A P (DData R P V) (DOut R V))
    (prep : P → Sigs R → Int → Except PyErr (P × Sigs R))
    (hdiag : cfg.diag = diagOps R P V) (hcon : cfg.contrib = true)
    (hproc : ∀ p, cfg.proc = some p → p.Ignores (isContrib cfg.arrays)) (hprep : PrepIgnores (isContrib cfg.arrays) prep)
    {ds : List (Diag (DData R P V))} (hds : ∀ d ∈ ds, ∀ k ∈ d.data.reads, isContrib cfg.arrays k = false)
    {srcs : String → S} {arr : A} {proc : P} {f0 : F} {fin : SimSt R F S A P (DData R P V) (DOut R V)}
    (h : cfg.runWith prep srcs arr proc f0 ds = .ok fin) :
    ∃ fin', { cfg with contrib := false }.runWith prep srcs arr proc f0 ds = .ok fin' ∧
      (∀ k, isContrib cfg.arrays k = false → fin'.eng.sig k = fin.eng.sig k) ∧
      (∀ p ∈ combosOf cfg.arrays, fin'.eng.filts p.1.name p.2.name = fin.eng.filts p.1.name p.2.name) ∧
      fin'.eng.srcs = fin.eng.srcs ∧ fin'.eng.arr = fin.eng.arr ∧ fin'.eng.proc = fin.eng.proc ∧
      fin'.idx = fin.idx ∧ fin'.n = fin.n ∧ fin'.diags = fin.diags ∧ fin'.log = fin.log := by
  have hN : Names cfg := runWith_names h
  obtain ⟨dyn, hd1, hd2⟩ := exists_dyn cfg.arrays hN.inj
  have hpd : ∀ p ∈ combosOf cfg.arrays, pairDyn dyn p = p := by
    intro p hp
    have hm := mem_combos_src hp
    have e : ∀ a ∈ cfg.arrays, a.withDyn dyn = a := fun a ha => by
      unfold ArrInfo.withDyn
      rw [hd2 a ha]
    unfold pairDyn
    rw [e _ hm.1, e _ hm.2.2]
  have H : Alike (isContrib cfg.arrays) dyn cfg { cfg with contrib := false } (fun a a' => a = a')
      (fun _ _ f f' => f = f') := by
    refine ⟨rfl, rfl, rfl, rfl, rfl, rfl, rfl, rfl, hd1.symm, (by simp), ?_, ?_, fun p hp => (hproc p hp).1,
      fun p hp => (hproc p hp).2, ?_, ?_, ?_, ?_⟩
    · intro _ p hp
      unfold isContrib
      exact List.any_eq_true.2 ⟨p, hp, by simp⟩
    · intro a ha
      unfold isContrib
      rw [List.any_eq_false]
      intro p hp
      have := hN.conArr hcon p hp a ha
      simpa using fun e : a.name = contribName p.1 p.2 => this e.symm
    · rintro a a' a1 n rfl hu
      exact ⟨a1, hu, rfl⟩
    · rintro a a' rfl p hp ir hir
      have hm := mem_combos_src hp
      refine ⟨ir, hir, ?_⟩
      rw [hd2 _ hm.1, hd2 _ hm.2.2]
    · rintro p hp f f' x g y rfl hx
      exact ⟨g, hx, rfl⟩
    · rintro a a' rfl p hp f f' g rfl hg
      rw [hpd p hp]
      exact ⟨g, hg, rfl⟩
  obtain ⟨fin', h1, h2⟩ := H.runWith hprep (Pd := fun d => ∀ k ∈ d.reads, isContrib cfg.arrays k = false)
    (by rw [hdiag]; exact diagOps_blind _) rfl (f0' := f0) hds h
  exact ⟨fin', h1, fun k hk => (h2.eng.sig k hk).symm, fun p hp => (h2.eng.filts p hp).symm, h2.eng.srcs.symm,
    h2.eng.arr.symm, h2.eng.proc.symm, h2.idx.symm, h2.n.symm, h2.diags.symm, h2.log.symm⟩

end

section
variable {R IR F S A V : Type} [Field R] [DecidableEq R]

/-- A contribution has a "~" in its name. -/
theorem isContrib_plain {arrays : List ArrInfo} {k : String} (hk : '~' ∉ k.toList) : isContrib arrays k = false := by
  unfold isContrib
  rw [List.any_eq_false]
  intro p hp h
  have : k = contribName p.1 p.2 := by simpa using h
  apply hk
  rw [this, contribName]
  simp

/-- C184, FxLMS: whether the contributions of the sources are saved does not matter to the control filter, the
loudspeaker signals and whatever else does not read the contributions. -/
theorem C184_contributions_fxlms (cfg : SimCfg R IR F S A (FxSt R) (DData R (FxSt R) V) (DOut R V)) (q : FxPar R)
    (hproc : cfg.proc = some (fxProc q)) (hdiag : cfg.diag = diagOps R (FxSt R) V) (hcon : cfg.contrib = true)
    {ds : List (Diag (DData R (FxSt R) V))} (hds : ∀ d ∈ ds, ∀ k ∈ d.data.reads, isContrib cfg.arrays k = false)
    {srcs : String → S} {arr : A} {proc : FxSt R} {f0 : F} {fin : SimSt R F S A (FxSt R) (DData R (FxSt R) V) (DOut R V)}
    (h : cfg.runWith fxPrepare srcs arr proc f0 ds = .ok fin) :
    ∃ fin', { cfg with contrib := false }.runWith fxPrepare srcs arr proc f0 ds = .ok fin' ∧
      (∀ k, isContrib cfg.arrays k = false → fin'.eng.sig k = fin.eng.sig k) ∧ fin'.eng.proc = fin.eng.proc ∧
      fin'.diags = fin.diags ∧ fin'.log = fin.log := by
  obtain ⟨fin', h1, h2, -, -, -, h3, -, -, h4, h5⟩ := C184_contributions cfg fxPrepare hdiag hcon
    (fun p hp => by
      rw [hproc] at hp
      cases hp
      exact fxProc_ignores q (isContrib_plain (by decide)) (isContrib_plain (by decide)) (isContrib_plain (by decide))
        (isContrib_plain (by decide)))
    (fxPrepare_hide (isContrib_plain (by decide)) (isContrib_plain (by decide))) hds h
  exact ⟨fin', h1, h2, h3, h4, h5⟩

/-- C184, FastBlockFxLMS: the same. -/
theorem C184_contributions_fast (cfg : SimCfg R IR F S A (FastSt R) (DData R (FastSt R) V) (DOut R V)) (q : FxPar R)
    (hproc : cfg.proc = some (fastProc q)) (hdiag : cfg.diag = diagOps R (FastSt R) V) (hcon : cfg.contrib = true)
    {ds : List (Diag (DData R (FastSt R) V))} (hds : ∀ d ∈ ds, ∀ k ∈ d.data.reads, isContrib cfg.arrays k = false)
    {srcs : String → S} {arr : A} {proc : FastSt R} {f0 : F} {fin : SimSt R F S A (FastSt R) (DData R (FastSt R) V) (DOut R V)}
    (h : cfg.runWith (fastPrepare q) srcs arr proc f0 ds = .ok fin) :
    ∃ fin', { cfg with contrib := false }.runWith (fastPrepare q) srcs arr proc f0 ds = .ok fin' ∧
      (∀ k, isContrib cfg.arrays k = false → fin'.eng.sig k = fin.eng.sig k) ∧ fin'.eng.proc = fin.eng.proc ∧
      fin'.diags = fin.diags ∧ fin'.log = fin.log := by
  obtain ⟨fin', h1, h2, -, -, -, h3, -, -, h4, h5⟩ := C184_contributions cfg (fastPrepare q) hdiag hcon
    (fun p hp => by
      rw [hproc] at hp
      cases hp
      exact fastProc_ignores q (isContrib_plain (by decide)) (isContrib_plain (by decide)) (isContrib_plain (by decide))
        (isContrib_plain (by decide)))
    (fastPrepare_hide q (isContrib_plain (by decide)) (isContrib_plain (by decide))) hds h
  exact ⟨fin', h1, h2, h3, h4, h5⟩

end

section
variable {F K R S V G : Type} [Field K] [LinearOrder K] [Field R] [DecidableEq R]
  {ext : RoomExt K R G} {i : RoomInfo K} {g : G} {c : Coll (K × K × K) (IrMat R)} {srcs : String → S}
  {bs ub L : Nat} {mu beta : R} {norm : FxNorm} {f0 : F} {M : List String}

/-- C184, FxLMS: leaving out microphones that the processor does not use changes nothing else.  If the simulation
completes, it completes as well without the microphones `M`, with `diags'` in place of the diagnostics `diags`,
which are those of them that do not use the microphones.  All other signals, the filters, impulse responses,
the control filter, the remaining diagnostics and their exported results are the same.  As in C110, the
image-source method must be deterministic, and paths to the other microphones must not be of type "random". -/
theorem C184_microphones_fxlms
    (base : SimCfg R (IrMat R) F S (G × Coll (K × K × K) (IrMat R)) (FxSt R) (DData R (FxSt R) V) (DOut R V))
    (hdiag : base.diag = diagOps R (FxSt R) V) (hc : c.Consistent) (hM : ∀ m ∈ M, m ∈ c.mics)
    (hrir : ∀ b g g' ss ms, (ext.rir b g ss ms).2 = (ext.rir b g' ss ms).2)
    (hrand : ∀ s m, m ∉ M → c.types s m ≠ some "random")
    (hused : ∀ k ∈ ["ref", "error", "loudspeaker", "xf"], signalOf base.contrib c.infos M k = false)
    {diags diags' : Coll (K × K × K) (IrMat R) → Except PyErr (List (Diag (DData R (FxSt R) V)))} (keep : String → Bool)
    (hdiags : ∀ c1 c2 : Coll (K × K × K) (IrMat R), c2.arrays = c1.arrays.filter (fun a => !M.contains a.name) → ∀ ds, diags c1 = .ok ds →
      diags' c2 = .ok (ds.filter fun d => keep d.name) ∧
      ∀ d ∈ ds, keep d.name = true → ∀ k ∈ d.data.reads, signalOf base.contrib c.infos M k = false)
    {fin : SimSt R F S (G × Coll (K × K × K) (IrMat R)) (FxSt R) (DData R (FxSt R) V) (DOut R V)}
    (h : ancSimulate base ext i g c srcs bs ub L mu beta norm f0 diags = .ok fin) :
    ∃ fin', ancSimulate base ext i g (c.without M) srcs bs ub L mu beta norm f0 diags' = .ok fin' ∧
      SameBut (signalOf base.contrib c.infos M) M keep fin fin' := by
  have u1 := hused "ref" (by simp)
  have u2 := hused "error" (by simp)
  have u3 := hused "loudspeaker" (by simp)
  have u4 := hused "xf" (by simp)
  have hM' : ∀ {k}, signalOf base.contrib c.infos M k = false → M.contains k = false := by
    intro k hk
    unfold signalOf at hk
    exact (Bool.or_eq_false_iff.1 hk).1
  unfold ancSimulate at h ⊢
  cases hset : roomSetup ext i g c with
  | error x => rw [hset] at h; cases h
  | ok r =>
    obtain ⟨par, gc⟩ := r
    rw [hset] at h
    dsimp only at h
    cases hp : Coll.path gc "loudspeaker" "error" with
    | error x => rw [hp] at h; cases h
    | ok sp =>
      rw [hp] at h
      dsimp only at h
      cases hq : fxCreate gc.2.arrays bs ub L mu beta norm with
      | error x => rw [hq] at h; cases h
      | ok q =>
        rw [hq] at h
        dsimp only at h
        cases hd : diags gc.2 with
        | error x => rw [hd] at h; cases h
        | ok ds =>
          rw [hd] at h
          dsimp only at h
          obtain ⟨gc', k1, k2, fin', k3, k4⟩ := runWith_without (M := M) hc hM hrir hrand hset
            (cfg := { base with
              arrays := c.infos, arrUpdate := Coll.update (createPath (i.cfg ext par)), arrPath := Coll.path
              proc := some (fxProc q) }) rfl rfl rfl
            (fun p hp => by cases hp; exact fxProc_ignores q u1 u4 u2 u3) (fxPrepare_hide u1 u4)
            (Pd := fun d => ∀ k ∈ d.reads, signalOf base.contrib c.infos M k = false)
            (by rw [hdiag]; exact diagOps_blind _) keep
            ((hdiags gc.2 (gc.2.without M) rfl ds hd).2) h
          rw [k1]
          dsimp only
          rw [path_hide k2 (hM' u2), hp]
          dsimp only
          rw [fxCreate_hide k2 (hM' u1) (hM' u2) (hM' u3), hq]
          dsimp only
          rw [(hdiags gc.2 gc'.2 k2.arrays ds hd).1]
          exact ⟨fin', k3, k4⟩

/-- C184, FastBlockFxLMS: leaving out microphones that the processor does not use changes nothing else. -/
theorem C184_microphones_fast
    (base : SimCfg R (IrMat R) F S (G × Coll (K × K × K) (IrMat R)) (FastSt R) (DData R (FastSt R) V) (DOut R V))
    (hdiag : base.diag = diagOps R (FastSt R) V) (hc : c.Consistent) (hM : ∀ m ∈ M, m ∈ c.mics)
    (hrir : ∀ b g g' ss ms, (ext.rir b g ss ms).2 = (ext.rir b g' ss ms).2)
    (hrand : ∀ s m, m ∉ M → c.types s m ≠ some "random")
    (hused : ∀ k ∈ ["ref", "error", "loudspeaker", "xf"], signalOf base.contrib c.infos M k = false)
    {diags diags' : Coll (K × K × K) (IrMat R) → Except PyErr (List (Diag (DData R (FastSt R) V)))} (keep : String → Bool)
    (hdiags : ∀ c1 c2 : Coll (K × K × K) (IrMat R), c2.arrays = c1.arrays.filter (fun a => !M.contains a.name) → ∀ ds, diags c1 = .ok ds →
      diags' c2 = .ok (ds.filter fun d => keep d.name) ∧
      ∀ d ∈ ds, keep d.name = true → ∀ k ∈ d.data.reads, signalOf base.contrib c.infos M k = false)
    {fin : SimSt R F S (G × Coll (K × K × K) (IrMat R)) (FastSt R) (DData R (FastSt R) V) (DOut R V)}
    (h : realSimulate base ext i g c srcs bs L mu beta f0 diags = .ok fin) :
    ∃ fin', realSimulate base ext i g (c.without M) srcs bs L mu beta f0 diags' = .ok fin' ∧
      SameBut (signalOf base.contrib c.infos M) M keep fin fin' := by
  have u1 := hused "ref" (by simp)
  have u2 := hused "error" (by simp)
  have u3 := hused "loudspeaker" (by simp)
  have u4 := hused "xf" (by simp)
  have hM' : ∀ {k}, signalOf base.contrib c.infos M k = false → M.contains k = false := by
    intro k hk
    unfold signalOf at hk
    exact (Bool.or_eq_false_iff.1 hk).1
  unfold realSimulate at h ⊢
  cases hset : roomSetup ext i g c with
  | error x => rw [hset] at h; cases h
  | ok r =>
    obtain ⟨par, gc⟩ := r
    rw [hset] at h
    dsimp only at h
    cases hp : Coll.path gc "loudspeaker" "error" with
    | error x => rw [hp] at h; cases h
    | ok sp =>
      rw [hp] at h
      dsimp only at h
      cases hq : fastCreate gc.2.arrays bs L mu beta with
      | error x => rw [hq] at h; cases h
      | ok q =>
        rw [hq] at h
        dsimp only at h
        cases hd : diags gc.2 with
        | error x => rw [hd] at h; cases h
        | ok ds =>
          rw [hd] at h
          dsimp only at h
          obtain ⟨gc', k1, k2, fin', k3, k4⟩ := runWith_without (M := M) hc hM hrir hrand hset
            (cfg := { base with
              arrays := c.infos, arrUpdate := Coll.update (createPath (i.cfg ext par)), arrPath := Coll.path
              proc := some (fastProc q) }) rfl rfl rfl
            (fun p hp => by cases hp; exact fastProc_ignores q u1 u4 u2 u3) (fastPrepare_hide q u1 u4)
            (Pd := fun d => ∀ k ∈ d.reads, signalOf base.contrib c.infos M k = false)
            (by rw [hdiag]; exact diagOps_blind _) keep
            ((hdiags gc.2 (gc.2.without M) rfl ds hd).2) h
          rw [k1]
          dsimp only
          rw [path_hide k2 (hM' u2), hp]
          dsimp only
          have hq' : fastCreate gc'.2.arrays bs L mu beta = .ok q := by
            rw [← hq]
            exact fxCreate_hide k2 (hM' u1) (hM' u2) (hM' u3) _ _ _ _ _ _
          rw [hq']
          dsimp only
          rw [(hdiags gc.2 gc'.2 k2.arrays ds hd).1]
          exact ⟨fin', k3, k4⟩

/-- C184: the evaluation microphones "eval" and the diagnostics of the example.  A simulation with FastBlockFxLMS and
`add_anc_diagnostics` gives, without the array "eval", the same as with it; only the diagnostic
"spatial_noise_reduction" is missing. -/
theorem C184_eval
    (base : SimCfg R (IrMat R) F S (G × Coll (K × K × K) (IrMat R)) (FastSt R) (DData R (FastSt R) V) (DOut R V))
    (hdiag : base.diag = diagOps R (FastSt R) V) (hc : c.Consistent) (hM : "eval" ∈ c.mics)
    (hrir : ∀ b g g' ss ms, (ext.rir b g ss ms).2 = (ext.rir b g' ss ms).2)
    (hrand : ∀ s m, m ≠ "eval" → c.types s m ≠ some "random") {info : DiagInfo} {get : FastSt R → Except PyErr V}
    {fin : SimSt R F S (G × Coll (K × K × K) (IrMat R)) (FastSt R) (DData R (FastSt R) V) (DOut R V)}
    (h : realSimulate base ext i g c srcs bs L mu beta f0 (fun c => ancDiagnostics info c.arrays get) = .ok fin) :
    ∃ fin', realSimulate base ext i g (c.without ["eval"]) srcs bs L mu beta f0
        (fun c => ancDiagnostics info c.arrays get) = .ok fin' ∧
      SameBut (signalOf base.contrib c.infos ["eval"]) ["eval"] (fun name => name != "spatial_noise_reduction") fin fin' := by
  refine C184_microphones_fast base hdiag hc (by simpa using hM) hrir (by simpa using hrand) ?_ _ ?_ h
  · intro k hk
    refine signalOf_eval _ _ ?_
    simp only [List.mem_cons, List.not_mem_nil, or_false] at hk
    rcases hk with rfl | rfl | rfl | rfl <;> decide
  · intro c1 c2 h12 ds hds
    obtain ⟨h1, h2⟩ := ancDiagnostics_eval hds
    rw [h12]
    refine ⟨h1, fun d hd hk k hk' => signalOf_eval _ _ ?_⟩
    have := h2 d hd hk k hk'
    simp only [List.mem_cons, List.not_mem_nil, or_false] at this
    rcases this with rfl | rfl | rfl | rfl | rfl <;> decide

end

section
variable {K R G S V : Type} [Field K] [LinearOrder K] [Field R] [DecidableEq R]
  {ext : RoomExt K R G} {i : RoomInfo K} {freq : Nat}

/-- C184 for the shipped script `example_active_noise_control_real_data.py`: whatever the room, the places, the measured
responses, the noise and the step size, for up to 150015 samples it runs to its end with and without its evaluation
microphones, and both times the control filter, the signals of the loudspeakers and the other microphones, and the
recordings and exports are the same. -/
theorem C184_shipped {hm he : IrMat R} {pm pe pl : List (K × K × K)} {pr pn : K × K × K}
    (h1 : hm.numIn = pl.length ∧ hm.numOut = pm.length) (h2 : he.numIn = pl.length ∧ he.numOut = pe.length)
    (hpm : pm ≠ []) (hpe : pe ≠ []) (hpl : pl ≠ []) (hfreq : 1 ≤ freq) (hdims : i.dims = 3)
    (hrev : 0 < i.rt60 → ∃ r, ext.inverseSabine i.rt60 i.size = .ok r) (hext : ∀ par, (i.cfg ext par).Lawful)
    (hrir : ∀ b g g' ss ms, (ext.rir b g ss ms).2 = (ext.rir b g' ss ms).2)
    (base : SimCfg R (IrMat R) (Fir R) S (G × Coll (K × K × K) (IrMat R)) (FastSt R) (DData R (FastSt R) V) (DOut R V))
    (hdiag : base.diag = diagOps R (FastSt R) V) (hfilt : base.filt = firOps R) (hB : base.B = 1000) (hC : base.C = 10000)
    (htot : 0 < base.tot ∧ base.tot < 150016) (hcon : base.contrib = true) {srcs : String → S} {x : Nat → Nat → R}
    (hx : IsStream base.srcGet (srcs "noise") 1 x) {mu beta : R}
    (hreg : ∀ l : List R, (l.map fun x => x * x).sum + beta ≠ 0) {info : DiagInfo}
    (hi : info.tot = base.tot) (hf : 0 < info.exportFreq) (hs : info.smoothing ≠ 0) (v : V) (f0 : Fir R) (g : G) :
    ∃ fin fin', realSimulate base ext i g (planned freq (realArrays pm pe pr pl pn) (realOps hm he) "ism") srcs 1 512 mu beta f0
        (fun c => ancDiagnostics info c.arrays fun _ => .ok v) = .ok fin ∧
      realSimulate base ext i g ((planned freq (realArrays pm pe pr pl pn) (realOps hm he) "ism").without ["eval"]) srcs 1 512 mu beta f0
        (fun c => ancDiagnostics info c.arrays fun _ => .ok v) = .ok fin' ∧
      (∀ k ∈ ["error", "ref", "loudspeaker", "noise", "noise~error", "loudspeaker~error", "noise~ref", "loudspeaker~ref", "xf"],
        fin'.eng.sig k = fin.eng.sig k) ∧
      fin'.eng.proc = fin.eng.proc ∧
      fin'.diags = fin.diags.filter (fun d => d.name != "spatial_noise_reduction") ∧
      fin'.log = fin.log.filter (fun e => e.diag != "spatial_noise_reduction") := by
  obtain ⟨fin, k1⟩ := (C176_shipped (pr := pr) (pn := pn) h1 h2 hpm hpe hpl hfreq hdims hrev hext base hdiag hfilt hB hC htot.1 hcon hx
    (mu := mu) (beta := beta) hreg hi hf hs v f0 g).1 htot.2
  have hplan := realArrays_plan (pr := pr) (pn := pn) (i := i) (ext := ext) h1 h2 hpm hpe hpl hfreq hdims hrev hext
  obtain ⟨fin', k2, k3⟩ := C184_eval base hdiag hplan.begun.2
    (by
      rw [hplan.begun.2.mem_mics, hplan.begun.1]
      exact ⟨placedArr "eval" .mic true pe, by simp [realArrays], rfl, rfl⟩) hrir
    (by
      intro s m _ h
      have := planned_types h
      simp [realOps] at this) k1
  refine ⟨fin, fin', k1, k2, fun k hk => k3.sig k (signalOf_eval _ _ ?_), k3.proc, k3.diags, k3.log⟩
  simp only [List.mem_cons, List.not_mem_nil, or_false] at hk
  rcases hk with rfl | rfl | rfl | rfl | rfl | rfl | rfl | rfl | rfl <;> decide

end

/-- The shipped script with measured responses, without its evaluation microphone. -/
example (g : Nat) : ∃ fin fin', realSimulate (realBase 10000) boxExt boxInfo g
    (planned 2 (realArrays [(0, 1, 3), (0, 2, 3)] [(0, 0, 3)] (3, 1, 3) [(1, 1, 3), (1, 2, 3), (1, 0, 3)] (3, 1, 3)) (realOps (realIr 2) (realIr 1)) "ism")
    (fun _ => 0) 1 512 (1 / 20) (1 / 1000000) demoFilt
    (fun c => ancDiagnostics ⟨10000, 2000, 512⟩ c.arrays fun _ => .ok 0) = .ok fin ∧
    realSimulate (realBase 10000) boxExt boxInfo g
    ((planned 2 (realArrays [(0, 1, 3), (0, 2, 3)] [(0, 0, 3)] (3, 1, 3) [(1, 1, 3), (1, 2, 3), (1, 0, 3)] (3, 1, 3)) (realOps (realIr 2) (realIr 1)) "ism").without ["eval"])
    (fun _ => 0) 1 512 (1 / 20) (1 / 1000000) demoFilt
    (fun c => ancDiagnostics ⟨10000, 2000, 512⟩ c.arrays fun _ => .ok 0) = .ok fin' ∧
    fin'.eng.proc = fin.eng.proc ∧ fin'.eng.sig "noise~error" = fin.eng.sig "noise~error" := by
  have hx : IsStream (realBase 10000).srcGet ((fun _ => 0 : String → Nat) "noise") 1 fun _ t => ((0 + t + 1 : Nat) : ℚ) := open_stream 0
  obtain ⟨fin, fin', h1, h2, h3, h4, -⟩ := C184_shipped (hm := realIr 2) (he := realIr 1) (pm := [((0 : ℚ), (1 : ℚ), (3 : ℚ)), (0, 2, 3)]) (pe := [(0, 0, 3)])
    (pl := [(1, 1, 3), (1, 2, 3), (1, 0, 3)]) (pr := (3, 1, 3)) (pn := (3, 1, 3)) (freq := 2) (i := boxInfo) (ext := boxExt)
    ⟨rfl, rfl⟩ ⟨rfl, rfl⟩ (by simp) (by simp) (by simp) (by omega) rfl plan_demo.reverberation box_lawful (fun _ _ _ _ _ => rfl)
    (realBase 10000) rfl rfl rfl rfl
    ⟨by decide, by decide⟩ rfl (srcs := fun _ => 0) hx (mu := 1 / 20) (beta := 1 / 1000000)
    (regular_pos (by norm_num)) (info := ⟨10000, 2000, 512⟩) rfl (by decide) (by decide) 0 demoFilt g
  exact ⟨fin, fin', h1, h2, h4, h3 _ (by simp)⟩

/-- The arrays of the example with one more microphone in front. -/
def furtherColl : Coll (ℚ × ℚ × ℚ) (IrMat ℚ) :=
  planned 2 (stillArr "further" .mic [(1, 1, 3)] :: exampleArrays [(0, 1, 3)] [(3, 1, 3)] [(1, 1, 3)] [(3, 1, 3)]) exampleTypes "ism"

/-- FxLMS with one more microphone and without it. -/
example : ∃ fin fin', ancSimulate { ancBase with B := 6, C := 4, tot := 5 } boxExt boxInfo 0 furtherColl (fun _ => 0) 1 2 2 (1 / 100) (1 / 1000) .none demoFilt
      (fun _ => .ok []) = .ok fin ∧
    ancSimulate { ancBase with B := 6, C := 4, tot := 5 } boxExt boxInfo 0 (furtherColl.without ["further"]) (fun _ => 0) 1 2 2 (1 / 100) (1 / 1000) .none demoFilt
      (fun _ => .ok []) = .ok fin' ∧
    fin'.eng.proc = fin.eng.proc ∧ fin'.eng.sig "error" = fin.eng.sig "error" ∧ fin.eng.sig "further" ≠ none ∧ fin'.eng.sig "further" = none := by
  have hx : (match ancSimulate { ancBase with B := 6, C := 4, tot := 5 } boxExt boxInfo 0 furtherColl (fun _ => 0) 1 2 2 (1 / 100) (1 / 1000) .none demoFilt
      (fun _ => .ok []), ancSimulate { ancBase with B := 6, C := 4, tot := 5 } boxExt boxInfo 0 (furtherColl.without ["further"]) (fun _ => 0) 1 2 2 (1 / 100) (1 / 1000) .none demoFilt
      (fun _ => .ok []) with
      | .ok fin, .ok fin' => (fin.eng.sig "further").isSome && (fin'.eng.sig "further").isNone
      | _, _ => false) = true := by decide +kernel
  have hk : (∀ a ∈ furtherColl.arrays, a.kind ≠ none) ∧ (furtherColl.arrays.map Arr.name).Nodup := by decide +kernel
  split at hx
  · rename_i fin fin1 h1 h2
    obtain ⟨fin', h3, h4⟩ := C184_microphones_fxlms (M := ["further"]) { ancBase with B := 6, C := 4, tot := 5 } rfl
      ⟨hk.2, hk.1, by decide +kernel, by decide +kernel, by decide +kernel⟩ (by decide +kernel) (fun _ _ _ _ _ => rfl)
      (by
        intro s m _ h
        have := planned_types h
        simp [exampleTypes] at this) (by decide +kernel) (fun _ => true) (diags' := fun _ => .ok [])
      (by
        intro c1 c2 _ ds hds
        cases hds
        exact ⟨rfl, by simp⟩) h1
    rw [h2] at h3
    cases h3
    rw [Bool.and_eq_true] at hx
    exact ⟨fin, fin1, h1, h2, h4.proc, h4.sig _ (by decide +kernel), fun e => by rw [e] at hx; simp at hx, by simpa using hx.2⟩
  · cases hx

/-- The exports of "w" without the other diagnostics. -/
example : ∃ fin' : FastS, fastSc.runWith (fastPrepare (fxDemo 1 2 2 .block)) (fun _ => 0) () (fastInit (fxDemo 1 2 2 .block) (fxSec [2])) demoFilt
      (fastDs.filter fun d => d.name == "w") = .ok fin' ∧
    fin'.log.map (fun (e : Event (DOut ℚ ℚ)) => (e.diag, e.time, fxOut e.out)) = [("w", 2, some (-3/23)), ("w", 7, some (-1769467/10009899))] := by
  obtain ⟨st0, fin, h, hlog⟩ := fast_demo_run
  obtain ⟨fin', h1, -, -, -, -, h2⟩ := C184_fewer fastSc (fastPrepare (fxDemo 1 2 2 .block)) (fun s => s == "w") _ _ _ _ _ h.run
  refine ⟨fin', h1, ?_⟩
  have := congrArg (fun l => l.filter fun p => p.1 == "w") hlog
  simp only [List.filter_map] at this
  rw [h2]
  exact this

/-- Two sets of diagnostics together. -/
example : ∃ fin s1 s2 : FastS, fastSc.runWith (fastPrepare (fxDemo 1 2 2 .block)) (fun _ => 0) () (fastInit (fxDemo 1 2 2 .block) (fxSec [2])) demoFilt
      fastDs = .ok fin ∧ fin.log.filter (fun e => e.diag == "w") = s1.log ∧ fin.log.filter (fun e => !(e.diag == "w")) = s2.log ∧
      s1.log.length = 2 := by
  obtain ⟨st0, fin0, h, hlog⟩ := fast_demo_run
  obtain ⟨s1, h1, -, -, -, -, k1⟩ := C184_fewer fastSc (fastPrepare (fxDemo 1 2 2 .block)) (fun s => s == "w") _ _ _ _ _ h.run
  obtain ⟨s2, h2, -⟩ := C184_fewer fastSc (fastPrepare (fxDemo 1 2 2 .block)) (fun s => !(s == "w")) _ _ _ _ _ h.run
  obtain ⟨fin, h3, -, -, h4, h5⟩ := C184_together fastSc (fastPrepare (fxDemo 1 2 2 .block)) (fun s => s == "w") _ _ _ _ _ h1 h2
  refine ⟨fin, s1, s2, h3, h4, h5, ?_⟩
  have := congrArg (fun l => (l.filter fun p => p.1 == "w").length) hlog
  simp only [List.filter_map, List.length_map] at this
  rw [k1]
  exact this

/-- With and without contributions: the first tap of the control filter after three updates. -/
example : ∃ fin fin' : FastS, { fastSc with contrib := true }.runWith (fastPrepare (fxDemo 1 2 2 .block)) (fun _ => 0) ()
      (fastInit (fxDemo 1 2 2 .block) (fxSec [2])) demoFilt fastDs = .ok fin ∧
    fastSc.runWith (fastPrepare (fxDemo 1 2 2 .block)) (fun _ => 0) () (fastInit (fxDemo 1 2 2 .block) (fxSec [2])) demoFilt fastDs = .ok fin' ∧
    fin'.log = fin.log ∧ fin'.eng.proc = fin.eng.proc ∧ fin.log.length = 6 ∧ fin.eng.sig "noise~error" ≠ none := by
  have hx : (match { fastSc with contrib := true }.runWith (fastPrepare (fxDemo 1 2 2 .block)) (fun _ => 0) ()
      (fastInit (fxDemo 1 2 2 .block) (fxSec [2])) demoFilt fastDs with
    | .error _ => false
    | .ok st => (st.log.length == 6) && (st.eng.sig "noise~error").isSome) = true := by decide +kernel
  split at hx
  · cases hx
  · rename_i fin hfin
    obtain ⟨fin', h1, -, h3, -, h5⟩ := C184_contributions_fast { fastSc with contrib := true } (fxDemo 1 2 2 .block) rfl rfl rfl
      (by
        intro d hd k hk
        simp only [fastDs, List.mem_cons, List.not_mem_nil, or_false] at hd
        have : k = "error" ∨ k = "loudspeaker" := by
          rcases hd with rfl | rfl | rfl | rfl
          · exact .inr (List.mem_singleton.1 hk)
          · exact .inl (List.mem_singleton.1 hk)
          · cases hk
          · cases hk
        rcases this with rfl | rfl <;> exact isContrib_plain (by decide)) hfin
    rw [Bool.and_eq_true] at hx
    exact ⟨fin, fin', hfin, h1, h5, h3, by simpa using hx.1, fun e => by rw [e] at hx; simp at hx⟩

end Verif

/-
C02: the chunk size and the buffer size do not influence the results.
-/
import Verif.Lemmas.Resize
import Verif.Props.Recording
namespace Verif

/-- The same simulation with another buffer and chunk size. -/
def SimCfg.resized {R IR F S A P D O : Type} (cfg : SimCfg R IR F S A P D O) (B' C' : Nat) :
    SimCfg R IR F S A P D O := { cfg with B := B', C := C' }

section
variable {R IR F S A P V : Type} [Field R] [DecidableEq R]
  {cfg : SimCfg R IR F S A P (DData R P V) (DOut R V)} {lp : ProcView R P}
  {srcs : String → S} {arr : A} {proc : P} {f0 : F} {ds0 ds0' : List (Diag (DData R P V))}
  {st0 st0' st st' fin fin' : SimSt R F S A P (DData R P V) (DOut R V)} {k B' C' : Nat}

/-- C02. Two simulations that differ in `sim_buffer` and `sim_chunk_size` only
(with `start_sources_before_0`, where `sim_buffer` says how much is played
before time 0, in `sim_chunk_size` only), both large enough for the processor:
after every number of iterations they have produced the same samples of every
signal and left the processor in the same state.  They may have different
diagnostics. -/
theorem C02_signals (h : Started cfg lp srcs arr proc f0 ds0 st0)
    (h' : Started (cfg.resized B' C') lp srcs arr proc f0 ds0' st0')
    (hw : cfg.warm = false ∨ B' = cfg.B)
    (hk : cfg.steps k st0 = .ok st) (hk' : (cfg.resized B' C').steps k st0' = .ok st') :
    (∀ t ≤ k, ∀ name c v, (cfg.resized B' C').Produced st0' name c t v ↔ cfg.Produced st0 name c t v) ∧
      st'.eng.proc = st.eng.proc := by
  obtain ⟨e0, te, i1, _, i3, i4, i5⟩ := h.tape hk
  obtain ⟨e0', te', j1, _, j3, j4, j5⟩ := h'.tape hk'
  have hb := h.sizes.buffer
  have hb1 := h.sizes.block
  have hb' : (cfg.resized B' C').mbs + 1 ≤ B' := h'.sizes.buffer
  have hb1' := h'.sizes.block
  have hA := tInit_agr hw (by omega) (by omega) i1 j1
  have hA' := tSteps_agr (by
    intro p hp
    have g1 := (h.sizes.proc p hp).2
    have g2 : lp.H + p.bs ≤ B' + 1 := (h'.sizes.proc p hp).2
    have e1 : cfg.mbs = p.bs := by unfold SimCfg.mbs; rw [hp]
    omega) hA k i3 j3
  refine ⟨?_, by rw [i4, j4, hA'.proc]⟩
  intro t ht name c v
  rw [i5 t ht, j5 t ht]
  rw [show (cfg.resized B' C').dims = cfg.dims from rfl]
  rw [hA'.sig name c ((t : Int) - 1) (by omega)]

theorem completed_signals (h : CompletedRun cfg lp srcs arr proc f0 ds0 st0 fin)
    (h' : CompletedRun (cfg.resized B' C') lp srcs arr proc f0 ds0' st0' fin')
    (hw : cfg.warm = false ∨ B' = cfg.B) :
    ∀ t ≤ cfg.tot, ∀ name c v, (cfg.resized B' C').Produced st0' name c t v ↔ cfg.Produced st0 name c t v := by
  obtain ⟨s, hs⟩ := h.steps
  obtain ⟨s', hs'⟩ := h'.steps
  exact (C02_signals h.started h'.started hw hs hs').1

/-- C02 for recordings: a `RecordSignal` diagnostic, with any save intervals,
ends up with the same data in both simulations. -/
theorem C02_recordings (h : CompletedRun cfg lp srcs arr proc f0 ds0 st0 fin)
    (h' : CompletedRun (cfg.resized B' C') lp srcs arr proc f0 ds0' st0' fin')
    (hw : cfg.warm = false ∨ B' = cfg.B)
    {info : DiagInfo} {name sig : String} {ex : Option IdxSel} {sv : Option (List (Int × Int))}
    {numCh num : Nat} {chan : Option (List Int)} {rows : List Nat} {d : Diag (DData R P V)}
    (hd : mkRecordSignal info name sig ex sv numCh chan = .ok d) (hmem : d ∈ ds0) (hmem' : d ∈ ds0')
    (htot : info.tot = cfg.tot)
    (hinc : Increasing 0 (savedIvs cfg.tot sv)) (hend : ∀ q ∈ savedIvs cfg.tot sv, q.2 ≤ cfg.tot)
    (hsig : cfg.dims sig = some num) (hrows : chanRows num chan = some rows)
    (hlen : rows.length = numCh) :
    ∃ d1 ∈ fin.diags, d1.name = name ∧ ∃ d2 ∈ fin'.diags, d2.name = name ∧ d2.data = d1.data := by
  have hP := completed_signals h h' hw
  obtain ⟨h1, h2, h3, h4, h5⟩ := mkRecordSignal_ok hd
  have hsv : d.saveAt = IvCounter.init (savedIvs cfg.tot sv) := by
    cases sv with
    | none => unfold signalSaveAt at h2; rw [htot] at h2; exact (Except.ok.inj h2).symm
    | some l => exact signalSaveAt_some h2
  obtain ⟨_, _, hR⟩ := h.diagRun
  obtain ⟨_, _, hR'⟩ := h'.diagRun
  obtain ⟨d1, g1, g2, s1, g3, g4, g5⟩ := hR.recorded hmem hsv hinc hend (by rw [h4, htot]) hsig hrows hlen trivial
  obtain ⟨d2, k1, k2, s2, k3, k4, k5⟩ := hR'.recorded hmem' hsv hinc hend (by rw [h4, htot]; rfl) hsig hrows hlen trivial
  refine ⟨d1, g1, g2.trans h1, d2, k1, k2.trans h1, ?_⟩
  rw [g3, k3]
  congr 1
  refine List.ext_getElem? fun j => ?_
  by_cases hj : j < numCh
  · obtain ⟨c, hc⟩ : ∃ c, rows[j]? = some c := ⟨rows[j]'(by omega), List.getElem?_eq_getElem _⟩
    obtain ⟨r1, a1, a2, a3⟩ := g5 j c hc
    obtain ⟨r2, b1, b2, b3⟩ := k5 j c hc
    rw [a1, b1]
    congr 1
    refine List.ext_getElem? fun t => ?_
    by_cases ht : t < cfg.tot
    · by_cases hcov : Covered (savedIvs cfg.tot sv) t
      · obtain ⟨v, p1, p2⟩ := (a3 t ht).1 hcov
        obtain ⟨v', q1, q2⟩ := (b3 t ht).1 hcov
        rw [p2, q2, p1.unique ((hP t (by omega) sig c v').1 q1)]
      · rw [(a3 t ht).2 hcov, (b3 t ht).2 hcov]
    · have b2' : r2.length = cfg.tot := b2
      rw [List.getElem?_eq_none (by omega), List.getElem?_eq_none (by omega)]
  · rw [List.getElem?_eq_none (by omega), List.getElem?_eq_none (by omega)]

/-- C02 for exports: a `RecordSignal` diagnostic over the whole run makes the
same exports, with the same indices and contents, in both simulations. -/
theorem C02_exports (h : CompletedRun cfg lp srcs arr proc f0 ds0 st0 fin)
    (h' : CompletedRun (cfg.resized B' C') lp srcs arr proc f0 ds0' st0' fin')
    (hw : cfg.warm = false ∨ B' = cfg.B) (hplot : cfg.plotNone = false)
    {info : DiagInfo} {name sig : String} {l : List Int}
    {numCh num : Nat} {chan : Option (List Int)} {rows : List Nat} {d : Diag (DData R P V)}
    (hd : mkRecordSignal info name sig (some (.list l)) none numCh chan = .ok d)
    (hmem : d ∈ ds0) (hmem' : d ∈ ds0') (htot : info.tot = cfg.tot) (hpos : 0 < cfg.tot)
    (hl : l.Pairwise (· < ·)) (hl0 : ∀ x ∈ l, 0 ≤ x)
    (hsig : cfg.dims sig = some num) (hrows : chanRows num chan = some rows)
    (hlen : rows.length = numCh) (hnum : 0 < numCh) :
    (evOf name fin'.log).map (fun ev => (ev.time, ev.out)) =
      (evOf name fin.log).map (fun ev => (ev.time, ev.out)) := by
  have hP := completed_signals h h' hw
  have t1 := C05_exports_happen h hplot hd hmem htot hpos hl
  have t2 := C05_exports_happen h' hplot hd hmem' htot hpos hl
  have hone : Increasing 0 (savedIvs cfg.tot none) := ⟨le_refl _, by simpa using hpos, trivial⟩
  have htwo : ∀ q ∈ savedIvs cfg.tot none, q.2 ≤ (cfg.tot : Int) := by simp [savedIvs]
  have hev : ∀ ev ∈ evOf name fin.log, ∀ ev' ∈ evOf name fin'.log, ev.time = ev'.time → ev'.out = ev.out := by
    intro ev hv ev' hv' he
    have h0 : 0 ≤ ev.time := by
      have : ev.time ∈ (evOf name fin.log).map Event.time := List.mem_map_of_mem hv
      rw [t1] at this
      exact hl0 _ (List.mem_filter.1 this).1
    obtain ⟨a0, sg, a1, a2, a3⟩ := C04_export_content h hd hmem htot rfl hone htwo hsig hrows hlen hnum hv h0
    obtain ⟨b0, sg', b1, b2, b3⟩ := C04_export_content h' hd hmem' htot rfl hone htwo hsig hrows hlen hnum hv'
      (by rw [← he]; exact h0)
    rw [a1, b1, ← he]
    congr 1
    refine List.ext_getElem? fun j => ?_
    by_cases hj : j < numCh
    · obtain ⟨c, hc⟩ : ∃ c, rows[j]? = some c := ⟨rows[j]'(by omega), List.getElem?_eq_getElem _⟩
      obtain ⟨r1, c1, c2⟩ := a3 j c hc
      obtain ⟨r2, d1, d2⟩ := b3 j c hc
      rw [c1, d1]
      congr 1
      rw [← he] at d2
      have hlt : ∀ t ∈ (List.range ev.time.toNat).filter (Covered (savedIvs cfg.tot none) ·), t ≤ cfg.tot := by
        intro t ht
        have := List.mem_range.1 (List.mem_filter.1 ht).1
        omega
      exact forall₂_unique c2 d2 fun x v w hx hv hw => hv.unique ((hP _ (hlt x hx) _ _ _).1 hw)
    · rw [List.getElem?_eq_none (by omega), List.getElem?_eq_none (by omega)]
  have htimes : (evOf name fin'.log).map Event.time = (evOf name fin.log).map Event.time := by
    rw [t1, t2]; rfl
  revert hev htimes
  generalize evOf name fin.log = es
  generalize evOf name fin'.log = es'
  clear t1 t2
  induction es generalizing es' with
  | nil =>
    intro _ ht
    have : es' = [] := by simpa using ht
    subst this
    rfl
  | cons a es ih =>
    intro hev ht
    cases es' with
    | nil => cases ht
    | cons b es' =>
      rw [List.map_cons, List.map_cons, List.cons.injEq] at ht
      rw [List.map_cons, List.map_cons, ih es' (fun x hx y hy => hev x (by simp [hx]) y (by simp [hy])) ht.2,
        ht.1, hev a (by simp) b (by simp) ht.1.symm]

end

/-! ### A case that meets the hypotheses -/

/-- The demonstration run with a buffer of 7 and a chunk of 3 samples. -/
theorem resized_completed : ∃ st0 fin, CompletedRun ((demoCfg 4 2 6).resized 7 3) ((debugProc 6 2).view 2)
    (fun _ => 0) () demoProc demoFilt demoDs st0 fin := by
  have h0 : ∃ st0, ((demoCfg 4 2 6).resized 7 3).init (fun _ => 0) () demoProc demoFilt demoDs = .ok st0 :=
    ⟨_, by rfl⟩
  have h1 : (((demoCfg 4 2 6).resized 7 3).run (fun _ => 0) () demoProc demoFilt demoDs).map
      (fun fin => fin.log.length) = .ok 6 := by rfl
  cases h2 : ((demoCfg 4 2 6).resized 7 3).run (fun _ => 0) () demoProc demoFilt demoDs with
  | error x => rw [h2] at h1; cases h1
  | ok fin =>
    obtain ⟨st0, h0⟩ := h0
    refine ⟨st0, fin, ⟨⟨by decide, by decide, by decide, ?_, debug_valid _ 6 2⟩, rfl, by decide, h0, h2⟩⟩
    intro p hp
    cases hp
    exact ⟨Or.inl (by decide), by decide⟩

example : ∃ st0 st0' fin fin' : DemoSt,
    (demoCfg 4 2 6).run (fun _ => 0) () demoProc demoFilt demoDs = .ok fin ∧
    ((demoCfg 4 2 6).resized 7 3).run (fun _ => 0) () demoProc demoFilt demoDs = .ok fin' ∧
    (∀ t ≤ 6, ∀ name c v, ((demoCfg 4 2 6).resized 7 3).Produced st0' name c t v ↔
      (demoCfg 4 2 6).Produced st0 name c t v) ∧
    (∃ d1 ∈ fin.diags, d1.name = "ivs" ∧ ∃ d2 ∈ fin'.diags, d2.name = "ivs" ∧ d2.data = d1.data) ∧
    (evOf "lst" fin'.log).map (fun ev => (ev.time, ev.out)) =
      (evOf "lst" fin.log).map (fun ev => (ev.time, ev.out)) := by
  obtain ⟨st0, fin, h, _⟩ := demo_completed
  obtain ⟨st0', fin', h'⟩ := resized_completed
  refine ⟨st0, st0', fin, fin', h.run, h'.run, completed_signals h h' (Or.inl rfl), ?_, ?_⟩
  · exact C02_recordings h h' (Or.inl rfl) demoIvs_ok (by simp [demoDs]) (by simp [demoDs]) rfl
      (by simp [savedIvs, Increasing]) (by decide) (rows := [0]) (by rfl) (by rfl) rfl
  · exact C02_exports h h' (Or.inl rfl) rfl demoLst_ok (by simp [demoDs]) (by simp [demoDs]) rfl (by decide)
      (by decide) (by decide) (rows := [0]) (by rfl) (by rfl) rfl (by decide)

end Verif

/-
C02 for state, instant and power diagnostics.
-/
import Verif.Props.Sizes
import Verif.Props.State
import Verif.Props.Power
import Verif.Props.ExportTimes
namespace Verif

/-- At most one prefix ends at or after `x` while its proper prefixes end
before. -/
theorem prefix_determined {ps qs rs : List (Int × Int)} (hs : (ps.map Prod.snd).Pairwise (· < ·))
    (h0 : ∀ q ∈ ps, 0 < q.2) {x : Int} (hq : qs <+: ps) (hr : rs <+: ps)
    (h1 : x ≤ lastEnd 0 qs) (h2 : lastEnd 0 rs.dropLast < x) : ¬ (qs <+: rs ∧ qs ≠ rs) := by
  rintro ⟨h, hne⟩
  have h3 : qs <+: rs.dropLast := by
    obtain ⟨t, rfl⟩ := h
    rcases List.eq_nil_or_concat t with rfl | ⟨t', y, rfl⟩
    · exact absurd (List.append_nil _).symm hne
    · rw [List.concat_eq_append, ← List.append_assoc, List.dropLast_concat]
      exact List.prefix_append _ _
  have := lastEnd_prefix hs h0 ((List.dropLast_prefix rs).trans hr) h3
  omega

theorem savePieces_agree {R P D O : Type} (ops : DiagOps R P D O) (dims : String → Option Nat) {T T' : Tape R}
    {pf pf' : Nat → Option P} (hT : ∀ k c t, -1 ≤ t → T' k c t = T k c t) :
    ∀ (ps : List (Int × Int)) (d : D), (∀ q ∈ ps, 0 ≤ q.1) → (∀ q ∈ ps, pf' q.2.toNat = pf q.2.toNat) →
      savePieces ops dims T' pf' ps d = savePieces ops dims T pf ps d
  | [], d, _, _ => rfl
  | q :: ps, d, h, hp => by
    unfold savePieces
    rw [List.foldlM_cons, List.foldlM_cons, hp q (by simp)]
    have hc : cut dims T' (q.1 - 1) (q.2 - q.1).toNat = cut dims T (q.1 - 1) (q.2 - q.1).toNat := by
      unfold cut
      funext k
      congr 1
      funext num
      congr 1
      funext c p
      have := h q (by simp)
      exact hT _ _ _ (by omega)
    rw [hc]
    congr 1
    funext d'
    exact savePieces_agree ops dims hT ps d' (fun q hq => h q (by simp [hq])) fun q hq => hp q (by simp [hq])

theorem events_eq {O : Type} : ∀ {es es' : List (Event O)}, es'.map Event.time = es.map Event.time →
    (∀ ev ∈ es, ∀ ev' ∈ es', ev.time = ev'.time → ev'.out = ev.out) →
    es'.map (fun ev => (ev.time, ev.out)) = es.map (fun ev => (ev.time, ev.out))
  | [], es', ht, _ => by
    have : es' = [] := by simpa using ht
    subst this
    rfl
  | a :: es, [], ht, _ => by cases ht
  | a :: es, b :: es', ht, hev => by
    rw [List.map_cons, List.map_cons, List.cons.injEq] at ht
    rw [List.map_cons, List.map_cons,
      events_eq ht.2 fun x hx y hy => hev x (by simp [hx]) y (by simp [hy]), ht.1,
      hev a (by simp) b (by simp) ht.1.symm]

section
variable {R IR F S A P V : Type} [Field R] [DecidableEq R]
  {cfg : SimCfg R IR F S A P (DData R P V) (DOut R V)} {lp : ProcView R P}
  {srcs : String → S} {arr : A} {proc : P} {f0 : F} {ds0 ds0' : List (Diag (DData R P V))}
  {st0 st0' fin fin' : SimSt R F S A P (DData R P V) (DOut R V)} {B' C' : Nat}

/-- What one diagnostic that saves at single indices has seen, with the tape. -/
theorem CompletedRun.unit_tape (h : CompletedRun cfg lp srcs arr proc f0 ds0 st0 fin) :
    ∃ (e0 te : Eng (Tape R) F S A P), cfg.tInit srcs arr proc f0 = .ok e0 ∧
      cfg.tSteps lp (cfg.tot + cfg.mbs) e0 = .ok te ∧
      ∀ d0 ∈ ds0, ∀ ivs, d0.saveAt = IvCounter.init ivs → Increasing 0 ivs →
        (∀ q ∈ ivs, q.2 = q.1 + 1) →
        ∃ d ∈ fin.diags, d.name = d0.name ∧ ∃ ps xs,
          ps = ivs.filter (fun q => decide (q.2 < ((cfg.tot + cfg.mbs : Nat) : Int))) ∧
          savePieces (diagOps R P V) cfg.dims te.sig (cfg.procAfter lp e0) ps d0.data = .ok d.data ∧
          d0.exportAt.left = xs ++ d.exportAt.left ∧
          (evOf d0.name fin.log).map Event.time = xs ∧
          (∀ ev ∈ evOf d0.name fin.log, ∃ qs, qs <+: ps ∧ ∃ dd,
            savePieces (diagOps R P V) cfg.dims te.sig (cfg.procAfter lp e0) qs d0.data = .ok dd ∧
            DData.output dd ev.time = .ok ev.out ∧ ev.time ≤ lastEnd 0 qs ∧
            (cfg.plotNone = false → d0.exportAt.left.Pairwise (· < ·) →
              ev.time ≤ 0 ∨ lastEnd 0 qs.dropLast < ev.time)) ∧
          (cfg.plotNone = false → d0.exportAt.left.Pairwise (· < ·) →
            ∀ x ∈ d.exportAt.left, lastEnd 0 ps < x) := by
  obtain ⟨e0, te, he0, hR, hP⟩ := run_produced cfg lp h.sizes
    (by rw [h.diag]; exact diagOps_local _) h.names h.init h.run
  refine ⟨e0, te, he0, hR.tape, ?_⟩
  intro d0 hd0 ivs hiv hinc hu
  obtain ⟨d, hd, hname, hD⟩ := forall₂_mem_left hR.diags hd0
  obtain ⟨ps, xs, r, hI, hready⟩ := hD ⟨ivs, hiv, hinc⟩
  have hiv' := hI.iv
  rw [hiv, IvCounter.left_init] at hiv'
  refine ⟨d, hd, hname, ps, xs, hiv'.units hu, ?_, hI.left, hI.times, ?_, ?_⟩
  · rw [← h.diag]; exact hI.data
  · have := hI.outs
    rw [h.diag] at this
    exact this
  · intro hp hpw x hx
    have hpw' : d.exportAt.left.Pairwise (· < ·) := by
      rw [hI.left] at hpw
      exact (List.pairwise_append.1 hpw).2.1
    rw [← hiv'.1]
    exact Diag.not_ready (hready hp) hpw' x hx

/-- C02 for every diagnostic that saves at single indices (state and instant
diagnostics): at the end it has the same data in both simulations, and it has
made the same exports, with the same indices and contents. -/
theorem C02_points (h : CompletedRun cfg lp srcs arr proc f0 ds0 st0 fin)
    (h' : CompletedRun (cfg.resized B' C') lp srcs arr proc f0 ds0' st0' fin')
    (hw : cfg.warm = false ∨ B' = cfg.B) (hp : cfg.proc.isSome) {d : Diag (DData R P V)} (hmem : d ∈ ds0)
    (hmem' : d ∈ ds0') {ivs : List (Int × Int)} (hiv : d.saveAt = IvCounter.init ivs) (hinc : Increasing 0 ivs)
    (hu : ∀ q ∈ ivs, q.2 = q.1 + 1) :
    (∃ d1 ∈ fin.diags, d1.name = d.name ∧ ∃ d2 ∈ fin'.diags, d2.name = d.name ∧ d2.data = d1.data) ∧
    (cfg.plotNone = false → d.exportAt.left.Pairwise (· < ·) → (∀ x ∈ d.exportAt.left, 1 ≤ x) →
      (evOf d.name fin'.log).map (fun ev => (ev.time, ev.out)) =
        (evOf d.name fin.log).map (fun ev => (ev.time, ev.out))) := by
  obtain ⟨e0, te, i1, i2, hD⟩ := h.unit_tape
  obtain ⟨e0', te', j1, j2, hD'⟩ := h'.unit_tape
  obtain ⟨d1, hd1, hn1, ps, xs, hps, hsave, hleft, htimes, hout, hnext⟩ := hD d hmem ivs hiv hinc hu
  obtain ⟨d2, hd2, hn2, ps', xs', hps', hsave', hleft', htimes', hout', hnext'⟩ := hD' d hmem' ivs hiv hinc hu
  have hmb : (cfg.resized B' C').mbs = cfg.mbs := by
    unfold SimCfg.mbs
    obtain ⟨p, hc⟩ := Option.isSome_iff_exists.1 hp
    simp [SimCfg.resized, hc]
  have htt : (cfg.resized B' C').tot = cfg.tot := rfl
  rw [hmb, htt] at hps' j2
  have hpp : ps' = ps := by rw [hps, hps']
  subst hpp
  -- the two tapes and processor histories agree
  have hb := h.sizes.buffer
  have hb1 := h.sizes.block
  have hb' : (cfg.resized B' C').mbs + 1 ≤ B' := h'.sizes.buffer
  have hb1' := h'.sizes.block
  have hm : ∀ p, cfg.proc = some p → lp.H + 1 ≤ min cfg.B B' + p.bs := by
    intro p hp
    have g1 := (h.sizes.proc p hp).2
    have g2 : lp.H + p.bs ≤ B' + 1 := (h'.sizes.proc p hp).2
    have e1 : cfg.mbs = p.bs := by unfold SimCfg.mbs; rw [hp]
    omega
  have hA := tInit_agr hw (by omega) (by omega) i1 j1
  have hA' := tSteps_agr hm hA _ i2 j2
  have hT : ∀ k c t, -1 ≤ t → te'.sig k c t = te.sig k c t := fun k c t ht => hA'.sig k c t (by omega)
  have hpf : ∀ q ∈ ps', (cfg.resized B' C').procAfter lp e0' q.2.toNat = cfg.procAfter lp e0 q.2.toNat := by
    intro q hq
    rw [hps] at hq
    have hlt := (List.mem_filter.1 hq).2
    have hpos := hinc.ends q (List.mem_filter.1 hq).1
    simp only [decide_eq_true_eq] at hlt
    obtain ⟨m, hm'⟩ := Nat.exists_eq_add_of_le (show q.2.toNat + 1 ≤ cfg.tot + cfg.mbs by omega)
    obtain ⟨u, hu1⟩ := tSteps_prefix cfg lp (n := q.2.toNat + 1) m (by rw [← hm']; exact i2)
    obtain ⟨u', hu2⟩ := tSteps_prefix (cfg.resized B' C') lp (n := q.2.toNat + 1) m (by rw [← hm']; exact j2)
    have := tSteps_agr hm hA _ hu1 hu2
    unfold SimCfg.procAfter
    rw [hu1, hu2]
    dsimp only
    rw [this.proc]
    rfl
  have h0 : ∀ q ∈ ps', 0 ≤ q.1 := by
    intro q hq
    rw [hps] at hq
    have h1 := (List.mem_filter.1 hq).1
    have := hinc.ends q h1
    have := hu q h1
    omega
  have hcongr : ∀ qs, qs <+: ps' →
      savePieces (diagOps R P V) cfg.dims te'.sig ((cfg.resized B' C').procAfter lp e0') qs d.data =
        savePieces (diagOps R P V) cfg.dims te.sig (cfg.procAfter lp e0) qs d.data := fun qs hqs =>
    savePieces_agree _ _ hT _ _ (fun q hq => h0 q (hqs.subset hq)) fun q hq => hpf q (hqs.subset hq)
  refine ⟨⟨d1, hd1, hn1, d2, hd2, hn2, ?_⟩, ?_⟩
  · have := hcongr _ List.prefix_rfl
    rw [hsave] at this
    exact Except.ok.inj (hsave'.symm.trans this)
  · intro hplot hpw hx1
    have hsorted : (ps'.map Prod.snd).Pairwise (· < ·) := by
      rw [hps]
      exact hinc.ends_sorted.sublist (List.filter_sublist.map _)
    have h0' : ∀ q ∈ ps', 0 < q.2 := by
      intro q hq
      rw [hps] at hq
      exact hinc.ends q (List.mem_filter.1 hq).1
    have hserved : ∀ {xs ys : List Int}, d.exportAt.left = xs ++ ys →
        (∀ x ∈ xs, ∃ qs, qs <+: ps' ∧ x ≤ lastEnd 0 qs) → (∀ y ∈ ys, lastEnd 0 ps' < y) →
        xs = d.exportAt.left.filter fun x => decide (x ≤ lastEnd 0 ps') := by
      intro xs ys hl hx hy
      refine served_eq hl ?_ hy
      intro x hxm
      obtain ⟨qs, hqs, hle⟩ := hx x hxm
      exact hle.trans (lastEnd_prefix hsorted h0' List.prefix_rfl hqs)
    have e1 := hserved hleft (by
      intro x hx
      rw [← htimes] at hx
      obtain ⟨ev, hev, rfl⟩ := List.mem_map.1 hx
      obtain ⟨qs, hqs, _, _, _, hle, _⟩ := hout ev hev
      exact ⟨qs, hqs, hle⟩) (hnext hplot hpw)
    have e2 := hserved hleft' (by
      intro x hx
      rw [← htimes'] at hx
      obtain ⟨ev, hev, rfl⟩ := List.mem_map.1 hx
      obtain ⟨qs, hqs, _, _, _, hle, _⟩ := hout' ev hev
      exact ⟨qs, hqs, hle⟩) (hnext' hplot hpw)
    refine events_eq (by rw [htimes, htimes', e1, e2]) ?_
    intro ev hev ev' hev' ht
    obtain ⟨qs, hqs, dd, hs1, ho1, hle1, hlt1⟩ := hout ev hev
    obtain ⟨rs, hrs, dd', hs2, ho2, hle2, hlt2⟩ := hout' ev' hev'
    have hpos : 1 ≤ ev.time := by
      refine hx1 _ ?_
      rw [hleft]
      refine List.mem_append_left _ ?_
      rw [← htimes]
      exact List.mem_map_of_mem hev
    have hlt1 := (hlt1 hplot hpw).resolve_left (by omega)
    have hlt2 := (hlt2 hplot hpw).resolve_left (by omega)
    rw [← ht] at hle2 hlt2 ho2
    have hqr : qs = rs := by
      rcases List.prefix_or_prefix_of_prefix hqs hrs with hq | hq
      · exact Classical.byContradiction fun hne =>
          prefix_determined hsorted h0' hqs hrs hle1 hlt2 ⟨hq, hne⟩
      · exact Classical.byContradiction fun hne =>
          prefix_determined hsorted h0' hrs hqs hle2 hlt1 ⟨hq, fun he => hne he.symm⟩
    subst hqr
    have e3 := hcongr _ hqs
    rw [hs1] at e3
    have e4 : dd' = dd := Except.ok.inj (hs2.symm.trans e3)
    rw [e4, ho1] at ho2
    exact (Except.ok.inj ho2).symm

/-- C02 for `RecordState`. -/
theorem C02_states (h : CompletedRun cfg lp srcs arr proc f0 ds0 st0 fin)
    (h' : CompletedRun (cfg.resized B' C') lp srcs arr proc f0 ds0' st0' fin')
    (hw : cfg.warm = false ∨ B' = cfg.B) (hp : cfg.proc.isSome)
    {info : DiagInfo} {name : String} {get : P → Except PyErr (List R)} {dim : Nat} {ex : Option IdxSel}
    {f : Nat} {junk : Int} {d : Diag (DData R P V)}
    (hd : mkRecordState info name get dim ex (some (.every f)) junk = .ok d)
    (hmem : d ∈ ds0) (hmem' : d ∈ ds0') :
    (∃ d1 ∈ fin.diags, d1.name = name ∧ ∃ d2 ∈ fin'.diags, d2.name = name ∧ d2.data = d1.data) ∧
    (cfg.plotNone = false → d.exportAt.left.Pairwise (· < ·) → (∀ x ∈ d.exportAt.left, 1 ≤ x) →
      (evOf name fin'.log).map (fun ev => (ev.time, ev.out)) =
        (evOf name fin.log).map (fun ev => (ev.time, ev.out))) := by
  obtain ⟨hf, h1, h2, _, _⟩ := mkRecordState_ok hd
  rw [← h1]
  exact C02_points h h' hw hp hmem hmem' h2 (freqIvs_increasing f _ 1 hf (by omega)) (freqIvs_unit f _ 1)

/-- C02 for `RecordFilter`. -/
theorem C02_instants (h : CompletedRun cfg lp srcs arr proc f0 ds0 st0 fin)
    (h' : CompletedRun (cfg.resized B' C') lp srcs arr proc f0 ds0' st0' fin')
    (hw : cfg.warm = false ∨ B' = cfg.B) (hp : cfg.proc.isSome) (hplot : cfg.plotNone = false)
    {info : DiagInfo} {name : String} {get : P → Except PyErr V} {l : List Int}
    {d : Diag (DData R P V)} (hd : mkRecordFilter info name get (some (.list l)) = .ok d)
    (hmem : d ∈ ds0) (hmem' : d ∈ ds0') (hl : l.Pairwise (· < ·)) (hpos : ∀ x ∈ l, 1 ≤ x) :
    (evOf name fin'.log).map (fun ev => (ev.time, ev.out)) =
      (evOf name fin.log).map (fun ev => (ev.time, ev.out)) := by
  obtain ⟨x, l', rfl⟩ : ∃ x l', l = x :: l' := by
    cases l with
    | nil => cases hd
    | cons x l' => exact ⟨x, l', rfl⟩
  cases hd
  have hinc : ∀ (l : List Int) (lo : Int), l.Pairwise (· < ·) → (∀ x ∈ l, lo + 1 ≤ x) →
      Increasing lo (l.map fun i => (i - 1, i)) := by
    intro l
    induction l with
    | nil => intro _ _ _; trivial
    | cons x l ih =>
      intro lo hl hlo
      rw [List.pairwise_cons] at hl
      refine ⟨?_, ?_, ih x hl.2 fun y hy => by have := hl.1 y hy; omega⟩
      · have := hlo x (by simp)
        simp only; omega
      · simp only; omega
  have hex : (IxCounter.init (x :: l')).left = x :: l' := IxCounter.left_init (x :: l')
  exact (C02_points h h' hw hp hmem hmem' (ivs := (x :: l').map fun i => (i - 1, i)) rfl
    (hinc _ 0 hl (by simpa using hpos)) (by intro q hq; obtain ⟨i, _, rfl⟩ := List.mem_map.1 hq; simp)).2
    hplot (by rw [hex]; exact hl) (by rw [hex]; exact hpos)

/-- C02 for `SignalPower`: the same powers, whatever the save intervals. -/
theorem C02_powers (h : CompletedRun cfg lp srcs arr proc f0 ds0 st0 fin)
    (h' : CompletedRun (cfg.resized B' C') lp srcs arr proc f0 ds0' st0' fin')
    (hw : cfg.warm = false ∨ B' = cfg.B)
    {info : DiagInfo} {name sig : String} {ex : Option IdxSel} {sv : Option (List (Int × Int))}
    {num : Nat} {chan : Option (List Int)} {rows : List Nat} {d : Diag (DData R P V)}
    (hd : mkSignalPower info name sig ex sv chan = .ok d) (hmem : d ∈ ds0) (hmem' : d ∈ ds0')
    (htot : info.tot = cfg.tot)
    (hinc : Increasing 0 (savedIvs cfg.tot sv)) (hend : ∀ q ∈ savedIvs cfg.tot sv, q.2 ≤ cfg.tot)
    (hsig : cfg.dims sig = some num) (hrows : chanRows num chan = some rows) (hne : rows ≠ []) :
    (∃ d1 ∈ fin.diags, d1.name = name ∧ ∃ d2 ∈ fin'.diags, d2.name = name ∧ d2.data = d1.data) ∧
    (cfg.plotNone = false → ∀ l : List Int, d.exportAt = IxCounter.init l → l.Pairwise (· < ·) →
      (∀ x ∈ l, 0 ≤ x) →
      (evOf name fin'.log).map (fun ev => (ev.time, ev.out)) =
        (evOf name fin.log).map (fun ev => (ev.time, ev.out))) := by
  have hP := completed_signals h h' hw
  have huniq : ∀ t < cfg.tot, ∀ x y, cfg.PowerAt st0 sig rows t x →
      (cfg.resized B' C').PowerAt st0' sig rows t y → y = x := by
    rintro t ht x y ⟨vs, hv, rfl⟩ ⟨ws, hws, rfl⟩
    rw [forall₂_unique hv hws fun c v w _ hv hw => hv.unique ((hP t (by omega) _ _ _).1 hw)]
  constructor
  · obtain ⟨d1, g1, g2, p1, g3, g4, g5⟩ := C23_signal_power h hd hmem htot rfl hinc hend hsig hrows hne
    obtain ⟨d2, k1, k2, p2, k3, k4, k5⟩ := C23_signal_power h' hd hmem' htot rfl hinc hend hsig hrows hne
    refine ⟨d1, g1, g2, d2, k1, k2, ?_⟩
    rw [g3, k3]
    congr 1
    refine List.ext_getElem? fun t => ?_
    by_cases ht : t < cfg.tot
    · by_cases hc : Covered (savedIvs cfg.tot sv) t
      · obtain ⟨x, a1, a2⟩ := (g5 t ht).1 hc
        obtain ⟨y, b1, b2⟩ := (k5 t ht).1 hc
        rw [a2, b2, huniq t ht x y a1 b1]
      · rw [(g5 t ht).2 hc, (k5 t ht).2 hc]
    · have k4' : p2.length = cfg.tot := k4
      rw [List.getElem?_eq_none (by omega), List.getElem?_eq_none (by omega)]
  · intro hplot l hex hl hl0
    obtain ⟨n1, n2, _, _⟩ := mkSignalPower_ok hd
    have t1 := C05_intervals h hplot hmem (savedIvs_counter n2 htot) hinc hend hex hl
    have t2 := C05_intervals h' hplot hmem' (savedIvs_counter n2 htot) hinc hend hex hl
    rw [n1] at t1 t2
    refine events_eq (t2.trans t1.symm) ?_
    intro ev hev ev' hev' ht
    have h0 : 0 ≤ ev.time := by
      have : ev.time ∈ (evOf name fin.log).map Event.time := List.mem_map_of_mem hev
      rw [t1] at this
      exact hl0 _ (List.mem_filter.1 this).1
    obtain ⟨r1, a1, a2⟩ := C23_power_export h hd hmem htot rfl hinc hend hsig hrows hne hev h0
    obtain ⟨r2, b1, b2⟩ := C23_power_export h' hd hmem' htot rfl hinc hend hsig hrows hne hev' (by omega)
    have hlt : ∀ t : Nat, Covered (savedIvs cfg.tot sv) t → t < cfg.tot := by
      rintro t ⟨q, hq, _, hlt⟩
      have := hend q hq
      omega
    rw [a1, b1, ← ht]
    rw [← ht] at b2
    rw [forall₂_unique a2 b2 fun t x y hx hv hw => (huniq t (hlt t (by simpa using (List.mem_filter.1 hx).2)) x y hv hw).symm]
    rfl

/-- C02 for `SoundfieldPower`: the same export. -/
theorem C02_soundfield (h : CompletedRun cfg lp srcs arr proc f0 ds0 st0 fin)
    (h' : CompletedRun (cfg.resized B' C') lp srcs arr proc f0 ds0' st0' fin')
    (hw : cfg.warm = false ∨ B' = cfg.B) (hplot : cfg.plotNone = false)
    {name sig : String} {num : Nat} {a b : Int} {d : Diag (DData R P V)}
    (hd : mkSoundfieldPower name sig num (a, b) = .ok d) (hmem : d ∈ ds0) (hmem' : d ∈ ds0')
    (ha : 0 ≤ a) (hb : b ≤ cfg.tot) (hsig : cfg.dims sig = some num) :
    (evOf name fin'.log).map (fun ev => (ev.time, ev.out)) =
      (evOf name fin.log).map (fun ev => (ev.time, ev.out)) := by
  have hP := completed_signals h h' hw
  obtain ⟨p1, g1, g2, _, g4, g5⟩ := C23_soundfield_power h hd hmem ha hb hsig
  obtain ⟨p2, k1, k2, _, k4, k5⟩ := C23_soundfield_power h' hd hmem' ha hb hsig
  have hpp : p2 = p1 := by
    refine List.ext_getElem? fun c => ?_
    by_cases hc : c < num
    · obtain ⟨v, a1, a2⟩ := g2 c hc
      obtain ⟨w, b1, b2⟩ := k2 c hc
      rw [a2, b2, forall₂_unique a1 b1 fun t x y hx hv hw =>
        hv.unique ((hP _ (by have := List.mem_range.1 hx; omega) _ _ _).1 hw)]
    · rw [List.getElem?_eq_none (by omega), List.getElem?_eq_none (by omega)]
  obtain ⟨e1, he1⟩ := List.length_eq_one_iff.1 (g5 hplot)
  obtain ⟨e2, he2⟩ := List.length_eq_one_iff.1 (k5 hplot)
  have q1 := g4 e1 (by rw [he1]; simp)
  have q2 := k4 e2 (by rw [he2]; simp)
  rw [he1, he2]
  simp only [List.map_cons, List.map_nil, q1.1, q1.2, q2.1, q2.2, hpp]

end

/-- The demonstration run with state diagnostics, a buffer of 7 and a chunk of 3
samples. -/
theorem resizedSt_completed : ∃ st0 fin, CompletedRun ((demoCfg 4 2 6).resized 7 3) ((debugProc 6 2).view 2)
    (fun _ => 0) () demoProc demoFilt demoStDs st0 fin := by
  have h0 : ∃ st0, ((demoCfg 4 2 6).resized 7 3).init (fun _ => 0) () demoProc demoFilt demoStDs = .ok st0 :=
    ⟨_, by rfl⟩
  have h1 : (((demoCfg 4 2 6).resized 7 3).run (fun _ => 0) () demoProc demoFilt demoStDs).map
      (fun fin => fin.log.length) = .ok 10 := by decide +kernel
  cases h2 : ((demoCfg 4 2 6).resized 7 3).run (fun _ => 0) () demoProc demoFilt demoStDs with
  | error x => rw [h2] at h1; cases h1
  | ok fin =>
    obtain ⟨st0, h0⟩ := h0
    refine ⟨st0, fin, ⟨⟨by decide, by decide, by decide, ?_, debug_valid _ 6 2⟩, rfl, by decide, h0, h2⟩⟩
    intro p hp
    cases hp
    exact ⟨Or.inl (by decide), by decide⟩

example : ∃ fin fin' : DemoSt,
    (demoCfg 4 2 6).run (fun _ => 0) () demoProc demoFilt demoStDs = .ok fin ∧
    ((demoCfg 4 2 6).resized 7 3).run (fun _ => 0) () demoProc demoFilt demoStDs = .ok fin' ∧
    (evOf "st4" fin'.log).map (fun ev => (ev.time, ev.out)) =
      (evOf "st4" fin.log).map (fun ev => (ev.time, ev.out)) ∧
    (evOf "fil" fin'.log).map (fun ev => (ev.time, ev.out)) =
      (evOf "fil" fin.log).map (fun ev => (ev.time, ev.out)) := by
  obtain ⟨st0, fin, h, _⟩ := demoSt_completed
  obtain ⟨st0', fin', h'⟩ := resizedSt_completed
  refine ⟨fin, fin', h.run, h'.run, ?_, ?_⟩
  · exact (C02_states h h' (Or.inl rfl) rfl demoSt4_ok (by simp [demoStDs]) (by simp [demoStDs])).2 rfl
      (by decide) (by decide)
  · exact C02_instants h h' (Or.inl rfl) rfl rfl demoFil_ok (by simp [demoStDs]) (by simp [demoStDs])
      (by decide) (by decide)

/-- The power diagnostics with chunks of 2 and of 8 samples; "power" saves from 1
to 5 and is to be exported at 3 and 6. -/
example : ∃ fin fin' : DemoSt,
    (demoCfg 4 2 6).run (fun _ => 0) () demoProc demoFilt powDs = .ok fin ∧
    (demoCfg 4 8 6).run (fun _ => 0) () demoProc demoFilt powDs = .ok fin' ∧
    (evOf "power" fin'.log).map (fun ev => (ev.time, ev.out)) =
      (evOf "power" fin.log).map (fun ev => (ev.time, ev.out)) ∧
    (evOf "power" fin.log).map Event.time = [3] ∧
    (evOf "sf" fin'.log).map (fun ev => (ev.time, ev.out)) =
      (evOf "sf" fin.log).map (fun ev => (ev.time, ev.out)) := by
  obtain ⟨st0, fin, h, _⟩ := pow_two
  obtain ⟨st0', fin', h', _⟩ := pow_eight
  have h'' : CompletedRun ((demoCfg 4 2 6).resized 4 8) ((debugProc 6 2).view 2)
    (fun _ => 0) () demoProc demoFilt powDs st0' fin' := h'
  refine ⟨fin, fin', h.run, h'.run, ?_, ?_, ?_⟩
  · exact (C02_powers h h'' (Or.inl rfl) powSig_ok (by simp [powDs]) (by simp [powDs]) rfl
      (by simp [savedIvs, Increasing]) (by decide) (rows := [0]) (by rfl) (by rfl) (by decide)).2 rfl
      [3, 6] rfl (by decide) (by decide)
  · exact C05_intervals h rfl (d := okD powSig) (by simp [powDs]) (ivs := [(1, 5)]) rfl
      (by simp [Increasing]) (by decide) (l := [3, 6]) rfl (by decide)
  · exact C02_soundfield h h'' (Or.inl rfl) rfl powSf_ok (by simp [powDs]) (by simp [powDs]) (by decide)
      (by decide) (by rfl)

end Verif

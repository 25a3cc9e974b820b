/-
C120: a longer simulation starts like a shorter one.
-/
import Verif.Props.Sizes
namespace Verif

/-- The same simulation with another number of samples. -/
def SimCfg.lasting {R IR F S A P D O : Type} (cfg : SimCfg R IR F S A P D O) (tot' : Nat) :
    SimCfg R IR F S A P D O := { cfg with tot := tot' }

section
variable {R IR F S A P V : Type} [Field R] [DecidableEq R]
  {cfg : SimCfg R IR F S A P (DData R P V) (DOut R V)} {lp : ProcView R P}
  {srcs : String → S} {arr : A} {proc : P} {f0 : F} {ds0 ds0' : List (Diag (DData R P V))}
  {st0 st0' st st' fin fin' : SimSt R F S A P (DData R P V) (DOut R V)} {k tot' : Nat}

/-- **C120** Two simulations that differ in the number of samples only: after every number of
iterations they have produced the same samples of every signal and left the processor in
the same state.  They may have different diagnostics. -/
theorem C120_signals (h : Started cfg lp srcs arr proc f0 ds0 st0)
    (h' : Started (cfg.lasting tot') lp srcs arr proc f0 ds0' st0')
    (hk : cfg.steps k st0 = .ok st) (hk' : (cfg.lasting tot').steps k st0' = .ok st') :
    (∀ t ≤ k, ∀ name c v, (cfg.lasting tot').Produced st0' name c t v ↔ cfg.Produced st0 name c t v) ∧
      st'.eng.proc = st.eng.proc := by
  obtain ⟨e0, te, i1, _, i3, i4, i5⟩ := h.tape hk
  obtain ⟨e0', te', j1, _, j3, j4, j5⟩ := h'.tape hk'
  have hi : (cfg.lasting tot').tInit srcs arr proc f0 = cfg.tInit srcs arr proc f0 := rfl
  rw [hi, i1] at j1
  cases j1
  have hs : ∀ (k : Nat) e, (cfg.lasting tot').tSteps lp k e = cfg.tSteps lp k e := by
    intro k e
    induction k with
    | zero => rfl
    | succ k ih =>
      unfold SimCfg.tSteps
      rw [ih]
      rfl
  rw [hs, i3] at j3
  cases j3
  refine ⟨?_, by rw [i4, j4]⟩
  intro t ht name c v
  rw [i5 t ht, j5 t ht]
  rfl

theorem longer_signals (h : CompletedRun cfg lp srcs arr proc f0 ds0 st0 fin)
    (h' : CompletedRun (cfg.lasting tot') lp srcs arr proc f0 ds0' st0' fin') (hle : cfg.tot ≤ tot') :
    ∀ t ≤ cfg.tot, ∀ name c v, (cfg.lasting tot').Produced st0' name c t v ↔ cfg.Produced st0 name c t v := by
  obtain ⟨s, hs⟩ := h.steps
  obtain ⟨s', hs'⟩ := h'.steps
  have hsp : ∀ (n : Nat) {a b : Nat} {x y}, a + n = b → (cfg.lasting tot').steps b x = .ok y → ∃ z, (cfg.lasting tot').steps a x = .ok z := by
    intro n
    induction n with
    | zero => intro a b x y hab hb; cases hab; exact ⟨y, hb⟩
    | succ n ih =>
      intro a b x y hab hb
      subst hab
      rw [show a + (n + 1) = (a + n) + 1 by omega] at hb
      unfold SimCfg.steps at hb
      split at hb
      · cases hb
      · rename_i z hz
        exact ih rfl hz
  obtain ⟨z, hz⟩ := hsp (tot' - cfg.tot) (a := cfg.tot) (b := tot') (by omega) hs'
  exact (C120_signals h.started h'.started hs hz).1

/-- **C120** for recordings: a `RecordSignal` diagnostic with the same arguments, over the whole run or
with save intervals within the shorter one, holds in the longer simulation what it holds in
the shorter one, followed by further samples. -/
theorem C120_recordings (h : CompletedRun cfg lp srcs arr proc f0 ds0 st0 fin)
    (h' : CompletedRun (cfg.lasting tot') lp srcs arr proc f0 ds0' st0' fin') (hle : cfg.tot ≤ tot')
    {info info' : DiagInfo} {name sig : String} {ex ex' : Option IdxSel} {sv : Option (List (Int × Int))}
    {numCh num : Nat} {chan : Option (List Int)} {rows : List Nat} {d d' : Diag (DData R P V)}
    (hd : mkRecordSignal info name sig ex sv numCh chan = .ok d) (hmem : d ∈ ds0) (htot : info.tot = cfg.tot)
    (hd' : mkRecordSignal info' name sig ex' sv numCh chan = .ok d') (hmem' : d' ∈ ds0') (htot' : info'.tot = tot')
    (hinc : Increasing 0 (savedIvs cfg.tot sv)) (hend : ∀ q ∈ savedIvs cfg.tot sv, q.2 ≤ cfg.tot)
    (hsig : cfg.dims sig = some num) (hrows : chanRows num chan = some rows)
    (hlen : rows.length = numCh) :
    ∃ d1 ∈ fin.diags, d1.name = name ∧ ∃ d2 ∈ fin'.diags, d2.name = name ∧ ∃ s1 s2 : Mat (Option R),
      d1.data = .recSignal sig chan s1 ∧ d2.data = .recSignal sig chan s2 ∧ s1.length = numCh ∧ s2.length = numCh ∧
      (∀ r ∈ s1, r.length = cfg.tot) ∧ (∀ r ∈ s2, r.length = tot') ∧ s1 = s2.map (List.take cfg.tot) := by
  have hP := longer_signals h h' hle
  obtain ⟨h1, h2, h3, h4, h5⟩ := mkRecordSignal_ok hd
  obtain ⟨h1', h2', h3', h4', h5'⟩ := mkRecordSignal_ok hd'
  have hsv : d.saveAt = IvCounter.init (savedIvs cfg.tot sv) := by
    cases sv with
    | none => unfold signalSaveAt at h2; rw [htot] at h2; exact (Except.ok.inj h2).symm
    | some l => exact signalSaveAt_some h2
  have hsv' : d'.saveAt = IvCounter.init (savedIvs tot' sv) := by
    cases sv with
    | none => unfold signalSaveAt at h2'; rw [htot'] at h2'; exact (Except.ok.inj h2').symm
    | some l => exact signalSaveAt_some h2'
  have hinc' : Increasing 0 (savedIvs tot' sv) := by
    cases sv with
    | none =>
      obtain ⟨a, b, c⟩ := hinc
      exact ⟨a, by omega, c⟩
    | some l => exact hinc
  have hend' : ∀ q ∈ savedIvs tot' sv, q.2 ≤ (tot' : Int) := by
    cases sv with
    | none => simp [savedIvs]
    | some l => exact fun q hq => (hend q hq).trans (by omega)
  have hcov : ∀ t < cfg.tot, (Covered (savedIvs tot' sv) t ↔ Covered (savedIvs cfg.tot sv) t) := by
    intro t ht
    cases sv with
    | none => simp [Covered, savedIvs, ht]; omega
    | some l => rfl
  obtain ⟨_, _, hR⟩ := h.diagRun
  obtain ⟨_, _, hR'⟩ := h'.diagRun
  obtain ⟨d1, g1, g2, s1, g3, g4, g5⟩ := hR.recorded hmem hsv hinc hend (by rw [h4, htot]) hsig hrows hlen trivial
  obtain ⟨d2, k1, k2, s2, k3, k4, k5⟩ := hR'.recorded hmem' hsv' hinc' hend' (by rw [h4', htot']; rfl) hsig hrows hlen trivial
  have hrow : ∀ {s : Mat (Option R)} {n : Nat}, s.length = numCh →
      (∀ (j c : Nat), rows[j]? = some c → ∃ row, s[j]? = some row ∧ row.length = n) → ∀ r ∈ s, r.length = n := by
    intro s n hs hj r hr
    obtain ⟨j, hj1, rfl⟩ := List.getElem_of_mem hr
    obtain ⟨row, e1, e2⟩ := hj j (rows[j]'(by omega)) (List.getElem?_eq_getElem _)
    rw [List.getElem?_eq_getElem hj1] at e1
    rw [Option.some.inj e1]
    exact e2
  refine ⟨d1, g1, g2.trans h1, d2, k1, k2.trans h1', s1, s2, g3, k3, g4, k4,
    hrow g4 fun j c hj => let ⟨r, a, b, _⟩ := g5 j c hj; ⟨r, a, b⟩,
    hrow k4 fun j c hj => let ⟨r, a, b, _⟩ := k5 j c hj; ⟨r, a, b⟩, ?_⟩
  refine List.ext_getElem? fun j => ?_
  rw [List.getElem?_map]
  by_cases hj : j < numCh
  · obtain ⟨c, hc⟩ : ∃ c, rows[j]? = some c := ⟨rows[j]'(by omega), List.getElem?_eq_getElem _⟩
    obtain ⟨r1, a1, a2, a3⟩ := g5 j c hc
    obtain ⟨r2, b1, b2, b3⟩ := k5 j c hc
    have b2' : r2.length = tot' := b2
    rw [a1, b1, Option.map_some]
    congr 1
    refine List.ext_getElem? fun t => ?_
    by_cases ht : t < cfg.tot
    · have ht' : t < (cfg.lasting tot').tot := by show t < tot'; omega
      rw [List.getElem?_take, if_pos ht]
      by_cases hc : Covered (savedIvs cfg.tot sv) t
      · obtain ⟨v, p1, p2⟩ := (a3 t ht).1 hc
        obtain ⟨v', q1, q2⟩ := (b3 t ht').1 ((hcov t ht).2 hc)
        rw [p2, q2, p1.unique ((hP t (by omega) sig c v').1 q1)]
      · rw [(a3 t ht).2 hc, (b3 t ht').2 (fun hn => hc ((hcov t ht).1 hn))]
    · rw [List.getElem?_eq_none (by omega), List.getElem?_eq_none (by rw [List.length_take]; omega)]
  · rw [List.getElem?_eq_none (by omega), List.getElem?_eq_none (l := s2) (by omega)]
    rfl

/-- **C120** for exports: the exports of the shorter simulation are those of the longer one with index
at most the number of samples of the shorter one. -/
theorem C120_exports (h : CompletedRun cfg lp srcs arr proc f0 ds0 st0 fin)
    (h' : CompletedRun (cfg.lasting tot') lp srcs arr proc f0 ds0' st0' fin') (hle : cfg.tot ≤ tot')
    (hplot : cfg.plotNone = false)
    {info info' : DiagInfo} {name sig : String} {l : List Int}
    {numCh num : Nat} {chan : Option (List Int)} {rows : List Nat} {d d' : Diag (DData R P V)}
    (hd : mkRecordSignal info name sig (some (.list l)) none numCh chan = .ok d) (hmem : d ∈ ds0) (htot : info.tot = cfg.tot)
    (hd' : mkRecordSignal info' name sig (some (.list l)) none numCh chan = .ok d') (hmem' : d' ∈ ds0') (htot' : info'.tot = tot')
    (hpos : 0 < cfg.tot) (hl : l.Pairwise (· < ·)) (hl0 : ∀ x ∈ l, 0 ≤ x)
    (hsig : cfg.dims sig = some num) (hrows : chanRows num chan = some rows)
    (hlen : rows.length = numCh) (hnum : 0 < numCh) :
    (evOf name fin.log).map (fun ev => (ev.time, ev.out)) =
      ((evOf name fin'.log).filter fun ev => ev.time ≤ (cfg.tot : Int)).map fun ev => (ev.time, ev.out) := by
  have hP := longer_signals h h' hle
  have hpos' : 0 < (cfg.lasting tot').tot := by show 0 < tot'; omega
  have t1 := C05_exports_happen h hplot hd hmem htot hpos hl
  have t2 := C05_exports_happen h' hplot hd' hmem' htot' hpos' hl
  have hone : ∀ n : Nat, 0 < n → Increasing 0 (savedIvs n none) := fun n hn => ⟨le_refl _, by simpa using hn, trivial⟩
  have htwo : ∀ n : Nat, ∀ q ∈ savedIvs n none, q.2 ≤ (n : Int) := by simp [savedIvs]
  have hev : ∀ ev ∈ evOf name fin.log, ∀ ev' ∈ (evOf name fin'.log).filter fun ev => ev.time ≤ (cfg.tot : Int),
      ev.time = ev'.time → ev'.out = ev.out := by
    intro ev hv ev' hv' he
    rw [List.mem_filter] at hv'
    have hle' : ev'.time ≤ (cfg.tot : Int) := by simpa using hv'.2
    have hv' := hv'.1
    have h0 : 0 ≤ ev.time := by
      have : ev.time ∈ (evOf name fin.log).map Event.time := List.mem_map_of_mem hv
      rw [t1] at this
      exact hl0 _ (List.mem_filter.1 this).1
    obtain ⟨a0, sg, a1, a2, a3⟩ := C04_export_content h hd hmem htot rfl (hone _ hpos) (htwo _) hsig hrows hlen hnum hv h0
    obtain ⟨b0, sg', b1, b2, b3⟩ := C04_export_content h' hd' hmem' htot' rfl (hone _ hpos') (htwo _) hsig hrows hlen hnum hv'
      (by rw [← he]; exact h0)
    have hf : ∀ n : Nat, 0 < n → cfg.tot ≤ n → (List.range ev.time.toNat).filter (Covered (savedIvs n none) ·) = List.range ev.time.toNat := by
      intro n _ hn
      rw [List.filter_eq_self]
      intro t ht
      have := List.mem_range.1 ht
      rw [decide_eq_true_eq]
      exact ⟨(0, (n : Int)), by simp [savedIvs], by simp, by simp; omega⟩
    rw [← he] at b1 b3
    rw [hf _ hpos (le_refl _)] at a1 a3
    rw [hf _ hpos' hle] at b1 b3
    rw [a1, b1]
    congr 1
    refine List.ext_getElem? fun j => ?_
    by_cases hj : j < numCh
    · obtain ⟨c, hc⟩ : ∃ c, rows[j]? = some c := ⟨rows[j]'(by omega), List.getElem?_eq_getElem _⟩
      obtain ⟨r1, c1, c2⟩ := a3 j c hc
      obtain ⟨r2, d1, d2⟩ := b3 j c hc
      rw [c1, d1]
      congr 1
      exact forall₂_unique c2 d2 fun x v w hx hv hw =>
        hv.unique ((hP _ (by have := List.mem_range.1 hx; omega) _ _ _).1 hw)
    · rw [List.getElem?_eq_none (by omega), List.getElem?_eq_none (by omega)]
  have htimes : ((evOf name fin'.log).filter fun ev => ev.time ≤ (cfg.tot : Int)).map Event.time =
      (evOf name fin.log).map Event.time := by
    have : ((evOf name fin'.log).filter fun ev => ev.time ≤ (cfg.tot : Int)).map Event.time =
        ((evOf name fin'.log).map Event.time).filter (· ≤ (cfg.tot : Int)) := by
      rw [List.filter_map]; rfl
    rw [this, t1, t2, List.filter_filter]
    refine List.filter_congr fun x _ => ?_
    by_cases hx : x ≤ (cfg.tot : Int)
    · have : x ≤ ((cfg.lasting tot').tot : Int) := hx.trans (by show (cfg.tot : Int) ≤ (tot' : Int); omega)
      simp [hx, this]
    · simp [hx]
  revert hev htimes
  generalize evOf name fin.log = es
  generalize ((evOf name fin'.log).filter fun ev => ev.time ≤ (cfg.tot : Int)) = es'
  clear t1 t2
  induction es generalizing es' with
  | nil =>
    intro _ ht
    have : es' = [] := by simpa using ht
    subst this
    rfl
  | cons a es ih =>
    intro hev ht
    cases es' with
    | nil => cases ht
    | cons b es' =>
      rw [List.map_cons, List.map_cons, List.cons.injEq] at ht
      rw [List.map_cons, List.map_cons, ih es' (fun x hx y hy => hev x (by simp [hx]) y (by simp [hy])) ht.2,
        ht.1, hev a (by simp) b (by simp) ht.1.symm]

end

/-! ### A case that meets the hypotheses -/

def longRec : Except PyErr (Diag DemoD) := mkRecordSignal ⟨10, 3, 1⟩ "rec" "mic" none none 1 none
def longLst : Except PyErr (Diag DemoD) :=
  mkRecordSignal ⟨10, 3, 1⟩ "lst" "loudspeaker" (some (.list [2, 5, 9])) none 1 none
def longDs : List (Diag DemoD) := [okD longRec, okD longLst]

theorem longRec_ok : mkRecordSignal ⟨10, 3, 1⟩ "rec" "mic" none none 1 none = .ok (okD longRec) := rfl
theorem longLst_ok : mkRecordSignal ⟨10, 3, 1⟩ "lst" "loudspeaker" (some (.list [2, 5, 9])) none 1 none =
    .ok (okD longLst) := rfl

/-- The demonstration run with 10 instead of 6 samples. -/
theorem longer_completed : ∃ st0 fin, CompletedRun ((demoCfg 4 2 6).lasting 10) ((debugProc 6 2).view 2)
    (fun _ => 0) () demoProc demoFilt longDs st0 fin ∧
    fin.log.map (fun ev => (ev.diag, ev.time)) = [("lst", 2), ("rec", 3), ("rec", 6), ("lst", 5), ("rec", 9), ("lst", 9)] := by
  have h0 : ∃ st0, ((demoCfg 4 2 6).lasting 10).init (fun _ => 0) () demoProc demoFilt longDs = .ok st0 :=
    ⟨_, by rfl⟩
  have h1 : (((demoCfg 4 2 6).lasting 10).run (fun _ => 0) () demoProc demoFilt longDs).map
      (fun fin => fin.log.map fun ev => (ev.diag, ev.time)) =
      .ok [("lst", 2), ("rec", 3), ("rec", 6), ("lst", 5), ("rec", 9), ("lst", 9)] := by rfl
  cases h2 : ((demoCfg 4 2 6).lasting 10).run (fun _ => 0) () demoProc demoFilt longDs with
  | error x => rw [h2] at h1; cases h1
  | ok fin =>
    rw [h2] at h1
    obtain ⟨st0, h0⟩ := h0
    refine ⟨st0, fin, ⟨⟨by decide, by decide, by decide, ?_, debug_valid _ 6 2⟩, rfl, by decide, h0, h2⟩, Except.ok.inj h1⟩
    intro p hp
    cases hp
    exact ⟨Or.inl (by decide), by decide⟩

example : ∃ st0 st0' fin fin' : DemoSt,
    (demoCfg 4 2 6).run (fun _ => 0) () demoProc demoFilt demoDs = .ok fin ∧
    ((demoCfg 4 2 6).lasting 10).run (fun _ => 0) () demoProc demoFilt longDs = .ok fin' ∧
    (∀ t ≤ 6, ∀ name c v, ((demoCfg 4 2 6).lasting 10).Produced st0' name c t v ↔
      (demoCfg 4 2 6).Produced st0 name c t v) ∧
    (∃ d1 ∈ fin.diags, d1.name = "rec" ∧ ∃ d2 ∈ fin'.diags, d2.name = "rec" ∧ ∃ s1 s2 : Mat (Option ℚ),
      d1.data = .recSignal "mic" none s1 ∧ d2.data = .recSignal "mic" none s2 ∧ s1 = s2.map (List.take 6)) ∧
    (evOf "lst" fin.log).map (fun ev => (ev.time, ev.out)) =
      ((evOf "lst" fin'.log).filter fun ev => ev.time ≤ (6 : Int)).map fun ev => (ev.time, ev.out) := by
  obtain ⟨st0, fin, h, _⟩ := demo_completed
  obtain ⟨st0', fin', h', _⟩ := longer_completed
  refine ⟨st0, st0', fin, fin', h.run, h'.run, longer_signals h h' (by decide), ?_, ?_⟩
  · obtain ⟨d1, a1, a2, d2, b1, b2, s1, s2, c1, c2, _, _, _, _, c3⟩ := C120_recordings h h' (by decide) demoRec_ok
      (by simp [demoDs]) rfl longRec_ok (by simp [longDs]) rfl (by simp [savedIvs, Increasing, demoCfg]) (by decide) (rows := [0])
      (by rfl) (by rfl) rfl
    exact ⟨d1, a1, a2, d2, b1, b2, s1, s2, c1, c2, c3⟩
  · exact C120_exports h h' (by decide) rfl demoLst_ok (by simp [demoDs]) rfl longLst_ok (by simp [longDs]) rfl (by decide)
      (by decide) (by decide) (rows := [0]) (by rfl) (by rfl) rfl (by decide)

end Verif

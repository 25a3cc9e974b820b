/-
C01, C03, C04, C05: what a `RecordSignal` diagnostic records and exports.
-/
import Verif.Lemmas.Recording
import Verif.Demo.Small
namespace Verif

section
variable {R IR F S A P V : Type} [Field R] [DecidableEq R]
  {cfg : SimCfg R IR F S A P (DData R P V) (DOut R V)} {lp : ProcView R P}
  {srcs : String → S} {arr : A} {proc : P} {f0 : F} {ds0 : List (Diag (DData R P V))}
  {st0 fin : SimSt R F S A P (DData R P V) (DOut R V)}

/-- C01. A `RecordSignal` diagnostic over the whole run (default `save_at`)
ends up with exactly the produced sample at every time index. -/
theorem C01_recording (h : CompletedRun cfg lp srcs arr proc f0 ds0 st0 fin)
    {info : DiagInfo} {name sig : String} {ex : Option IdxSel}
    {numCh num : Nat} {chan : Option (List Int)} {rows : List Nat} {d : Diag (DData R P V)}
    (hd : mkRecordSignal info name sig ex none numCh chan = .ok d) (hmem : d ∈ ds0)
    (htot : info.tot = cfg.tot) (hpos : 0 < cfg.tot)
    (hsig : cfg.dims sig = some num) (hrows : chanRows num chan = some rows)
    (hlen : rows.length = numCh) :
    ∃ d' ∈ fin.diags, d'.name = name ∧ ∃ signal : Mat (Option R),
      d'.data = .recSignal sig chan signal ∧
      signal.length = numCh ∧ ∀ (j c : Nat), rows[j]? = some c → ∃ row, signal[j]? = some row ∧
        row.length = cfg.tot ∧ ∀ t < cfg.tot, ∃ v, cfg.Produced st0 sig c t v ∧
          row[t]? = some (some v) := by
  obtain ⟨h1, h2, h3, h4, h5⟩ := mkRecordSignal_ok hd
  have hsv : d.saveAt = IvCounter.init [(0, (cfg.tot : Int))] := by
    unfold signalSaveAt at h2; rw [htot] at h2; exact (Except.ok.inj h2).symm
  obtain ⟨_, _, hR⟩ := h.diagRun
  obtain ⟨d', g1, g2, signal, g3, g4, g5⟩ := hR.recorded hmem hsv
    ⟨le_refl _, by simpa using hpos, trivial⟩ (by simp) (by rw [h4, htot]) hsig hrows hlen trivial
  refine ⟨d', g1, g2.trans h1, signal, g3, g4, ?_⟩
  intro j c hjc
  obtain ⟨row, k1, k2, k3⟩ := g5 j c hjc
  refine ⟨row, k1, k2, fun t ht => (k3 t ht).1 ⟨(0, (cfg.tot : Int)), by simp, ?_⟩⟩
  constructor <;> simp [ht]

example : ∃ st0 fin : DemoSt, ∃ d' ∈ fin.diags, d'.name = "rec" ∧ ∃ row,
    d'.data = .recSignal "mic" none [row] ∧ row.length = 6 ∧
    ∀ t < 6, ∃ v, (demoCfg 4 2 6).Produced st0 "mic" 0 t v ∧ row[t]? = some (some v) := by
  obtain ⟨st0, fin, h, _⟩ := demo_completed
  obtain ⟨d', h1, h2, signal, h3, h4, h5⟩ := C01_recording h  demoRec_ok
    (by simp [demoDs]) rfl (by decide) (rows := [0]) (by rfl) (by rfl) rfl
  obtain ⟨row, g1, g2, g3⟩ := h5 0 0 rfl
  refine ⟨st0, fin, d', h1, h2, row, ?_, g2, g3⟩
  match signal, h4, g1 with
  | [r], _, g1 => cases g1; exact h3

theorem DiagRun.interval_recording {ok : String → Prop} {T : Tape R} {pf : Nat → Option P}
    (hR : DiagRun cfg ds0 st0 fin ok T pf)
    {info : DiagInfo} {name sig : String} {ex : Option IdxSel} {ivs : List (Int × Int)}
    {numCh num : Nat} {chan : Option (List Int)} {rows : List Nat} {d : Diag (DData R P V)}
    (hd : mkRecordSignal info name sig ex (some ivs) numCh chan = .ok d) (hmem : d ∈ ds0)
    (htot : info.tot = cfg.tot) (hinc : Increasing 0 ivs) (hend : ∀ q ∈ ivs, q.2 ≤ cfg.tot)
    (hsig : cfg.dims sig = some num) (hrows : chanRows num chan = some rows)
    (hlen : rows.length = numCh) (hok : ok sig) :
    ∃ d' ∈ fin.diags, d'.name = name ∧ ∃ signal : Mat (Option R),
      d'.data = .recSignal sig chan signal ∧
      signal.length = numCh ∧ ∀ (j c : Nat), rows[j]? = some c → ∃ row, signal[j]? = some row ∧
        row.length = cfg.tot ∧ ∀ t < cfg.tot,
          (Covered ivs t → ∃ v, cfg.Produced st0 sig c t v ∧ row[t]? = some (some v)) ∧
          (¬ Covered ivs t → row[t]? = some none) := by
  obtain ⟨h1, h2, h3, h4, h5⟩ := mkRecordSignal_ok hd
  obtain ⟨d', g1, g2, signal, g3⟩ := hR.recorded hmem (signalSaveAt_some h2)
    hinc hend (by rw [h4, htot]) hsig hrows hlen hok
  exact ⟨d', g1, g2.trans h1, signal, g3⟩

/-- C03. With `save_at` given as increasing non-overlapping intervals inside
`[0, tot_samples]`, the recording holds the produced sample at every time
index inside one of the intervals and `nan` everywhere else. -/
theorem C03_interval_recording (h : CompletedRun cfg lp srcs arr proc f0 ds0 st0 fin)
    {info : DiagInfo} {name sig : String} {ex : Option IdxSel} {ivs : List (Int × Int)}
    {numCh num : Nat} {chan : Option (List Int)} {rows : List Nat} {d : Diag (DData R P V)}
    (hd : mkRecordSignal info name sig ex (some ivs) numCh chan = .ok d) (hmem : d ∈ ds0)
    (htot : info.tot = cfg.tot) (hinc : Increasing 0 ivs) (hend : ∀ q ∈ ivs, q.2 ≤ cfg.tot)
    (hsig : cfg.dims sig = some num) (hrows : chanRows num chan = some rows)
    (hlen : rows.length = numCh) :
    ∃ d' ∈ fin.diags, d'.name = name ∧ ∃ signal : Mat (Option R),
      d'.data = .recSignal sig chan signal ∧
      signal.length = numCh ∧ ∀ (j c : Nat), rows[j]? = some c → ∃ row, signal[j]? = some row ∧
        row.length = cfg.tot ∧ ∀ t < cfg.tot,
          (Covered ivs t → ∃ v, cfg.Produced st0 sig c t v ∧ row[t]? = some (some v)) ∧
          (¬ Covered ivs t → row[t]? = some none) := by
  obtain ⟨_, _, hR⟩ := h.diagRun
  exact hR.interval_recording hd hmem htot hinc hend hsig hrows hlen trivial

example : ∃ st0 fin : DemoSt, ∃ d' ∈ fin.diags, d'.name = "ivs" ∧ ∃ row,
    d'.data = .recSignal "mic" (some [-1]) [row] ∧ row.length = 6 ∧
    (∃ v, (demoCfg 4 2 6).Produced st0 "mic" 0 4 v ∧ row[4]? = some (some v)) ∧
    row[2]? = some none := by
  obtain ⟨st0, fin, h, _⟩ := demo_completed
  obtain ⟨d', h1, h2, signal, h3, h4, h5⟩ := C03_interval_recording h  demoIvs_ok
    (by simp [demoDs]) rfl (by simp [Increasing]) (by decide) (rows := [0]) (by rfl) (by rfl) rfl
  obtain ⟨row, g1, g2, g3⟩ := h5 0 0 rfl
  refine ⟨st0, fin, d', h1, h2, row, ?_, g2, (g3 4 (by decide)).1 (by decide),
    (g3 2 (by decide)).2 (by decide)⟩
  match signal, h4, g1 with
  | [r], _, g1 => cases g1; exact h3

theorem DiagRun.export_content {ok : String → Prop} {T : Tape R} {pf : Nat → Option P}
    (hR : DiagRun cfg ds0 st0 fin ok T pf)
    {info : DiagInfo} {name sig : String} {ex : Option IdxSel} {sv : Option (List (Int × Int))}
    {numCh num : Nat} {chan : Option (List Int)} {rows : List Nat} {d : Diag (DData R P V)}
    (hd : mkRecordSignal info name sig ex sv numCh chan = .ok d) (hmem : d ∈ ds0)
    (htot : info.tot = cfg.tot) {ivs : List (Int × Int)} (hivs : ivs = savedIvs cfg.tot sv)
    (hinc : Increasing 0 ivs) (hend : ∀ q ∈ ivs, q.2 ≤ cfg.tot)
    (hsig : cfg.dims sig = some num) (hrows : chanRows num chan = some rows)
    (hlen : rows.length = numCh) (hnum : 0 < numCh)
    {ev : Event (DOut R V)} (hev : ev ∈ evOf name fin.log) (hpos : 0 ≤ ev.time) (hok : ok sig) :
    ev.time ≤ cfg.tot ∧ ∃ sg : Mat R,
      ev.out = .series sg (((List.range ev.time.toNat).filter (Covered ivs ·)).map fun (t : Nat) => (t : Int)) ∧
      sg.length = numCh ∧ ∀ (j c : Nat), rows[j]? = some c → ∃ row, sg[j]? = some row ∧
        List.Forall₂ (fun t v => cfg.Produced st0 sig c t v)
          ((List.range ev.time.toNat).filter (Covered ivs ·)) row := by
  obtain ⟨h1, h2, h3, h4, h5⟩ := mkRecordSignal_ok hd
  have hsv : d.saveAt = IvCounter.init ivs := by
    subst hivs
    cases sv with
    | none => unfold signalSaveAt at h2; rw [htot] at h2; exact (Except.ok.inj h2).symm
    | some l => exact signalSaveAt_some h2
  exact hR.exported hmem hsv hinc hend (by rw [h4, htot]) hsig hrows hlen hnum hok
    (by rw [h1]; exact hev) hpos

/-- C04. Every export of a recording with index `e` hands over exactly the
recorded time indices smaller than `e`, in increasing order, with the produced
samples at these indices. -/
theorem C04_export_content (h : CompletedRun cfg lp srcs arr proc f0 ds0 st0 fin)
    {info : DiagInfo} {name sig : String} {ex : Option IdxSel} {sv : Option (List (Int × Int))}
    {numCh num : Nat} {chan : Option (List Int)} {rows : List Nat} {d : Diag (DData R P V)}
    (hd : mkRecordSignal info name sig ex sv numCh chan = .ok d) (hmem : d ∈ ds0)
    (htot : info.tot = cfg.tot) {ivs : List (Int × Int)} (hivs : ivs = savedIvs cfg.tot sv)
    (hinc : Increasing 0 ivs) (hend : ∀ q ∈ ivs, q.2 ≤ cfg.tot)
    (hsig : cfg.dims sig = some num) (hrows : chanRows num chan = some rows)
    (hlen : rows.length = numCh) (hnum : 0 < numCh)
    {ev : Event (DOut R V)} (hev : ev ∈ evOf name fin.log) (hpos : 0 ≤ ev.time) :
    ev.time ≤ cfg.tot ∧ ∃ sg : Mat R,
      ev.out = .series sg (((List.range ev.time.toNat).filter (Covered ivs ·)).map fun (t : Nat) => (t : Int)) ∧
      sg.length = numCh ∧ ∀ (j c : Nat), rows[j]? = some c → ∃ row, sg[j]? = some row ∧
        List.Forall₂ (fun t v => cfg.Produced st0 sig c t v)
          ((List.range ev.time.toNat).filter (Covered ivs ·)) row := by
  obtain ⟨_, _, hR⟩ := h.diagRun
  exact hR.export_content hd hmem htot hivs hinc hend hsig hrows hlen hnum hev hpos trivial

example : ∃ fin : DemoSt, ((evOf "ivs" fin.log).map Event.time = [3, 6]) ∧
    ∀ ev ∈ evOf "ivs" fin.log, ev.time = 6 → ∃ st0 : DemoSt, ∃ sg, ev.out = .series sg [1, 3, 4, 5] ∧
      ∃ row, sg[0]? = some row ∧
        List.Forall₂ (fun t v => (demoCfg 4 2 6).Produced st0 "mic" 0 t v) [1, 3, 4, 5] row := by
  obtain ⟨st0, fin, h, hlog⟩ := demo_completed
  have ht : (evOf "ivs" fin.log).map Event.time = [3, 6] := by
    have := congrArg (fun l => (l.filter fun p => p.1 == "ivs").map Prod.snd) hlog
    simp only [List.filter_map, List.map_map] at this
    exact this
  refine ⟨fin, ht, fun ev hev h6 => ⟨st0, ?_⟩⟩
  obtain ⟨_, sg, h1, h2, h3⟩ := C04_export_content h  (sig := "mic") demoIvs_ok
    (by simp [demoDs]) rfl (ivs := [(1, 2), (3, 6)]) rfl (by simp [Increasing]) (by decide) (rows := [0]) (by rfl)
    (by rfl) rfl (by decide) hev (by omega)
  rw [h6] at h1 h3
  exact ⟨sg, h1, h3 0 0 rfl⟩

theorem DiagRun.exports_happen {ok : String → Prop} {T : Tape R} {pf : Nat → Option P}
    (hR : DiagRun cfg ds0 st0 fin ok T pf)
    (hplot : cfg.plotNone = false) {info : DiagInfo} {name sig : String} {l : List Int}
    {numCh : Nat} {chan : Option (List Int)} {d : Diag (DData R P V)}
    (hd : mkRecordSignal info name sig (some (.list l)) none numCh chan = .ok d) (hmem : d ∈ ds0)
    (htot : info.tot = cfg.tot) (hpos : 0 < cfg.tot) (hl : l.Pairwise (· < ·)) (hok : ok sig) :
    (evOf name fin.log).map Event.time = l.filter (· ≤ (cfg.tot : Int)) := by
  obtain ⟨h1, h2, h3, h4, h5⟩ := mkRecordSignal_ok hd
  have hsv : d.saveAt = IvCounter.init [(0, (cfg.tot : Int))] := by
    unfold signalSaveAt at h2; rw [htot] at h2; exact (Except.ok.inj h2).symm
  have hex : d.exportAt.left = l := by
    unfold exportCounter IdxSel.counter at h3
    simp only [Option.getD_some, Except.ok.injEq] at h3
    rw [← h3, IxCounter.left_init]
  rw [← h1, ← hex]
  exact hR.export_times hplot hmem hsv hpos (by rw [hex]; exact hl) fun _ hn => by rw [h4] at hn; cases List.mem_singleton.1 hn; exact hok

/-- C05. A recording over the whole run has, at the end, been exported for
precisely the requested indices that are at most `tot_samples`, each once and
in the requested order. -/
theorem C05_exports_happen (h : CompletedRun cfg lp srcs arr proc f0 ds0 st0 fin)
    (hplot : cfg.plotNone = false) {info : DiagInfo} {name sig : String} {l : List Int}
    {numCh : Nat} {chan : Option (List Int)} {d : Diag (DData R P V)}
    (hd : mkRecordSignal info name sig (some (.list l)) none numCh chan = .ok d) (hmem : d ∈ ds0)
    (htot : info.tot = cfg.tot) (hpos : 0 < cfg.tot) (hl : l.Pairwise (· < ·)) :
    (evOf name fin.log).map Event.time = l.filter (· ≤ (cfg.tot : Int)) := by
  obtain ⟨_, _, hR⟩ := h.diagRun
  exact hR.exports_happen hplot hd hmem htot hpos hl trivial

example : ∃ fin : DemoSt, (evOf "lst" fin.log).map Event.time = [2, 5] := by
  obtain ⟨st0, fin, h, _⟩ := demo_completed
  exact ⟨fin, C05_exports_happen h rfl  demoLst_ok (by simp [demoDs]) rfl
    (by decide) (by decide)⟩

theorem DiagRun.exports_every {ok : String → Prop} {T : Tape R} {pf : Nat → Option P}
    (hR : DiagRun cfg ds0 st0 fin ok T pf)
    (hplot : cfg.plotNone = false) {info : DiagInfo} {name sig : String} {ex : Option IdxSel}
    {f : Nat} (hf : ex = some (.every f) ∨ (ex = none ∧ info.exportFreq = f))
    {numCh : Nat} {chan : Option (List Int)} {d : Diag (DData R P V)}
    (hd : mkRecordSignal info name sig ex none numCh chan = .ok d) (hmem : d ∈ ds0)
    (htot : info.tot = cfg.tot) (hpos : 0 < cfg.tot) (hok : ok sig) :
    (evOf name fin.log).map Event.time =
      (List.range (cfg.tot / f)).map fun i => (((i + 1) * f : Nat) : Int) := by
  obtain ⟨h1, h2, h3, h4, h5⟩ := mkRecordSignal_ok hd
  have hsv : d.saveAt = IvCounter.init [(0, (cfg.tot : Int))] := by
    unfold signalSaveAt at h2; rw [htot] at h2; exact (Except.ok.inj h2).symm
  have h3' : IxCounter.ofFreq f cfg.tot = .ok d.exportAt := by
    unfold exportCounter IdxSel.counter at h3
    rw [htot] at h3
    rcases hf with rfl | ⟨rfl, rfl⟩ <;> exact h3
  obtain ⟨hf0, hex⟩ := ofFreq_left h3'
  have := hR.export_times hplot hmem hsv hpos (by
    rw [hex, List.pairwise_map]
    refine List.pairwise_lt_range.imp ?_
    intro a b hab
    have : (a + 1) * f < (b + 1) * f := Nat.mul_lt_mul_of_pos_right (by omega) hf0
    exact_mod_cast this) fun _ hn => by rw [h4] at hn; cases List.mem_singleton.1 hn; exact hok
  rw [← h1, this, hex, List.filter_eq_self.2]
  intro x hx
  obtain ⟨i, hi, rfl⟩ := List.mem_map.1 hx
  rw [List.mem_range] at hi
  have h6 : (i + 1) * f ≤ cfg.tot :=
    le_trans (Nat.mul_le_mul_right f hi) (Nat.div_mul_le_self _ _)
  simp only [decide_eq_true_eq]
  exact_mod_cast h6

/-- C05, scalar export frequency `f` (given, or the default from the
simulation settings): the indices are `f, 2f, ..., floor(tot/f)*f`. -/
theorem C05_exports_every (h : CompletedRun cfg lp srcs arr proc f0 ds0 st0 fin)
    (hplot : cfg.plotNone = false) {info : DiagInfo} {name sig : String} {ex : Option IdxSel}
    {f : Nat} (hf : ex = some (.every f) ∨ (ex = none ∧ info.exportFreq = f))
    {numCh : Nat} {chan : Option (List Int)} {d : Diag (DData R P V)}
    (hd : mkRecordSignal info name sig ex none numCh chan = .ok d) (hmem : d ∈ ds0)
    (htot : info.tot = cfg.tot) (hpos : 0 < cfg.tot) :
    (evOf name fin.log).map Event.time =
      (List.range (cfg.tot / f)).map fun i => (((i + 1) * f : Nat) : Int) := by
  obtain ⟨_, _, hR⟩ := h.diagRun
  exact hR.exports_every hplot hf hd hmem htot hpos trivial

example : ∃ fin : DemoSt, (evOf "rec" fin.log).map Event.time = [3, 6] := by
  obtain ⟨st0, fin, h, _⟩ := demo_completed
  exact ⟨fin, C05_exports_every h rfl  (f := 3) (Or.inr ⟨rfl, rfl⟩) demoRec_ok
    (by simp [demoDs]) rfl (by decide)⟩

end
end Verif

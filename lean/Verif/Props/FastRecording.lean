/-
C183: what the diagnostics of a simulation with `FastBlockFxLMS` record and export.
-/
import Verif.Lemmas.AncReal
import Verif.Props.FastResize
namespace Verif

section
variable {R IR F S A V : Type} [Field R] [DecidableEq R]
  {cfg : SimCfg R IR F S A (FastSt R) (DData R (FastSt R) V) (DOut R V)} {q : FxPar R} {Sp : IrMat R}
  {srcs : String → S} {arr : A} {f0 : F} {ds0 : List (Diag (DData R (FastSt R) V))}
  {st0 fin : SimSt R F S A (FastSt R) (DData R (FastSt R) V) (DOut R V)}

/-- C183, recordings: a `RecordSignal` diagnostic of an array of the scene holds the
produced sample at every time index inside `save_at` (by default the whole run) and
`nan` everywhere else. -/
theorem C183_recording (h : FastRun cfg q Sp srcs arr f0 ds0 st0 fin)
    {info : DiagInfo} {name sig : String} {ex : Option IdxSel} {sv : Option (List (Int × Int))}
    {numCh num : Nat} {chan : Option (List Int)} {rows : List Nat} {d : Diag (DData R (FastSt R) V)}
    (hd : mkRecordSignal info name sig ex sv numCh chan = .ok d) (hmem : d ∈ ds0)
    (htot : info.tot = cfg.tot) {ivs : List (Int × Int)} (hivs : ivs = savedIvs cfg.tot sv)
    (hinc : Increasing 0 ivs) (hend : ∀ q ∈ ivs, q.2 ≤ cfg.tot)
    (hsig : cfg.dims sig = some num) (hown : sig ≠ "xf") (hrows : chanRows num chan = some rows)
    (hlen : rows.length = numCh) :
    ∃ d' ∈ fin.diags, d'.name = name ∧ ∃ signal : Mat (Option R),
      d'.data = .recSignal sig chan signal ∧
      signal.length = numCh ∧ ∀ (j c : Nat), rows[j]? = some c → ∃ row, signal[j]? = some row ∧
        row.length = cfg.tot ∧ ∀ t < cfg.tot,
          (Covered ivs t → ∃ v, cfg.Produced st0 sig c t v ∧ row[t]? = some (some v)) ∧
          (¬ Covered ivs t → row[t]? = some none) := by
  obtain ⟨h1, h2, h3, h4, h5⟩ := mkRecordSignal_ok hd
  obtain ⟨_, _, hR⟩ := h.diagRun
  subst hivs
  obtain ⟨d', g1, g2, signal, g3⟩ := hR.recorded hmem (savedIvs_counter h2 htot)
    hinc hend (by rw [h4, htot]) hsig hrows hlen hown
  exact ⟨d', g1, g2.trans h1, signal, g3⟩

/-- C183, exports: an export with index `e` hands over exactly the recorded time
indices smaller than `e`, in increasing order, with the produced samples. -/
theorem C183_export (h : FastRun cfg q Sp srcs arr f0 ds0 st0 fin)
    {info : DiagInfo} {name sig : String} {ex : Option IdxSel} {sv : Option (List (Int × Int))}
    {numCh num : Nat} {chan : Option (List Int)} {rows : List Nat} {d : Diag (DData R (FastSt R) V)}
    (hd : mkRecordSignal info name sig ex sv numCh chan = .ok d) (hmem : d ∈ ds0)
    (htot : info.tot = cfg.tot) {ivs : List (Int × Int)} (hivs : ivs = savedIvs cfg.tot sv)
    (hinc : Increasing 0 ivs) (hend : ∀ q ∈ ivs, q.2 ≤ cfg.tot)
    (hsig : cfg.dims sig = some num) (hown : sig ≠ "xf") (hrows : chanRows num chan = some rows)
    (hlen : rows.length = numCh) (hnum : 0 < numCh)
    {ev : Event (DOut R V)} (hev : ev ∈ evOf name fin.log) (hpos : 0 ≤ ev.time) :
    ev.time ≤ cfg.tot ∧ ∃ sg : Mat R,
      ev.out = .series sg (((List.range ev.time.toNat).filter (Covered ivs ·)).map fun (t : Nat) => (t : Int)) ∧
      sg.length = numCh ∧ ∀ (j c : Nat), rows[j]? = some c → ∃ row, sg[j]? = some row ∧
        List.Forall₂ (fun t v => cfg.Produced st0 sig c t v)
          ((List.range ev.time.toNat).filter (Covered ivs ·)) row := by
  obtain ⟨_, _, hR⟩ := h.diagRun
  exact hR.export_content hd hmem htot hivs hinc hend hsig hrows hlen hnum hev hpos hown

/-- C183, export indices: a recording over the whole run has been exported for
precisely the requested indices that are at most `tot_samples`, each once and in order. -/
theorem C183_times (h : FastRun cfg q Sp srcs arr f0 ds0 st0 fin)
    (hplot : cfg.plotNone = false) {info : DiagInfo} {name sig : String} {l : List Int}
    {numCh : Nat} {chan : Option (List Int)} {d : Diag (DData R (FastSt R) V)}
    (hd : mkRecordSignal info name sig (some (.list l)) none numCh chan = .ok d) (hmem : d ∈ ds0)
    (htot : info.tot = cfg.tot) (hpos : 0 < cfg.tot) (hl : l.Pairwise (· < ·)) (hown : sig ≠ "xf") :
    (evOf name fin.log).map Event.time = l.filter (· ≤ (cfg.tot : Int)) := by
  obtain ⟨_, _, hR⟩ := h.diagRun
  exact hR.exports_happen hplot hd hmem htot hpos hl hown

/-- C183, export indices for a frequency `f`. -/
theorem C183_every (h : FastRun cfg q Sp srcs arr f0 ds0 st0 fin)
    (hplot : cfg.plotNone = false) {info : DiagInfo} {name sig : String} {ex : Option IdxSel}
    {f : Nat} (hf : ex = some (.every f) ∨ (ex = none ∧ info.exportFreq = f))
    {numCh : Nat} {chan : Option (List Int)} {d : Diag (DData R (FastSt R) V)}
    (hd : mkRecordSignal info name sig ex none numCh chan = .ok d) (hmem : d ∈ ds0)
    (htot : info.tot = cfg.tot) (hpos : 0 < cfg.tot) (hown : sig ≠ "xf") :
    (evOf name fin.log).map Event.time =
      (List.range (cfg.tot / f)).map fun i => (((i + 1) * f : Nat) : Int) := by
  obtain ⟨_, _, hR⟩ := h.diagRun
  exact hR.exports_every hplot hf hd hmem htot hpos hown

/-- C183, `SignalPower`: at every saved time index the mean over the channels of the
squared produced samples, `nan` elsewhere. -/
theorem C183_power (h : FastRun cfg q Sp srcs arr f0 ds0 st0 fin)
    {info : DiagInfo} {name sig : String} {ex : Option IdxSel} {sv : Option (List (Int × Int))}
    {num : Nat} {chan : Option (List Int)} {rows : List Nat} {d : Diag (DData R (FastSt R) V)}
    (hd : mkSignalPower info name sig ex sv chan = .ok d) (hmem : d ∈ ds0)
    (htot : info.tot = cfg.tot) {ivs : List (Int × Int)} (hivs : ivs = savedIvs cfg.tot sv)
    (hinc : Increasing 0 ivs) (hend : ∀ q ∈ ivs, q.2 ≤ cfg.tot)
    (hsig : cfg.dims sig = some num) (hown : sig ≠ "xf") (hrows : chanRows num chan = some rows) (hne : rows ≠ []) :
    ∃ d' ∈ fin.diags, d'.name = name ∧ ∃ pw : List (Option R), d'.data = .power sig chan pw ∧
      pw.length = cfg.tot ∧ ∀ t < cfg.tot,
        (Covered ivs t → ∃ x, cfg.PowerAt st0 sig rows t x ∧ pw[t]? = some (some x)) ∧
        (¬ Covered ivs t → pw[t]? = some none) := by
  obtain ⟨_, _, hR⟩ := h.diagRun
  exact hR.signal_power hd hmem htot hivs hinc hend hsig hrows hne hown

/-- C183, exports of `SignalPower`. -/
theorem C183_power_export (h : FastRun cfg q Sp srcs arr f0 ds0 st0 fin)
    {info : DiagInfo} {name sig : String} {ex : Option IdxSel} {sv : Option (List (Int × Int))}
    {num : Nat} {chan : Option (List Int)} {rows : List Nat} {d : Diag (DData R (FastSt R) V)}
    (hd : mkSignalPower info name sig ex sv chan = .ok d) (hmem : d ∈ ds0)
    (htot : info.tot = cfg.tot) {ivs : List (Int × Int)} (hivs : ivs = savedIvs cfg.tot sv)
    (hinc : Increasing 0 ivs) (hend : ∀ q ∈ ivs, q.2 ≤ cfg.tot)
    (hsig : cfg.dims sig = some num) (hown : sig ≠ "xf") (hrows : chanRows num chan = some rows) (hne : rows ≠ [])
    {ev : Event (DOut R V)} (hev : ev ∈ evOf name fin.log) (hpos : 0 ≤ ev.time) :
    ∃ row : List R, ev.out = .series [row]
        (((List.range ev.time.toNat).filter (Covered ivs ·)).map fun (t : Nat) => (t : Int)) ∧
      List.Forall₂ (fun t x => cfg.PowerAt st0 sig rows t x)
        ((List.range ev.time.toNat).filter (Covered ivs ·)) row := by
  obtain ⟨_, _, hR⟩ := h.diagRun
  exact hR.power_export hd hmem htot hivs hinc hend hsig hrows hne hev hpos hown

/-- The taps of the state an iteration leaves. -/
theorem FastRun.tapsAt (h : FastRun cfg q Sp srcs arr f0 ds0 st0 fin) {ρ e : Nat → Int → R} {n : Nat}
    (hρ : ∀ c < q.nr, ∀ t ≤ ((n + 1 : Nat) : Int), cfg.Recorded st0 "ref" c t (ρ c t))
    (he : ∀ c < q.ne, ∀ t ≤ ((n + 1 : Nat) : Int), cfg.Recorded st0 "error" c t (e c t))
    {s : FastSt R} (hs : cfg.StateAt st0 n s) :
    ∀ r < q.nr, ∀ l < q.nl, s.ctrl.mat.ir r l = (List.range q.L).map
      (lmsTaps .block q.beta q.mu q.nr q.nl q.ne q.L q.L q.bs (storedFrom (Sp.firstTaps (q.L - q.bs)) (cfg.B % q.L) q.bs ρ) e (((n + 1) / q.bs - 1) * q.bs / q.L) r l) := by
  obtain ⟨-, st, hst, rfl⟩ := hs
  exact (C175_adaptive h.scene h.init hst hρ he).2

/-- C183, the control filter: a `RecordFilter` diagnostic with an increasing list of
positive indices exports, for every requested index the run reaches, once and in order,
what `get` reads from a state whose control filter has the taps of the filtered-x LMS
recursion after the updates made so far. -/
theorem C183_filter (h : FastRun cfg q Sp srcs arr f0 ds0 st0 fin)
    (hplot : cfg.plotNone = false) {info : DiagInfo} {name : String} {get : FastSt R → Except PyErr V} {l : List Int}
    {d : Diag (DData R (FastSt R) V)} (hd : mkRecordFilter info name get (some (.list l)) = .ok d) (hmem : d ∈ ds0)
    (hl : l.Pairwise (· < ·)) (hpos : ∀ x ∈ l, 1 ≤ x) {ρ e : Nat → Int → R}
    (hρ : ∀ c < q.nr, ∀ t ≤ ((cfg.tot + cfg.mbs : Nat) : Int), cfg.Recorded st0 "ref" c t (ρ c t))
    (he : ∀ c < q.ne, ∀ t ≤ ((cfg.tot + cfg.mbs : Nat) : Int), cfg.Recorded st0 "error" c t (e c t)) :
    (evOf name fin.log).map Event.time = l.filter (· < ((cfg.tot + cfg.mbs : Nat) : Int)) ∧
    ∀ ev ∈ evOf name fin.log, ∃ s v, get s = .ok v ∧ ev.out = .value (some v) ∧
      ∀ r < q.nr, ∀ l < q.nl, s.ctrl.mat.ir r l = (List.range q.L).map
        (lmsTaps .block q.beta q.mu q.nr q.nl q.ne q.L q.L q.bs (storedFrom (Sp.firstTaps (q.L - q.bs)) (cfg.B % q.L) q.bs ρ) e
          (((ev.time.toNat + 1) / q.bs - 1) * q.bs / q.L) r l) := by
  obtain ⟨_, _, hR⟩ := h.diagRun
  obtain ⟨g1, g2⟩ := hR.instant_list hplot hd hmem hl hpos
  refine ⟨g1, ?_⟩
  intro ev hev
  obtain ⟨s, v, k1, k2, k3⟩ := g2 ev hev
  have hm : ev.time ∈ l.filter (· < ((cfg.tot + cfg.mbs : Nat) : Int)) := by
    rw [← g1]; exact List.mem_map_of_mem hev
  rw [List.mem_filter] at hm
  have h1 := hpos _ hm.1
  have h2 := of_decide_eq_true hm.2
  exact ⟨s, v, k2, k3, h.tapsAt (n := ev.time.toNat) (fun c hc t ht => hρ c hc t (by omega))
    (fun c hc t ht => he c hc t (by omega)) k1⟩

/-- C183, `RecordState` with save frequency `f`: `tot / f` values, the `k`-th (counted
from 1) read from a state whose control filter has the taps of the filtered-x LMS
recursion after the updates made by iteration `k*f`. -/
theorem C183_state (h : FastRun cfg q Sp srcs arr f0 ds0 st0 fin)
    {info : DiagInfo} {name : String} {get : FastSt R → Except PyErr (List R)} {dim : Nat} {ex : Option IdxSel}
    {f : Nat} {junk : Int} {d : Diag (DData R (FastSt R) V)}
    (hd : mkRecordState info name get dim ex (some (.every f)) junk = .ok d) (hmem : d ∈ ds0)
    (htot : info.tot = cfg.tot) (hdim : ∀ p v, get p = .ok v → v.length = dim) {ρ e : Nat → Int → R}
    (hρ : ∀ c < q.nr, ∀ t ≤ ((cfg.tot + cfg.mbs : Nat) : Int), cfg.Recorded st0 "ref" c t (ρ c t))
    (he : ∀ c < q.ne, ∀ t ≤ ((cfg.tot + cfg.mbs : Nat) : Int), cfg.Recorded st0 "error" c t (e c t)) :
    ∃ d' ∈ fin.diags, d'.name = name ∧ ∃ (values : Mat (Option R)) (times : List Int),
      d'.data = .recState get values times (cfg.tot / f) ∧ values.length = dim ∧
      ∀ k < cfg.tot / f, times[k]? = some ((((k + 1) * f : Nat) : Int) - 1) ∧
        ∃ s v, get s = .ok v ∧
          (∀ (j : Nat) x, v[j]? = some x → ∃ row, values[j]? = some row ∧ row[k]? = some (some x)) ∧
          ∀ r < q.nr, ∀ l < q.nl, s.ctrl.mat.ir r l = (List.range q.L).map
            (lmsTaps .block q.beta q.mu q.nr q.nl q.ne q.L q.L q.bs (storedFrom (Sp.firstTaps (q.L - q.bs)) (cfg.B % q.L) q.bs ρ) e
              ((((k + 1) * f + 1) / q.bs - 1) * q.bs / q.L) r l) := by
  obtain ⟨_, _, hR⟩ := h.diagRun
  obtain ⟨d', g1, g2, values, times, g3, g4, -, g6, -⟩ := hR.state_schedule hd hmem htot hdim
  refine ⟨d', g1, g2, values, times, g3, g4, ?_⟩
  intro k hk
  obtain ⟨k1, s, v, k2, k3, k4⟩ := g6 k hk
  have h1 : (k + 1) * f ≤ cfg.tot := le_trans (Nat.mul_le_mul_right f hk) (Nat.div_mul_le_self _ _)
  have := hR.block
  refine ⟨k1, s, v, k3, k4, h.tapsAt (fun c hc t ht => hρ c hc t (by omega))
    (fun c hc t ht => he c hc t (by omega)) k2⟩

/-- C183, the loudspeakers: a recording of a loudspeaker holds the reference one block
late through the taps made so far. -/
theorem C183_loudspeaker (h : FastRun cfg q Sp srcs arr f0 ds0 st0 fin)
    {info : DiagInfo} {name : String} {ex : Option IdxSel} {d : Diag (DData R (FastSt R) V)}
    (hd : mkRecordSignal info name "loudspeaker" ex none q.nl none = .ok d) (hmem : d ∈ ds0)
    (htot : info.tot = cfg.tot) (hpos : 0 < cfg.tot) {ρ e : Nat → Int → R}
    (hρ : ∀ c < q.nr, ∀ t ≤ ((cfg.tot + cfg.mbs : Nat) : Int), cfg.Recorded st0 "ref" c t (ρ c t))
    (he : ∀ c < q.ne, ∀ t ≤ ((cfg.tot + cfg.mbs : Nat) : Int), cfg.Recorded st0 "error" c t (e c t)) :
    ∃ d' ∈ fin.diags, d'.name = name ∧ d'.data = .recSignal "loudspeaker" none
      ((List.range q.nl).map fun l => (List.range cfg.tot).map fun t => some (adaptiveOut q.bs q.L q.nr q.L
        (lmsTaps .block q.beta q.mu q.nr q.nl q.ne q.L q.L q.bs (storedFrom (Sp.firstTaps (q.L - q.bs)) (cfg.B % q.L) q.bs ρ) e) ρ l t)) := by
  obtain ⟨hN, e0, -, hI⟩ := fast_begin h.scene Sp h.init
  have hdim := (fast_dims h.scene hN).ls
  obtain ⟨d', g1, g2, signal, g3, g4, g5⟩ := C183_recording h hd hmem htot rfl
    (show Increasing 0 [(0, (cfg.tot : Int))] from ⟨le_refl _, by simpa using hpos, trivial⟩) (by simp [savedIvs])
    hdim (by decide) (rows := List.range q.nl) rfl (by simp)
  obtain ⟨st, hk, -⟩ := h.steps
  have hout := (C175_adaptive h.scene h.init hk hρ he).1
  refine ⟨d', g1, g2, g3.trans ?_⟩
  congr 1
  refine List.ext_getElem? fun l => ?_
  by_cases hl : l < q.nl
  · obtain ⟨row, k1, k2, k3⟩ := g5 l l (List.getElem?_range hl)
    rw [k1, List.getElem?_map, List.getElem?_range hl, Option.map_some]
    congr 1
    refine List.ext_getElem? fun t => ?_
    by_cases ht : t < cfg.tot
    · obtain ⟨v, m1, m2⟩ := (k3 t ht).1 ⟨(0, (cfg.tot : Int)), by simp [savedIvs], by simp, by simpa using ht⟩
      obtain ⟨te, off, r, hT⟩ := GInv.steps (fast_sizes h.scene hN) hI _ hk
      have m3 := hout l hl t (by omega)
      rw [gProduced_iff (fast_sizes h.scene hN) hI hk hT.tape (by omega) (fast_past _ h.scene.ub.1 (by decide))] at m1 m3
      obtain ⟨_, _, _, m1⟩ := m1
      obtain ⟨_, _, _, m3⟩ := m3
      rw [m2, List.getElem?_map, List.getElem?_range ht, Option.map_some, ← m1, ← m3]
    · rw [List.getElem?_eq_none (by omega), List.getElem?_eq_none (by simp; omega)]
  · rw [List.getElem?_eq_none (by omega), List.getElem?_eq_none (by simp; omega)]

end

def fastD (x : Except PyErr (Diag (DData ℚ (FastSt ℚ) ℚ))) : Diag (DData ℚ (FastSt ℚ) ℚ) :=
  match x with
  | .ok d => d
  | .error _ => ⟨"", ⟨none, none, [], 0⟩, ⟨none, []⟩, .sfPower "" 0 []⟩

/-- The diagnostics of the examples. -/
def fastDs : List (Diag (DData ℚ (FastSt ℚ) ℚ)) :=
  [fastD (mkRecordSignal ⟨8, 4, 1⟩ "ls" "loudspeaker" (some (.list [3, 8])) none 1 none),
   fastD (mkSignalPower ⟨8, 4, 1⟩ "pw" "error" none (some [(1, 4)]) none),
   fastD (mkRecordFilter ⟨8, 4, 1⟩ "w" (fun p => .ok ((p.ctrl.mat.ir 0 0).headD 0)) (some (.list [2, 7]))),
   fastD (mkRecordState ⟨8, 4, 1⟩ "st" (fun p => .ok [(p.ctrl.mat.ir 0 0).headD 0]) 1 none (some (.every 3)) 0)]

/-- The scene of the examples. -/
abbrev fastSc := fastCfg (fxCfg 5 3 (fxDemo 1 2 2 .block) [1, 2] [0, 1] [2]) (fxDemo 1 2 2 .block)

abbrev FastS := SimSt ℚ (Fir ℚ) Nat Unit (FastSt ℚ) (DData ℚ (FastSt ℚ) ℚ) (DOut ℚ ℚ)

theorem fast_demo_run : ∃ st0 fin : FastS,
    FastRun fastSc (fxDemo 1 2 2 .block) (fxSec [2]) (fun _ => 0) () demoFilt fastDs st0 fin ∧
    fin.log.map (fun (e : Event (DOut ℚ ℚ)) => (e.diag, e.time, fxOut e.out)) =
      [("w", 2, some (-3/23)), ("pw", 4, none), ("ls", 3, none), ("st", 4, none), ("w", 7, some (-1769467/10009899)), ("ls", 8, none)] := by
  have h : (match fastSc.runWith (fastPrepare (fxDemo 1 2 2 .block)) (fun _ => 0) () (fastInit (fxDemo 1 2 2 .block) (fxSec [2])) demoFilt fastDs with
      | .error _ => none
      | .ok st => some (st.log.map fun (e : Event (DOut ℚ ℚ)) => (e.diag, e.time, fxOut e.out))) =
      some [("w", 2, some (-3/23)), ("pw", 4, none), ("ls", 3, none), ("st", 4, none), ("w", 7, some (-1769467/10009899)),
        ("ls", 8, none)] := by decide +kernel
  split at h
  · cases h
  · rename_i fin hr
    have hr' := hr
    unfold SimCfg.runWith at hr'
    split at hr'
    · cases hr'
    · rename_i st0 hi
      exact ⟨st0, fin, ⟨fastCfg_scene (by decide) (by decide) (by decide) (by decide), rfl, by decide, hi, hr⟩,
        Option.some.inj h⟩

example : ∃ st0 fin : FastS, ∃ d' ∈ fin.diags, d'.name = "ls" ∧ ∃ signal : Mat (Option ℚ), d'.data = .recSignal "loudspeaker" none signal ∧
    ∃ row, signal[0]? = some row ∧ row.length = 8 ∧
      ∃ v, fastSc.Produced st0 "loudspeaker" 0 7 v ∧ row[7]? = some (some v) := by
  obtain ⟨st0, fin, h, -⟩ := fast_demo_run
  obtain ⟨d', h1, h2, signal, h3, -, h5⟩ := C183_recording h (name := "ls") (sig := "loudspeaker") (sv := none) (numCh := 1)
    (chan := none) (info := ⟨8, 4, 1⟩) (ex := some (.list [3, 8])) rfl List.mem_cons_self rfl rfl
    (show Increasing 0 [(0, 8)] from ⟨le_refl _, by decide, trivial⟩) (by decide) (rows := [0]) (by rfl) (by decide) (by rfl) rfl
  obtain ⟨row, g1, g2, g3⟩ := h5 0 0 rfl
  exact ⟨st0, fin, d', h1, h2, signal, h3, row, g1, g2, (g3 7 (by decide)).1 (by decide)⟩

example : ∃ st0 fin : FastS, ∀ ev ∈ evOf "ls" fin.log, ev.time = 3 → ∃ sg : Mat ℚ, ev.out = .series sg [0, 1, 2] ∧
    ∃ row, sg[0]? = some row ∧ List.Forall₂ (fun t v => fastSc.Produced st0 "loudspeaker" 0 t v) [0, 1, 2] row := by
  obtain ⟨st0, fin, h, -⟩ := fast_demo_run
  refine ⟨st0, fin, fun ev hev h3 => ?_⟩
  obtain ⟨-, sg, h1, -, h2⟩ := C183_export h (name := "ls") (sig := "loudspeaker") (sv := none) (numCh := 1)
    (chan := none) (info := ⟨8, 4, 1⟩) (ex := some (.list [3, 8])) rfl List.mem_cons_self rfl rfl
    (show Increasing 0 [(0, 8)] from ⟨le_refl _, by decide, trivial⟩) (by decide) (rows := [0]) (by rfl) (by decide) (by rfl) rfl
    (by decide) hev (by omega)
  rw [h3] at h1 h2
  exact ⟨sg, h1, h2 0 0 rfl⟩

example : ∃ fin : FastS, (evOf "ls" fin.log).map Event.time = [3, 8] := by
  obtain ⟨st0, fin, h, -⟩ := fast_demo_run
  exact ⟨fin, C183_times h rfl (name := "ls") (sig := "loudspeaker") (numCh := 1) (chan := none) (info := ⟨8, 4, 1⟩)
    (l := [3, 8]) rfl List.mem_cons_self rfl (by decide) (by decide) (by decide)⟩

example : ∃ st0 fin : FastS, ∃ d' ∈ fin.diags, d'.name = "pw" ∧ ∃ pw : List (Option ℚ), d'.data = .power "error" none pw ∧
    (∃ x, fastSc.PowerAt st0 "error" [0] 3 x ∧ pw[3]? = some (some x)) ∧ pw[4]? = some none := by
  obtain ⟨st0, fin, h, -⟩ := fast_demo_run
  obtain ⟨d', h1, h2, pw, h3, -, h5⟩ := C183_power h (name := "pw") (sig := "error") (sv := some [(1, 4)]) (chan := none)
    (info := ⟨8, 4, 1⟩) (ex := none) rfl (List.mem_cons_of_mem _ List.mem_cons_self) rfl rfl (by simp [Increasing, savedIvs]) (by decide) (rows := [0])
    (by rfl) (by decide) (by rfl) (by decide)
  exact ⟨st0, fin, d', h1, h2, pw, h3, (h5 3 (by decide)).1 (by decide), (h5 4 (by decide)).2 (by decide)⟩

example : ∃ st0 fin : FastS, ∀ ev ∈ evOf "pw" fin.log, ev.time = 4 → ∃ row : List ℚ, ev.out = .series [row] [1, 2, 3] ∧
    List.Forall₂ (fun t x => fastSc.PowerAt st0 "error" [0] t x) [1, 2, 3] row := by
  obtain ⟨st0, fin, h, -⟩ := fast_demo_run
  refine ⟨st0, fin, fun ev hev h4 => ?_⟩
  obtain ⟨row, h1, h2⟩ := C183_power_export h (name := "pw") (sig := "error") (sv := some [(1, 4)]) (chan := none)
    (info := ⟨8, 4, 1⟩) (ex := none) rfl (List.mem_cons_of_mem _ List.mem_cons_self) rfl rfl (by simp [Increasing, savedIvs]) (by decide) (rows := [0])
    (by rfl) (by decide) (by rfl) (by decide) hev (by omega)
  rw [h4] at h1 h2
  exact ⟨row, h1, h2⟩

/-- The first tap of the control filter is exported at 2 and at 7, after one and after
three updates. -/
example : ∃ (st0 fin : FastS) (ρ e : Nat → Int → ℚ), (evOf "w" fin.log).map (fun ev => (ev.time, fxOut ev.out)) =
      [(2, some (-3/23)), (7, some (-1769467/10009899))] ∧
    ∀ ev ∈ evOf "w" fin.log, ev.time = 7 → fxOut ev.out =
      some (lmsTaps .block 1 (1/2) 1 1 1 2 2 1 (storedFrom (fxSec [2]) 1 1 ρ) e 3 0 0 0) := by
  obtain ⟨st0, fin, h, hlog⟩ := fast_demo_run
  obtain ⟨st, hk, -⟩ := h.steps
  obtain ⟨ρ, e, hρ, he⟩ := fast_recorded h.scene h.init hk
  obtain ⟨-, h2⟩ := C183_filter h rfl (name := "w") (l := [2, 7]) (get := fun p => .ok ((p.ctrl.mat.ir 0 0).headD 0))
    (info := ⟨8, 4, 1⟩) rfl (List.mem_cons_of_mem _ (List.mem_cons_of_mem _ List.mem_cons_self)) (by decide) (by decide) hρ he
  refine ⟨st0, fin, ρ, e, ?_, fun ev hev h7 => ?_⟩
  · have := congrArg (fun l => (l.filter fun p => p.1 == "w").map Prod.snd) hlog
    simp only [List.filter_map, List.map_map] at this
    exact this
  · obtain ⟨s, v, g1, g2, g3⟩ := h2 ev hev
    rw [g2, ← Except.ok.inj g1, g3 0 (by decide) 0 (by decide), h7]
    rfl

example : ∃ (st0 fin : FastS) (ρ e : Nat → Int → ℚ), ∃ d' ∈ fin.diags, d'.name = "st" ∧ ∃ (values : Mat (Option ℚ)) (row : List (Option ℚ)),
    values[0]? = some row ∧ row[1]? = some (some (lmsTaps .block 1 (1/2) 1 1 1 2 2 1 (storedFrom (fxSec [2]) 1 1 ρ) e 3 0 0 0)) := by
  obtain ⟨st0, fin, h, hlog⟩ := fast_demo_run
  obtain ⟨st, hk, -⟩ := h.steps
  obtain ⟨ρ, e, hρ, he⟩ := fast_recorded h.scene h.init hk
  obtain ⟨d', h1, h2, values, times, h3, h4, h5⟩ := C183_state h (name := "st") (f := 3) (dim := 1) (junk := 0)
    (get := fun p => .ok [(p.ctrl.mat.ir 0 0).headD 0]) (info := ⟨8, 4, 1⟩) (ex := none)
    rfl (List.mem_cons_of_mem _ (List.mem_cons_of_mem _ (List.mem_cons_of_mem _ List.mem_cons_self))) rfl (by rintro p v hv; cases hv; rfl) hρ he
  obtain ⟨-, s, v, g1, g2, g3⟩ := h5 1 (by decide)
  cases g1
  obtain ⟨row, k1, k2⟩ := g2 0 _ rfl
  refine ⟨st0, fin, ρ, e, d', h1, h2, values, row, k1, ?_⟩
  rw [k2, g3 0 (by decide) 0 (by decide)]
  rfl

example : ∃ (st0 fin : FastS) (ρ e : Nat → Int → ℚ), ∃ d' ∈ fin.diags, d'.name = "ls" ∧ d'.data = .recSignal "loudspeaker" none
    [(List.range 8).map fun t => some (adaptiveOut 1 2 1 2
      (lmsTaps .block 1 (1/2) 1 1 1 2 2 1 (storedFrom (fxSec [2]) 1 1 ρ) e) ρ 0 t)] := by
  obtain ⟨st0, fin, h, hlog⟩ := fast_demo_run
  obtain ⟨st, hk, -⟩ := h.steps
  obtain ⟨ρ, e, hρ, he⟩ := fast_recorded h.scene h.init hk
  obtain ⟨d', h1, h2, h3⟩ := C183_loudspeaker h (name := "ls") (info := ⟨8, 4, 1⟩) (ex := some (.list [3, 8])) rfl
    List.mem_cons_self rfl (by decide) hρ he
  exact ⟨st0, fin, ρ, e, d', h1, h2, h3⟩

end Verif

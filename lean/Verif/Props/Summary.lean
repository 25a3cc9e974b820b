/-
C92: diagnostics that summarise a range of samples.
-/
import Verif.Lemmas.Summary
import Verif.Props.Power
namespace Verif

section
variable {R IR F S A P V : Type} [Field R] [DecidableEq R]
  {cfg : SimCfg R IR F S A P (DData R P V) (DOut R V)} {lp : ProcView R P}
  {srcs : String → S} {arr : A} {proc : P} {f0 : F} {ds0 : List (Diag (DData R P V))}
  {st0 fin : SimSt R F S A P (DData R P V) (DOut R V)}

/-- `m` consists of the samples that the simulation produces for the time indices
`a, ..., a + n - 1`, one row for each of the channels. -/
def SimCfg.IsRecording (cfg : SimCfg R IR F S A P (DData R P V) (DOut R V))
    (st0 : SimSt R F S A P (DData R P V) (DOut R V)) (sig : String) (chans : List Nat) (a n : Nat) (m : Mat R) : Prop :=
  List.Forall₂ (fun c row => List.Forall₂ (fun k v => cfg.Produced st0 sig c (a + k) v) (List.range n) row) chans m

/-- A summary function that adds up when recordings are put one after the other. -/
def AddsUp (f : Mat R → Except PyErr R) : Prop :=
  ∀ u v x y, u.length = v.length → f u = .ok x → f v = .ok y → f (List.zipWith (· ++ ·) u v) = .ok (x + y)

omit [DecidableEq R] in
theorem window_append (T : Tape R) (name : String) (num : Nat) (a : Int) (n m : Nat) :
    List.zipWith (· ++ ·) (window T name num a n) (window T name num (a + n) m) = window T name num a (n + m) := by
  unfold window matOf
  rw [List.zipWith_map, List.zipWith_self]
  refine List.map_congr_left fun c _ => ?_
  rw [List.range_add, List.map_append, List.map_map]
  congr 1
  refine List.map_congr_left fun k _ => ?_
  simp only [Function.comp]
  congr 1
  push_cast
  ring

omit [DecidableEq R] in
theorem window_rec {st0 : SimSt R F S A P (DData R P V) (DOut R V)} {T : Tape R} {K : Nat}
    (hP : ∀ t ≤ K, ∀ name c v, cfg.Produced st0 name c t v ↔
        ∃ num, cfg.dims name = some num ∧ c < num ∧ T name c ((t : Int) - 1) = v)
    {sig : String} {num : Nat} (hsig : cfg.dims sig = some num) {rows : List Nat} (hr : ∀ c ∈ rows, c < num)
    (a n : Nat) (hK : a + n ≤ K + 1) :
    cfg.IsRecording st0 sig rows a n (rows.map fun c => (List.range n).map fun (k : Nat) => T sig c ((a : Int) - 1 + k)) := by
  unfold SimCfg.IsRecording
  rw [List.forall₂_map_right_iff, List.forall₂_same]
  intro c hc
  rw [List.forall₂_map_right_iff, List.forall₂_same]
  intro k hk
  rw [List.mem_range] at hk
  rw [hP _ (by omega)]
  exact ⟨num, hsig, hr c hc, congrArg (T sig c) (by push_cast; ring)⟩

/-- C92, `SignalPowerSpectrum` over `[a, b)`: exported once, at `b`, is the spectrum of
exactly the samples of the selected channels with the time indices `a, ..., b - 1`. -/
theorem C92_spectrum (h : CompletedRun cfg lp srcs arr proc f0 ds0 st0 fin)
    {name sig : String} {numCh num : Nat} {a b : Int} {chan : Option (List Int)} {rows : List Nat}
    {welch : Mat (Option R) → V} {d : Diag (DData R P V)}
    (hd : mkSignalPowerSpectrum name sig (a, b) numCh welch chan = .ok d) (hmem : d ∈ ds0)
    (ha : 0 ≤ a) (hab : a < b) (hb : b ≤ cfg.tot) (hsig : cfg.dims sig = some num)
    (hrows : chanRows num chan = some rows) (hlen : rows.length = numCh) :
    ∃ m : Mat R, cfg.IsRecording st0 sig rows a.toNat (b - a).toNat m ∧
      (∀ ev ∈ evOf name fin.log, ev.time = b ∧
        ev.out = .value (some (welch (m.map fun r => r.map some)))) ∧
      (cfg.plotNone = false → (evOf name fin.log).length = 1) := by
  unfold mkSignalPowerSpectrum at hd
  split at hd
  · cases hd
  have hd := (Except.ok.inj hd).symm
  subst hd
  obtain ⟨T, pf, hR⟩ := h.diagRun
  obtain ⟨ps, hchain, d', hd', hname, hsave, hout, hone⟩ := hR.once_spec hmem rfl rfl ha hab hb fun _ _ => trivial
  have hP := fun t ht name c v => hR.prod name trivial t ht c v
  subst hlen
  simp only at hsave hout hone
  have hrep : List.replicate rows.length (List.replicate (b - a).toNat (none : Option R)) =
      matOf rows.length (b - a).toNat fun _ _ => none := by
    unfold matOf; simp [List.map_const']
  rw [hrep] at hsave
  obtain ⟨k', hk'⟩ := spectrum_pieces cfg.dims T pf sig num hsig chan rows hrows welch (b - a).toNat ps a b 0
    (fun _ _ => none) hchain (by omega)
  rw [hsave] at hk'
  refine ⟨_, window_rec hP hsig (chanRows_lt hrows) a.toNat (b - a).toNat (by omega), ?_, hone⟩
  intro ev hev
  obtain ⟨h1, h2⟩ := hout ev hev
  refine ⟨h1, ?_⟩
  rw [Except.ok.inj hk'] at h2
  have hmat : (matOf rows.length (b - a).toNat fun j t =>
      if 0 ≤ t then some (T sig (rows.getD j 0) (a + (t - 0 : Nat) - 1)) else none) =
      (rows.map fun c => (List.range (b - a).toNat).map fun (k : Nat) => T sig c ((a.toNat : Int) - 1 + k)).map
        fun r => r.map some := by
    unfold matOf
    apply List.ext_getElem (by simp)
    intro j hj1 hj2
    simp only [List.length_map, List.length_range] at hj1
    rw [List.getElem_map, List.getElem_range, List.getElem_map, List.getElem_map, List.map_map]
    refine List.map_congr_left fun k _ => ?_
    simp only [Nat.zero_le, if_true, Function.comp, List.getD_eq_getElem?_getD, List.getElem?_eq_getElem hj1,
      Option.getD_some]
    congr 2
    omega
  unfold DData.output at h2
  simp only [hmat] at h2
  exact (Except.ok.inj h2).symm

theorem summary_adds {func : Option (Mat R → Except PyErr R)} (hadd : AddsUp (summaryOf func)) (T : Tape R)
    (name : String) (num : Nat) : ∀ (ps : List (Int × Int)) (ys : List R) (a b : Int), Chain a ps b → a < b →
    List.Forall₂ (fun (p : Int × Int) y => summaryOf func (window T name num p.1 (p.2 - p.1).toNat) = .ok y) ps ys →
    summaryOf func (window T name num a (b - a).toNat) = .ok ys.sum
  | [], _, a, b, hc, hab, _ => by cases hc; omega
  | [p], _, a, b, hc, hab, hf => by
    obtain ⟨h1, h2, h3⟩ := hc
    cases h3
    subst h1
    cases hf with
    | cons h4 h5 => cases h5; simpa using h4
  | p :: p' :: ps, _, a, b, hc, hab, hf => by
    obtain ⟨h1, h2, h3⟩ := hc
    subst h1
    have hlt : p.2 < b := by
      obtain ⟨g1, g2, g3⟩ := h3
      have := g3.le
      omega
    cases hf with
    | @cons _ y _ ys h4 h5 =>
      have ih := summary_adds hadd T name num (p' :: ps) ys p.2 b h3 hlt h5
      have := hadd _ _ _ _ (by simp [window, matOf]) h4 ih
      have e : p.2 = p.1 + ((p.2 - p.1).toNat : Int) := by omega
      rw [show window T name num p.2 (b - p.2).toNat =
        window T name num (p.1 + ((p.2 - p.1).toNat : Int)) (b - p.2).toNat by rw [← e], window_append] at this
      rw [List.sum_cons, ← this]
      congr 2
      omega

/-- C92, `SignalSummary` over `[a, b)` with a function that adds up: exported once, at `b`,
is its value for the whole recording of the range, divided by the number of samples.
Missing: functions that do not add up, see `C92_violated`. -/
theorem C92_summary_partial (h : CompletedRun cfg lp srcs arr proc f0 ds0 st0 fin)
    {name sig : String} {num : Nat} {a b : Int} {func : Mat R → Except PyErr R} {d : Diag (DData R P V)}
    (hd : mkSignalSummary name sig (a, b) (some func) = .ok d) (hmem : d ∈ ds0) (hadd : AddsUp func)
    (ha : 0 ≤ a) (hab : a < b) (hb : b ≤ cfg.tot) (hsig : cfg.dims sig = some num) :
    ∃ (m : Mat R) (y : R), cfg.IsRecording st0 sig (List.range num) a.toNat (b - a).toNat m ∧ func m = .ok y ∧
      (∀ ev ∈ evOf name fin.log, ev.time = b ∧ ev.out = .scalar (y / ((b - a).toNat : R))) ∧
      (cfg.plotNone = false → (evOf name fin.log).length = 1) := by
  unfold mkSignalSummary at hd
  split at hd
  · cases hd
  have hd := (Except.ok.inj hd).symm
  subst hd
  obtain ⟨T, pf, hR⟩ := h.diagRun
  obtain ⟨ps, hchain, d', hd', hname, hsave, hout, hone⟩ := hR.once_spec hmem rfl rfl ha hab hb fun _ _ => trivial
  have hP := fun t ht name c v => hR.prod name trivial t ht c v
  obtain ⟨ys, hys, hdd⟩ := summary_pieces cfg.dims T pf sig num hsig _ _ ps a b _ _ hchain hsave
  refine ⟨_, ys.sum, window_rec hP hsig (fun c hc => List.mem_range.1 hc) a.toNat (b - a).toNat (by omega), ?_, ?_, hone⟩
  · have := summary_adds (func := some func) hadd T sig num ps ys a b hchain hab hys
    rw [← this]
    unfold summaryOf window matOf
    rw [show ((a.toNat : Int)) = a by omega]
  · intro ev hev
    obtain ⟨h1, h2⟩ := hout ev hev
    refine ⟨h1, ?_⟩
    rw [hdd] at h2
    have := (Except.ok.inj h2).symm
    rw [this, zero_add]

omit [DecidableEq R] in
theorem sum_zipWith_append : ∀ u v : Mat R, u.length = v.length →
    ((List.zipWith (· ++ ·) u v).map List.sum).sum = (u.map List.sum).sum + (v.map List.sum).sum
  | [], [], _ => by simp
  | r :: u, s :: v, h => by
    have := sum_zipWith_append u v (by simpa using h)
    simp only [List.zipWith_cons_cons, List.map_cons, List.sum_cons, this, List.sum_append]
    ring

omit [DecidableEq R] in
theorem sum_map_times (c : R) : ∀ l : List R, (l.map fun x => x * c).sum = l.sum * c
  | [] => by simp
  | x :: l => by rw [List.map_cons, List.sum_cons, List.sum_cons, sum_map_times c l, add_mul]

/-- C92, `SignalSummary` over `[a, b)` without a function: exported once, at `b`, is the
sum of all samples of all channels in the range, divided by the number of time indices. -/
theorem C92_mean (h : CompletedRun cfg lp srcs arr proc f0 ds0 st0 fin)
    {name sig : String} {num : Nat} {a b : Int} {d : Diag (DData R P V)}
    (hd : mkSignalSummary name sig (a, b) none = .ok d) (hmem : d ∈ ds0)
    (ha : 0 ≤ a) (hab : a < b) (hb : b ≤ cfg.tot) (hsig : cfg.dims sig = some num) :
    ∃ (m : Mat R), cfg.IsRecording st0 sig (List.range num) a.toNat (b - a).toNat m ∧
      (∀ ev ∈ evOf name fin.log, ev.time = b ∧
        ev.out = .scalar ((m.map fun row => row.sum / ((b - a).toNat : R)).sum)) ∧
      (cfg.plotNone = false → (evOf name fin.log).length = 1) := by
  unfold mkSignalSummary at hd
  split at hd
  · cases hd
  have hd := (Except.ok.inj hd).symm
  subst hd
  obtain ⟨T, pf, hR⟩ := h.diagRun
  obtain ⟨ps, hchain, d', hd', hname, hsave, hout, hone⟩ := hR.once_spec hmem rfl rfl ha hab hb fun _ _ => trivial
  have hP := fun t ht name c v => hR.prod name trivial t ht c v
  obtain ⟨ys, hys, hdd⟩ := summary_pieces cfg.dims T pf sig num hsig _ _ ps a b _ _ hchain hsave
  refine ⟨_, window_rec hP hsig (fun c hc => List.mem_range.1 hc) a.toNat (b - a).toNat (by omega), ?_, hone⟩
  have hadd : AddsUp (summaryOf (none : Option (Mat R → Except PyErr R))) := by
    intro u v x y huv hx hy
    cases hx; cases hy
    show Except.ok _ = _
    rw [sum_zipWith_append u v huv]
  have hs := summary_adds hadd T sig num ps ys a b hchain hab hys
  intro ev hev
  obtain ⟨h1, h2⟩ := hout ev hev
  refine ⟨h1, ?_⟩
  rw [hdd] at h2
  have := (Except.ok.inj h2).symm
  rw [this, zero_add, ← Except.ok.inj hs]
  congr 1
  unfold window matOf
  rw [show ((a.toNat : Int)) = a by omega]
  simp only [div_eq_mul_inv]
  rw [← sum_map_times, List.map_map]
  rfl

end

/-! ### Runs with summaries -/

/-- The largest sample. -/
def peakOf (m : Mat ℚ) : Except PyErr ℚ := .ok (m.flatten.foldl (fun x y => if x.blt y then y else x) 0)

def sumSpec : Except PyErr (Diag DemoD) :=
  mkSignalPowerSpectrum "spec" "mic" (1, 6) 1 (fun m => (m.flatten.filterMap id).getD 4 0) none
def sumMean : Except PyErr (Diag DemoD) := mkSignalSummary "mean" "mic" (1, 6) none
def sumPeak : Except PyErr (Diag DemoD) := mkSignalSummary "peak" "mic" (1, 6) (some peakOf)
theorem sumSpec_ok : mkSignalPowerSpectrum "spec" "mic" (1, 6) 1
    (fun m => (m.flatten.filterMap id).getD 4 0) none = .ok (okD sumSpec) := rfl
theorem sumMean_ok : mkSignalSummary "mean" "mic" (1, 6) none = .ok (okD sumMean) := rfl
theorem sumPeak_ok : mkSignalSummary "peak" "mic" (1, 6) (some peakOf) = .ok (okD sumPeak) := rfl
def sumDs : List (Diag DemoD) := [okD sumSpec, okD sumMean, okD sumPeak]

def showNumber : DemoO → Option ℚ
  | .value v => v
  | .scalar x => some x
  | _ => none

theorem sum_completed (C : Nat) (hC : 2 ≤ C) {r : List (String × Int × Option ℚ)}
    (h0 : ((demoCfg 4 C 6).init (fun _ => 0) () demoProc demoFilt sumDs).toOption.isSome = true)
    (h1 : ((demoCfg 4 C 6).run (fun _ => 0) () demoProc demoFilt sumDs).toOption.map
      (fun fin => fin.log.map fun ev => (ev.diag, ev.time, showNumber ev.out)) = some r) :
    ∃ st0 fin, CompletedRun (demoCfg 4 C 6) ((debugProc 6 2).view 2)
      (fun _ => 0) () demoProc demoFilt sumDs st0 fin ∧
      fin.log.map (fun ev => (ev.diag, ev.time, showNumber ev.out)) = r := by
  cases h2 : (demoCfg 4 C 6).init (fun _ => 0) () demoProc demoFilt sumDs with
  | error x => rw [h2] at h0; cases h0
  | ok st0 =>
    cases h3 : (demoCfg 4 C 6).run (fun _ => 0) () demoProc demoFilt sumDs with
    | error x => rw [h3] at h1; cases h1
    | ok fin =>
      rw [h3] at h1
      exact ⟨st0, fin, ⟨pow_admissible C hC, rfl, by decide, h2, h3⟩, Option.some.inj h1⟩

theorem sum_two : ∃ st0 fin, CompletedRun (demoCfg 4 2 6) ((debugProc 6 2).view 2)
      (fun _ => 0) () demoProc demoFilt sumDs st0 fin ∧
      fin.log.map (fun ev => (ev.diag, ev.time, showNumber ev.out)) =
        [("spec", 6, some 37), ("mean", 6, some (86 / 5)), ("peak", 6, some (54 / 5))] :=
  sum_completed 2 (by decide) (by decide +kernel) (by decide +kernel)

theorem sum_eight : ∃ st0 fin, CompletedRun (demoCfg 4 8 6) ((debugProc 6 2).view 2)
      (fun _ => 0) () demoProc demoFilt sumDs st0 fin ∧
      fin.log.map (fun ev => (ev.diag, ev.time, showNumber ev.out)) =
        [("spec", 6, some 37), ("mean", 6, some (86 / 5)), ("peak", 6, some (37 / 5))] :=
  sum_completed 8 (by decide) (by decide +kernel) (by decide +kernel)

/-- C92 fails for a function that does not add up: the largest sample of `[1, 6)`, exported
by two runs that differ in the chunk size only, is 54/5 and 37/5 (the pieces `[1, 4)` and
`[4, 6)` were summarised separately, and the results added). -/
theorem C92_violated : ∃ st0 fin st0' fin',
    CompletedRun (demoCfg 4 2 6) ((debugProc 6 2).view 2) (fun _ => 0) () demoProc demoFilt sumDs st0 fin ∧
    CompletedRun (demoCfg 4 8 6) ((debugProc 6 2).view 2) (fun _ => 0) () demoProc demoFilt sumDs st0' fin' ∧
    mkSignalSummary "peak" "mic" (1, 6) (some peakOf) ∈ sumDs.map Except.ok ∧
    ("peak", 6, some (54 / 5 : ℚ)) ∈ fin.log.map (fun ev => (ev.diag, ev.time, showNumber ev.out)) ∧
    ("peak", 6, some (37 / 5 : ℚ)) ∈ fin'.log.map (fun ev => (ev.diag, ev.time, showNumber ev.out)) := by
  obtain ⟨st0, fin, h, hl⟩ := sum_two
  obtain ⟨st0', fin', h', hl'⟩ := sum_eight
  refine ⟨st0, fin, st0', fin', h, h', ?_, by rw [hl]; simp, by rw [hl']; simp⟩
  rw [sumPeak_ok]
  simp [sumDs]

/-- C92 for these runs: one export of each diagnostic, at time index 6, and the spectrum
is taken of the recording of the microphone. -/
example : ∃ st0 fin, CompletedRun (demoCfg 4 2 6) ((debugProc 6 2).view 2)
      (fun _ => 0) () demoProc demoFilt sumDs st0 fin ∧
    (evOf "spec" fin.log).length = 1 ∧ (evOf "mean" fin.log).length = 1 ∧
    ∃ m, (demoCfg 4 2 6).IsRecording st0 "mic" [0] 1 5 m ∧
      ∀ ev ∈ evOf "mean" fin.log, ev.time = 6 ∧ ev.out = .scalar ((m.map fun row => row.sum / 5).sum) := by
  obtain ⟨st0, fin, h, _⟩ := sum_two
  obtain ⟨m1, hm1, ho1, hc1⟩ := C92_spectrum h sumSpec_ok (by simp [sumDs]) (by decide) (by decide) (by decide)
    rfl rfl rfl
  obtain ⟨m2, hm2, ho2, hc2⟩ := C92_mean h sumMean_ok (by simp [sumDs]) (by decide) (by decide) (by decide) rfl
  exact ⟨st0, fin, h, hc1 rfl, hc2 rfl, m2, hm2, ho2⟩

/-- A summary function that adds up: the energy. -/
example : AddsUp fun m : Mat ℚ => .ok (m.map fun r => (r.map fun x => x * x).sum).sum := by
  intro u v x y huv hx hy
  cases hx; cases hy
  have := sum_zipWith_append (u.map fun r => r.map fun x => x * x) (v.map fun r => r.map fun x => x * x) (by simpa using huv)
  rw [List.zipWith_map] at this
  simp only [List.map_map, Function.comp_def] at this
  show Except.ok _ = _
  rw [← this]
  congr 2
  rw [List.map_zipWith, List.map_zipWith]
  simp

end Verif

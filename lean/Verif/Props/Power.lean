/-
C23, C24: power diagnostics.
-/
import Verif.Lemmas.Power
import Verif.Demo.Small
namespace Verif

section
variable {R IR F S A P V : Type} [Field R] [DecidableEq R]
  {cfg : SimCfg R IR F S A P (DData R P V) (DOut R V)} {lp : ProcView R P}
  {srcs : String → S} {arr : A} {proc : P} {f0 : F} {ds0 : List (Diag (DData R P V))}
  {st0 fin : SimSt R F S A P (DData R P V) (DOut R V)}

theorem savedIvs_counter {info : DiagInfo} {sv : Option (List (Int × Int))} {c : IvCounter} {tot : Nat}
    (h : signalSaveAt info sv = .ok c) (htot : info.tot = tot) : c = IvCounter.init (savedIvs tot sv) := by
  cases sv with
  | none => unfold signalSaveAt at h; rw [htot] at h; exact (Except.ok.inj h).symm
  | some l => exact signalSaveAt_some h

theorem mkSignalPower_ok {info : DiagInfo} {name sig : String} {ex : Option IdxSel}
    {sv : Option (List (Int × Int))} {chan : Option (List Int)} {d : Diag (DData R P V)}
    (h : mkSignalPower info name sig ex sv chan = .ok d) :
    d.name = name ∧ signalSaveAt info sv = .ok d.saveAt ∧ exportCounter info ex = .ok d.exportAt ∧
      d.data = .power sig chan ((List.range info.tot).map fun _ => none) := by
  unfold mkSignalPower at h
  cases h1 : signalSaveAt info sv with
  | error x => rw [h1] at h; cases h
  | ok c =>
    cases h2 : exportCounter info ex with
    | error x => rw [h1, h2] at h; cases h
    | ok e =>
      rw [h1, h2] at h
      cases h
      exact ⟨rfl, rfl, rfl, by simp [List.map_const']⟩

theorem mkSignalPowerRatio_ok {info : DiagInfo} {name na nb : String} {ex : Option IdxSel}
    {sv : Option (List (Int × Int))} {ca cb : Option (List Int)} {d : Diag (DData R P V)}
    (h : mkSignalPowerRatio info name na nb ex sv ca cb = .ok d) :
    d.name = name ∧ signalSaveAt info sv = .ok d.saveAt ∧ exportCounter info ex = .ok d.exportAt ∧
      d.data = .ratio na ca nb cb info.smoothing ((List.range info.tot).map fun _ => none) := by
  unfold mkSignalPowerRatio at h
  cases h1 : signalSaveAt info sv with
  | error x => rw [h1] at h; cases h
  | ok c =>
    cases h2 : exportCounter info ex with
    | error x => rw [h1, h2] at h; cases h
    | ok e =>
      rw [h1, h2] at h
      cases h
      exact ⟨rfl, rfl, rfl, by simp [List.map_const']⟩

theorem DiagRun.signal_power {ok : String → Prop} {T : Tape R} {pf : Nat → Option P}
    (hR : DiagRun cfg ds0 st0 fin ok T pf)
    {info : DiagInfo} {name sig : String} {ex : Option IdxSel} {sv : Option (List (Int × Int))}
    {num : Nat} {chan : Option (List Int)} {rows : List Nat} {d : Diag (DData R P V)}
    (hd : mkSignalPower info name sig ex sv chan = .ok d) (hmem : d ∈ ds0)
    (htot : info.tot = cfg.tot) {ivs : List (Int × Int)} (hivs : ivs = savedIvs cfg.tot sv)
    (hinc : Increasing 0 ivs) (hend : ∀ q ∈ ivs, q.2 ≤ cfg.tot)
    (hsig : cfg.dims sig = some num) (hrows : chanRows num chan = some rows) (hne : rows ≠ []) (hok : ok sig) :
    ∃ d' ∈ fin.diags, d'.name = name ∧ ∃ pw : List (Option R), d'.data = .power sig chan pw ∧
      pw.length = cfg.tot ∧ ∀ t < cfg.tot,
        (Covered ivs t → ∃ x, cfg.PowerAt st0 sig rows t x ∧ pw[t]? = some (some x)) ∧
        (¬ Covered ivs t → pw[t]? = some none) := by
  obtain ⟨h1, h2, h3, h4⟩ := mkSignalPower_ok hd
  subst hivs
  rw [htot] at h4
  obtain ⟨ps, href, ⟨d', hd', hn, hdd⟩, _⟩ := hR.rowRecorded hmem (savedIvs_counter h2 htot) hinc hend h4
    (power_saver cfg.dims T cfg.tot sig num hsig chan rows hrows hne) fun _ hn => by rw [h4] at hn; cases List.mem_singleton.1 hn; exact hok
  refine ⟨d', hd', hn.trans h1, _, hdd, by simp, ?_⟩
  intro t ht
  rw [List.getElem?_map, List.getElem?_range ht, Option.map_some]
  have hs := lastPiece_spec (fun _ t => tapePower T sig rows ((t : Int) - 1)) t ps none
  rw [href.covered] at hs
  refine ⟨fun hc => ?_, fun hc => by rw [hs.2 hc]⟩
  obtain ⟨q, _, _, _, hq⟩ := hs.1 hc
  exact ⟨_, powerAt_of_tape (hR.prod _ hok) hsig hrows (by omega), by rw [hq]⟩

/-- C23, `SignalPower`: at every saved time index the mean over the channels of
the squared produced samples, `nan` elsewhere; no reference to chunks. -/
theorem C23_signal_power (h : CompletedRun cfg lp srcs arr proc f0 ds0 st0 fin)
    {info : DiagInfo} {name sig : String} {ex : Option IdxSel} {sv : Option (List (Int × Int))}
    {num : Nat} {chan : Option (List Int)} {rows : List Nat} {d : Diag (DData R P V)}
    (hd : mkSignalPower info name sig ex sv chan = .ok d) (hmem : d ∈ ds0)
    (htot : info.tot = cfg.tot) {ivs : List (Int × Int)} (hivs : ivs = savedIvs cfg.tot sv)
    (hinc : Increasing 0 ivs) (hend : ∀ q ∈ ivs, q.2 ≤ cfg.tot)
    (hsig : cfg.dims sig = some num) (hrows : chanRows num chan = some rows) (hne : rows ≠ []) :
    ∃ d' ∈ fin.diags, d'.name = name ∧ ∃ pw : List (Option R), d'.data = .power sig chan pw ∧
      pw.length = cfg.tot ∧ ∀ t < cfg.tot,
        (Covered ivs t → ∃ x, cfg.PowerAt st0 sig rows t x ∧ pw[t]? = some (some x)) ∧
        (¬ Covered ivs t → pw[t]? = some none) := by
  obtain ⟨_, _, hR⟩ := h.diagRun
  exact hR.signal_power hd hmem htot hivs hinc hend hsig hrows hne trivial

theorem DiagRun.power_export {ok : String → Prop} {T : Tape R} {pf : Nat → Option P}
    (hR : DiagRun cfg ds0 st0 fin ok T pf)
    {info : DiagInfo} {name sig : String} {ex : Option IdxSel} {sv : Option (List (Int × Int))}
    {num : Nat} {chan : Option (List Int)} {rows : List Nat} {d : Diag (DData R P V)}
    (hd : mkSignalPower info name sig ex sv chan = .ok d) (hmem : d ∈ ds0)
    (htot : info.tot = cfg.tot) {ivs : List (Int × Int)} (hivs : ivs = savedIvs cfg.tot sv)
    (hinc : Increasing 0 ivs) (hend : ∀ q ∈ ivs, q.2 ≤ cfg.tot)
    (hsig : cfg.dims sig = some num) (hrows : chanRows num chan = some rows) (hne : rows ≠ [])
    {ev : Event (DOut R V)} (hev : ev ∈ evOf name fin.log) (hpos : 0 ≤ ev.time) (hok : ok sig) :
    ∃ row : List R, ev.out = .series [row]
        (((List.range ev.time.toNat).filter (Covered ivs ·)).map fun (t : Nat) => (t : Int)) ∧
      List.Forall₂ (fun t x => cfg.PowerAt st0 sig rows t x)
        ((List.range ev.time.toNat).filter (Covered ivs ·)) row := by
  obtain ⟨h1, h2, h3, h4⟩ := mkSignalPower_ok hd
  subst hivs
  rw [htot] at h4
  obtain ⟨ps, href, _, hout⟩ := hR.rowRecorded hmem (savedIvs_counter h2 htot) hinc hend h4
    (power_saver cfg.dims T cfg.tot sig num hsig chan rows hrows hne) fun _ hn => by rw [h4] at hn; cases List.mem_singleton.1 hn; exact hok
  rw [← h1] at hev
  obtain ⟨qs, hqs, hle, hle2, ho⟩ := hout ev hev
  obtain ⟨e, he⟩ := Int.eq_ofNat_of_zero_le hpos
  have he' : ev.time = (e : Int) := he
  rw [he'] at ho hle hle2 ⊢
  rw [Int.toNat_natCast]
  have hrow : ((List.range cfg.tot).map fun t =>
      lastPiece (fun _ t => tapePower T sig rows ((t : Int) - 1)) t qs none) =
      (List.range cfg.tot).map fun t => if decide (Covered qs t) = true then
        some (tapePower T sig rows ((t : Int) - 1)) else none := by
    refine List.map_congr_left fun t _ => ?_
    have hs := lastPiece_spec (fun _ t => tapePower T sig rows ((t : Int) - 1)) t qs none
    by_cases hc : Covered qs t
    · obtain ⟨q, _, _, _, hq⟩ := hs.1 hc
      rw [hq, if_pos (by simpa using hc)]
    · rw [hs.2 hc, if_neg (by simpa using hc)]
  rw [hrow] at ho
  simp only [DData.output] at ho
  have := getUpTo_matOf 1 cfg.tot (by decide) (fun t => decide (Covered qs t))
    (fun _ t => tapePower T sig rows ((t : Int) - 1)) e (by omega)
  unfold matOf at this
  simp only [List.range_one, List.map_cons, List.map_nil] at this
  rw [this] at ho
  simp only [Except.map, Except.ok.injEq] at ho
  have hfil : (List.range e).filter (fun t => decide (Covered qs t)) =
      (List.range e).filter (fun t => decide (Covered (savedIvs cfg.tot sv) t)) := by
    apply List.filter_congr
    intro t ht
    rw [List.mem_range] at ht
    have := covered_prefix (href.increasing hinc) hqs (t := t) (by omega)
    rw [href.covered] at this
    simp only [this]
  rw [hfil] at ho
  refine ⟨_, ho.symm, ?_⟩
  rw [List.forall₂_map_right_iff, List.forall₂_same]
  intro t ht
  rw [List.mem_filter, List.mem_range] at ht
  exact powerAt_of_tape (hR.prod _ hok) hsig hrows (by omega)

/-- C23, exports of `SignalPower`. -/
theorem C23_power_export (h : CompletedRun cfg lp srcs arr proc f0 ds0 st0 fin)
    {info : DiagInfo} {name sig : String} {ex : Option IdxSel} {sv : Option (List (Int × Int))}
    {num : Nat} {chan : Option (List Int)} {rows : List Nat} {d : Diag (DData R P V)}
    (hd : mkSignalPower info name sig ex sv chan = .ok d) (hmem : d ∈ ds0)
    (htot : info.tot = cfg.tot) {ivs : List (Int × Int)} (hivs : ivs = savedIvs cfg.tot sv)
    (hinc : Increasing 0 ivs) (hend : ∀ q ∈ ivs, q.2 ≤ cfg.tot)
    (hsig : cfg.dims sig = some num) (hrows : chanRows num chan = some rows) (hne : rows ≠ [])
    {ev : Event (DOut R V)} (hev : ev ∈ evOf name fin.log) (hpos : 0 ≤ ev.time) :
    ∃ row : List R, ev.out = .series [row]
        (((List.range ev.time.toNat).filter (Covered ivs ·)).map fun (t : Nat) => (t : Int)) ∧
      List.Forall₂ (fun t x => cfg.PowerAt st0 sig rows t x)
        ((List.range ev.time.toNat).filter (Covered ivs ·)) row := by
  obtain ⟨_, _, hR⟩ := h.diagRun
  exact hR.power_export hd hmem htot hivs hinc hend hsig hrows hne hev hpos trivial

/-- C23, `SoundfieldPower` over the samples `[a, b)`: the diagnostic ends up
with the mean square of every channel over these time indices, and this is
what is exported, once, at index `b`. -/
theorem C23_soundfield_power (h : CompletedRun cfg lp srcs arr proc f0 ds0 st0 fin)
    {name sig : String} {num : Nat} {a b : Int} {d : Diag (DData R P V)}
    (hd : mkSoundfieldPower name sig num (a, b) = .ok d) (hmem : d ∈ ds0)
    (ha : 0 ≤ a) (hb : b ≤ cfg.tot) (hsig : cfg.dims sig = some num) :
    ∃ pw : List R, pw.length = num ∧
      (∀ c < num, ∃ vs, List.Forall₂ (fun (k : Nat) v => cfg.Produced st0 sig c (a.toNat + k) v)
          (List.range (b - a).toNat) vs ∧
        pw[c]? = some ((vs.map fun v => v * v).sum / ((b - a).toNat : R))) ∧
      (∃ d' ∈ fin.diags, d'.name = name ∧ ∃ q, d'.data = .sfPower sig q pw) ∧
      (∀ ev ∈ evOf name fin.log, ev.time = b ∧ ev.out = .vec pw) ∧
      (cfg.plotNone = false → (evOf name fin.log).length = 1) := by
  unfold mkSoundfieldPower at hd
  split at hd
  · cases hd
  rename_i hab
  simp only at hab
  cases hd
  obtain ⟨T, pf, hR⟩ := h.diagRun
  obtain ⟨d', hd', hname, ps, xs, href, hsave, hleft, htimes, hout, hnext⟩ :=
    hR.spec _ hmem (fun _ _ => trivial) [(a, b)] rfl ⟨ha, by simp only; omega, trivial⟩ (by simpa using hb)
  have hchain : Chain a ps b := by
    cases href with
    | cons hc hr => cases hr; simpa using hc
  simp only at hsave hout htimes hname hleft
  have hrep : List.replicate num (0 : R) = (List.range num).map fun _ => 0 := by simp [List.map_const']
  rw [hrep] at hsave hout
  have hfin := sf_pieces cfg.dims T _ sig num hsig _ ps a b ha hchain _ _ hsave
  have hxs : ∀ x ∈ xs, x = b := by
    intro x hx
    have : x ∈ (IxCounter.init [b]).left := by
      have e : (IxCounter.init [b]).left = xs ++ d'.exportAt.left := hleft
      rw [e]
      simp [hx]
    rw [IxCounter.left_init] at this
    simpa using this
  refine ⟨_, ?_, ?_, ⟨d', hd', hname, _, hfin⟩, ?_, ?_⟩
  · simp
  · intro c hc
    refine ⟨(List.range (b - a).toNat).map fun (k : Nat) => T sig c (a - 1 + k), ?_, ?_⟩
    · rw [List.forall₂_map_right_iff, List.forall₂_same]
      intro k hk
      have hk' : k < (b - a).toNat := List.mem_range.1 hk
      rw [hR.prod _ trivial _ (by omega)]
      exact ⟨num, hsig, hc, congrArg (T sig c) (by omega)⟩
    · rw [List.getElem?_map, List.getElem?_range hc, Option.map_some, zero_add, List.map_map]
      rfl
  · intro ev hev
    have het : ev.time = b := hxs _ (by rw [← htimes]; exact List.mem_map_of_mem hev)
    refine ⟨het, ?_⟩
    obtain ⟨qs, hqs, dd, hsq, ho, hle, _⟩ := hout ev hev
    have hqe : qs = ps := by
      obtain ⟨rest, hr⟩ := hqs
      cases rest with
      | nil => simpa using hr
      | cons r rest =>
        exfalso
        have hinc : Increasing 0 ps := href.increasing ⟨ha, by simp only; omega, trivial⟩
        have hlt : ∀ (l : List (Int × Int)) (lo : Int), Increasing lo (l ++ r :: rest) → lastEnd lo l ≤ r.1 := by
          intro l
          induction l with
          | nil => intro lo hl; exact hl.1
          | cons q l ih => intro lo hl; exact ih q.2 hl.2.2
        have h1 := hlt qs 0 (by rw [hr]; exact hinc)
        have h2 := hchain.ends_le r (by rw [← hr]; simp)
        omega
    subst hqe
    have hdd := sf_pieces cfg.dims T _ sig num hsig _ qs a b ha hchain _ _ hsq
    rw [hdd] at ho
    exact (Except.ok.inj ho).symm
  · intro hp
    have e : [b] = xs ++ d'.exportAt.left := by
      rw [← IxCounter.left_init [b]]; exact hleft
    have : (evOf name fin.log).length = xs.length := by rw [← htimes, List.length_map]
    rw [this]
    cases hx : d'.exportAt.left with
    | nil => rw [hx, List.append_nil] at e; rw [← e]; rfl
    | cons x rest =>
      have := hnext hp x rest hx
      rw [hx] at e
      have hm : x ∈ [b] := by rw [e]; simp
      have hxb : x = b := by simpa using hm
      have h2 : lastEnd 0 [(a, b)] = b := rfl
      omega

/-- C24, what is computed: the moving averages start anew with every saved
piece.  The value at a saved index `t` is the ratio of the averages of the last
`output_smoothing` powers, where those before some index `s ≤ t` count as
zero; between `s` and `t` everything was saved.  Missing: `s` should be the
start of the run, see `C24_violated`. -/
theorem C24_restart_partial (h : CompletedRun cfg lp srcs arr proc f0 ds0 st0 fin)
    {info : DiagInfo} {name na nb : String} {ex : Option IdxSel} {sv : Option (List (Int × Int))}
    {numa numb : Nat} {ca cb : Option (List Int)} {ra rb : List Nat} {d : Diag (DData R P V)}
    (hd : mkSignalPowerRatio info name na nb ex sv ca cb = .ok d) (hmem : d ∈ ds0)
    (htot : info.tot = cfg.tot) (hq : info.smoothing ≠ 0)
    {ivs : List (Int × Int)} (hivs : ivs = savedIvs cfg.tot sv)
    (hinc : Increasing 0 ivs) (hend : ∀ q ∈ ivs, q.2 ≤ cfg.tot)
    (hsa : cfg.dims na = some numa) (hsb : cfg.dims nb = some numb)
    (hra : chanRows numa ca = some ra) (hrb : chanRows numb cb = some rb) (hna : ra ≠ []) (hnb : rb ≠ []) :
    ∃ d' ∈ fin.diags, d'.name = name ∧ ∃ vals : List (Option (R × R)),
      d'.data = .ratio na ca nb cb info.smoothing vals ∧ vals.length = cfg.tot ∧
      ∃ pa pb : Nat → R, (∀ t < cfg.tot, cfg.PowerAt st0 na ra t (pa t) ∧ cfg.PowerAt st0 nb rb t (pb t)) ∧
      ∀ t < cfg.tot, (Covered ivs t → ∃ s ≤ t, (∀ u, s ≤ u → u ≤ t → Covered ivs u) ∧
          vals[t]? = some (some (avgSince info.smoothing pa s t, avgSince info.smoothing pb s t))) ∧
        (¬ Covered ivs t → vals[t]? = some none) := by
  obtain ⟨h1, h2, h3, h4⟩ := mkSignalPowerRatio_ok hd
  subst hivs
  rw [htot] at h4
  obtain ⟨T, pf, hR⟩ := h.diagRun
  obtain ⟨ps, href, ⟨d', hd', hn, hdd⟩, _⟩ := hR.rowRecorded hmem (savedIvs_counter h2 htot) hinc hend h4
    (ratio_saver cfg.dims T cfg.tot _ hq na nb numa numb hsa hsb ca cb ra rb hra hrb hna hnb) fun _ _ => trivial
  refine ⟨d', hd', hn.trans h1, _, hdd, by simp, fun t => tapePower T na ra ((t : Int) - 1),
    fun t => tapePower T nb rb ((t : Int) - 1), ?_, ?_⟩
  · intro t ht
    exact ⟨powerAt_of_tape (hR.prod _ trivial) hsa hra (by omega), powerAt_of_tape (hR.prod _ trivial) hsb hrb (by omega)⟩
  · intro t ht
    rw [List.getElem?_map, List.getElem?_range ht, Option.map_some]
    have hs := lastPiece_spec (fun (s : Int) t =>
      (avgSince info.smoothing (fun t => tapePower T na ra ((t : Int) - 1)) s.toNat t,
       avgSince info.smoothing (fun t => tapePower T nb rb ((t : Int) - 1)) s.toNat t)) t ps none
    refine ⟨fun hc => ?_, fun hc => by rw [hs.2 (by rw [href.covered]; exact hc)]⟩
    obtain ⟨q, hq1, hq2, hq3, hq4⟩ := hs.1 (by rw [href.covered]; exact hc)
    have hb := (href.increasing hinc).bounds q hq1
    refine ⟨q.1.toNat, by omega, ?_, by rw [hq4]⟩
    intro u hu1 hu2
    rw [← href.covered]
    exact ⟨q, hq1, by omega, by omega⟩

/-- C24 without smoothing: the stored value is the ratio of the powers at that
index. -/
theorem C24_one_partial (h : CompletedRun cfg lp srcs arr proc f0 ds0 st0 fin)
    {info : DiagInfo} {name na nb : String} {ex : Option IdxSel} {sv : Option (List (Int × Int))}
    {numa numb : Nat} {ca cb : Option (List Int)} {ra rb : List Nat} {d : Diag (DData R P V)}
    (hd : mkSignalPowerRatio info name na nb ex sv ca cb = .ok d) (hmem : d ∈ ds0)
    (htot : info.tot = cfg.tot) (hq : info.smoothing = 1)
    {ivs : List (Int × Int)} (hivs : ivs = savedIvs cfg.tot sv)
    (hinc : Increasing 0 ivs) (hend : ∀ q ∈ ivs, q.2 ≤ cfg.tot)
    (hsa : cfg.dims na = some numa) (hsb : cfg.dims nb = some numb)
    (hra : chanRows numa ca = some ra) (hrb : chanRows numb cb = some rb) (hna : ra ≠ []) (hnb : rb ≠ []) :
    ∃ d' ∈ fin.diags, d'.name = name ∧ ∃ vals : List (Option (R × R)),
      d'.data = .ratio na ca nb cb 1 vals ∧ ∀ t < cfg.tot,
        (Covered ivs t → ∃ x y, cfg.PowerAt st0 na ra t x ∧ cfg.PowerAt st0 nb rb t y ∧
          vals[t]? = some (some (x, y))) ∧
        (¬ Covered ivs t → vals[t]? = some none) := by
  obtain ⟨d', g1, g2, vals, g3, g4, pa, pb, g5, g6⟩ := C24_restart_partial h hd hmem htot (by omega) hivs hinc hend
    hsa hsb hra hrb hna hnb
  rw [hq] at g3 g6
  refine ⟨d', g1, g2, vals, g3, fun t ht => ⟨fun hc => ?_, (g6 t ht).2⟩⟩
  obtain ⟨s, hs, _, hv⟩ := (g6 t ht).1 hc
  have h1 : ∀ g : Nat → R, avgSince 1 g s t = g t := by
    intro g
    unfold avgSince
    rw [show min 1 (t - s + 1) = 1 by omega]
    simp
  rw [h1, h1] at hv
  exact ⟨_, _, (g5 t ht).1, (g5 t ht).2, hv⟩

/-- C24, exports: an export at index `e` contains the quotients (numerator and denominator) of
exactly those saved indices below `e` at which not both averages are zero (`0/0` is `nan` and
taken for an empty entry); a zero denominator alone does not drop an entry.  Missing: the start
`s` of the averages, as in `C24_restart_partial`. -/
theorem C24_export_partial (h : CompletedRun cfg lp srcs arr proc f0 ds0 st0 fin)
    {info : DiagInfo} {name na nb : String} {ex : Option IdxSel} {sv : Option (List (Int × Int))}
    {numa numb : Nat} {ca cb : Option (List Int)} {ra rb : List Nat} {d : Diag (DData R P V)}
    (hd : mkSignalPowerRatio info name na nb ex sv ca cb = .ok d) (hmem : d ∈ ds0)
    (htot : info.tot = cfg.tot) (hq : info.smoothing ≠ 0)
    {ivs : List (Int × Int)} (hivs : ivs = savedIvs cfg.tot sv)
    (hinc : Increasing 0 ivs) (hend : ∀ q ∈ ivs, q.2 ≤ cfg.tot)
    (hsa : cfg.dims na = some numa) (hsb : cfg.dims nb = some numb)
    (hra : chanRows numa ca = some ra) (hrb : chanRows numb cb = some rb) (hna : ra ≠ []) (hnb : rb ≠ [])
    {ev : Event (DOut R V)} (hev : ev ∈ evOf name fin.log) (hpos : 0 ≤ ev.time) :
    ∃ pa pb : Nat → R, (∀ t < cfg.tot, cfg.PowerAt st0 na ra t (pa t) ∧ cfg.PowerAt st0 nb rb t (pb t)) ∧
      ∃ val : Nat → R × R,
        (∀ t : Nat, (t : Int) < ev.time → Covered ivs t → ∃ s ≤ t, (∀ u, s ≤ u → u ≤ t → Covered ivs u) ∧
          val t = (avgSince info.smoothing pa s t, avgSince info.smoothing pb s t)) ∧
        ev.out = .ratios
          [((List.range ev.time.toNat).filter fun t => decide (Covered ivs t) && decide (¬ val t = (0, 0))).map val]
          (((List.range ev.time.toNat).filter fun t => decide (Covered ivs t) && decide (¬ val t = (0, 0))).map
            fun (t : Nat) => (t : Int)) := by
  obtain ⟨h1, h2, h3, h4⟩ := mkSignalPowerRatio_ok hd
  subst hivs
  rw [htot] at h4
  obtain ⟨T, pf, hR⟩ := h.diagRun
  obtain ⟨ps, href, _, hout⟩ := hR.rowRecorded hmem (savedIvs_counter h2 htot) hinc hend h4
    (ratio_saver cfg.dims T cfg.tot _ hq na nb numa numb hsa hsb ca cb ra rb hra hrb hna hnb) fun _ _ => trivial
  rw [← h1] at hev
  obtain ⟨qs, hqs, hle, hle2, ho⟩ := hout ev hev
  obtain ⟨e, he⟩ := Int.eq_ofNat_of_zero_le hpos
  have he' : ev.time = (e : Int) := he
  rw [he'] at ho hle hle2 ⊢
  rw [Int.toNat_natCast]
  obtain ⟨G, hG⟩ : ∃ G : Int → Nat → R × R, G = fun (s : Int) t =>
      (avgSince info.smoothing (fun t => tapePower T na ra ((t : Int) - 1)) s.toNat t,
       avgSince info.smoothing (fun t => tapePower T nb rb ((t : Int) - 1)) s.toNat t) := ⟨_, rfl⟩
  rw [← hG] at ho
  have hcov : ∀ t : Nat, t < e → (Covered qs t ↔ Covered (savedIvs cfg.tot sv) t) := by
    intro t ht
    rw [covered_prefix (href.increasing hinc) hqs (t := t) (by omega), href.covered]
  refine ⟨fun t => tapePower T na ra ((t : Int) - 1), fun t => tapePower T nb rb ((t : Int) - 1), ?_,
    fun t => (lastPiece G t qs none).getD (0, 0), ?_, ?_⟩
  · intro t ht
    exact ⟨powerAt_of_tape (hR.prod _ trivial) hsa hra (by omega), powerAt_of_tape (hR.prod _ trivial) hsb hrb (by omega)⟩
  · intro t ht hc
    obtain ⟨q, hq1, hq2, hq3, hq4⟩ := (lastPiece_spec G t qs none).1 ((hcov t (by omega)).2 hc)
    have hb := (href.increasing hinc).bounds q (hqs.subset hq1)
    refine ⟨q.1.toNat, by omega, ?_, ?_⟩
    · intro u hu1 hu2
      rw [← href.covered]
      exact ⟨q, hqs.subset hq1, by omega, by omega⟩
    · show (lastPiece G t qs none).getD (0, 0) = _
      rw [hq4, hG]
      rfl
  · obtain ⟨val, hval⟩ : ∃ val : Nat → R × R, val = fun t => (lastPiece G t qs none).getD (0, 0) := ⟨_, rfl⟩
    rw [← hval]
    have hrow : (((List.range cfg.tot).map fun t => lastPiece G t qs none).map fun o =>
          o.bind fun p => if p.1 = 0 ∧ p.2 = 0 then none else some p) =
        (List.range cfg.tot).map fun t =>
          if (decide (Covered qs t) && decide (¬ val t = (0, 0))) = true then some (val t) else none := by
      rw [List.map_map]
      refine List.map_congr_left fun t _ => ?_
      have hs := lastPiece_spec G t qs none
      simp only [Function.comp, Bool.and_eq_true, decide_eq_true_eq]
      by_cases hc : Covered qs t
      · obtain ⟨q, _, _, _, hq4⟩ := hs.1 hc
        have hv : val t = G q.1 t := by rw [hval]; simp only [hq4, Option.getD_some]
        rw [hq4, hv, Option.bind_some]
        by_cases h0 : G q.1 t = (0, 0)
        · rw [h0, if_pos ⟨rfl, rfl⟩, if_neg (fun hh => hh.2 rfl)]
        · have h0' : ¬ ((G q.1 t).1 = 0 ∧ (G q.1 t).2 = 0) := fun hh => h0 (Prod.ext hh.1 hh.2)
          rw [if_neg h0', if_pos ⟨hc, h0⟩]
      · rw [hs.2 hc, if_neg (by simp [hc])]; rfl
    simp only [DData.output] at ho
    rw [hrow] at ho
    have := getUpTo_matOf 1 cfg.tot (by decide) (fun t => decide (Covered qs t) && decide (¬ val t = (0, 0)))
      (fun _ t => val t) e (by omega)
    unfold matOf at this
    simp only [List.range_one, List.map_cons, List.map_nil] at this
    rw [this] at ho
    simp only [Except.map, Except.ok.injEq] at ho
    have hfil : (List.range e).filter (fun t => decide (Covered qs t) && decide (¬ val t = (0, 0))) =
        (List.range e).filter (fun t => decide (Covered (savedIvs cfg.tot sv) t) && decide (¬ val t = (0, 0))) := by
      apply List.filter_congr
      intro t ht
      rw [List.mem_range] at ht
      simp only [hcov t ht]
    rw [hfil] at ho
    exact ho.symm

end

/-! ### A run with power diagnostics -/

def powSig : Except PyErr (Diag DemoD) := mkSignalPower ⟨6, 3, 1⟩ "power" "mic" none (some [(1, 5)]) none
def powRat1 : Except PyErr (Diag DemoD) := mkSignalPowerRatio ⟨6, 3, 1⟩ "rat1" "mic" "src" none none none none
def powRat2 : Except PyErr (Diag DemoD) := mkSignalPowerRatio ⟨6, 3, 2⟩ "rat2" "mic" "src" none none none none
def powSf : Except PyErr (Diag DemoD) := mkSoundfieldPower "sf" "mic" 1 (1, 6)
theorem powSig_ok : mkSignalPower ⟨6, 3, 1⟩ "power" "mic" none (some [(1, 5)]) none = .ok (okD powSig) := rfl
theorem powRat1_ok : mkSignalPowerRatio ⟨6, 3, 1⟩ "rat1" "mic" "src" none none none none =
    .ok (okD powRat1) := rfl
theorem powRat2_ok : mkSignalPowerRatio ⟨6, 3, 2⟩ "rat2" "mic" "src" none none none none =
    .ok (okD powRat2) := rfl
theorem powSf_ok : mkSoundfieldPower "sf" "mic" 1 (1, 6) = .ok (okD powSf) := rfl
def powDs : List (Diag DemoD) := [okD powSig, okD powRat1, okD powRat2, okD powSf]

def showRatio : DemoO → List (List (ℚ × ℚ))
  | .ratios v _ => v
  | _ => []

theorem pow_admissible (C : Nat) (hC : 2 ≤ C) : Admissible (demoCfg 4 C 6) ((debugProc 6 2).view 2) where
  block := show 1 ≤ 2 by decide
  buffer := show 2 + 1 ≤ 4 by decide
  chunk := by show 1 ≤ C; omega
  proc := by
    intro p hp
    cases hp
    exact ⟨Or.inl hC, show 2 + 2 ≤ 4 + 1 by decide⟩
  valid := debug_valid _ 6 2

instance : DecidableEq (List (ℚ × ℚ)) := inferInstance
instance : DecidableEq (List (List (ℚ × ℚ))) := inferInstance

theorem pow_completed (C : Nat) (hC : 2 ≤ C) {r : List (String × List (List (ℚ × ℚ)))}
    (h0 : ((demoCfg 4 C 6).init (fun _ => 0) () demoProc demoFilt powDs).toOption.isSome = true)
    (h1 : ((demoCfg 4 C 6).run (fun _ => 0) () demoProc demoFilt powDs).toOption.map
      (fun fin => (fin.log.filter fun ev => ev.time == 3).map fun ev => (ev.diag, showRatio ev.out)) = some r) :
    ∃ st0 fin, CompletedRun (demoCfg 4 C 6) ((debugProc 6 2).view 2)
      (fun _ => 0) () demoProc demoFilt powDs st0 fin ∧
      (fin.log.filter fun ev => ev.time == 3).map (fun ev => (ev.diag, showRatio ev.out)) = r := by
  cases h2 : (demoCfg 4 C 6).init (fun _ => 0) () demoProc demoFilt powDs with
  | error x => rw [h2] at h0; cases h0
  | ok st0 =>
    cases h3 : (demoCfg 4 C 6).run (fun _ => 0) () demoProc demoFilt powDs with
    | error x => rw [h3] at h1; cases h1
    | ok fin =>
      rw [h3] at h1
      exact ⟨st0, fin, ⟨pow_admissible C hC, rfl, by decide, h2, h3⟩, Option.some.inj h1⟩

theorem pow_two : ∃ st0 fin, CompletedRun (demoCfg 4 2 6) ((debugProc 6 2).view 2)
      (fun _ => 0) () demoProc demoFilt powDs st0 fin ∧
      (fin.log.filter fun ev => ev.time == 3).map (fun ev => (ev.diag, showRatio ev.out)) =
        [("power", []), ("rat1", [[(1, 1), (16, 4), (49, 9)]]),
         ("rat2", [[(1 / 2, 1 / 2), (17 / 2, 5 / 2), (49 / 2, 9 / 2)]])] :=
  pow_completed 2 (by decide) (by decide +kernel) (by decide +kernel)

theorem pow_eight : ∃ st0 fin, CompletedRun (demoCfg 4 8 6) ((debugProc 6 2).view 2)
      (fun _ => 0) () demoProc demoFilt powDs st0 fin ∧
      (fin.log.filter fun ev => ev.time == 3).map (fun ev => (ev.diag, showRatio ev.out)) =
        [("power", []), ("rat1", [[(1, 1), (16, 4), (49, 9)]]),
         ("rat2", [[(1 / 2, 1 / 2), (17 / 2, 5 / 2), (65 / 2, 13 / 2)]])] :=
  pow_completed 8 (by decide) (by decide +kernel) (by decide +kernel)

/-- C24 fails for a smoothing length of 2: two runs that only differ in the
chunk size export different ratios (49/9 and 65/13 at time index 2). -/
theorem C24_violated : ∃ st0 fin st0' fin',
    CompletedRun (demoCfg 4 2 6) ((debugProc 6 2).view 2) (fun _ => 0) () demoProc demoFilt powDs st0 fin ∧
    CompletedRun (demoCfg 4 8 6) ((debugProc 6 2).view 2) (fun _ => 0) () demoProc demoFilt powDs st0' fin' ∧
    ("rat2", [[(1 / 2, 1 / 2), (17 / 2, 5 / 2), (49 / 2, 9 / 2)]]) ∈
      (fin.log.filter fun ev => ev.time == 3).map (fun ev => (ev.diag, showRatio ev.out)) ∧
    ("rat2", [[(1 / 2, 1 / 2), (17 / 2, 5 / 2), (65 / 2, 13 / 2)]]) ∈
      (fin'.log.filter fun ev => ev.time == 3).map (fun ev => (ev.diag, showRatio ev.out)) ∧
    (49 / 2 : ℚ) / (9 / 2) ≠ (65 / 2) / (13 / 2) := by
  obtain ⟨st0, fin, h, hl⟩ := pow_two
  obtain ⟨st0', fin', h', hl'⟩ := pow_eight
  refine ⟨st0, fin, st0', fin', h, h', by rw [hl]; simp, by rw [hl']; simp, by norm_num⟩

/-- C23: power over `[1, 5)` and the sound field over `[1, 6)`. -/
example : ∃ st0 fin, CompletedRun (demoCfg 4 2 6) ((debugProc 6 2).view 2)
      (fun _ => 0) () demoProc demoFilt powDs st0 fin ∧
    (∃ d' ∈ fin.diags, d'.name = "power" ∧ ∃ pw, d'.data = .power "mic" none pw ∧
      (∃ x, (demoCfg 4 2 6).PowerAt st0 "mic" [0] 4 x ∧ pw[4]? = some (some x)) ∧ pw[5]? = some none) ∧
    ((evOf "sf" fin.log).length = 1) := by
  obtain ⟨st0, fin, h, _⟩ := pow_two
  refine ⟨st0, fin, h, ?_, ?_⟩
  · obtain ⟨d', h1, h2, pw, h3, h4, h5⟩ := C23_signal_power h powSig_ok (by simp [powDs]) rfl
      (ivs := [(1, 5)]) rfl (by simp [Increasing]) (by decide) (num := 1) (rows := [0]) rfl rfl (by decide)
    exact ⟨d', h1, h2, pw, h3, (h5 4 (by decide)).1 (by decide), (h5 5 (by decide)).2 (by decide)⟩
  · obtain ⟨pw, _, _, _, _, h5⟩ := C23_soundfield_power h powSf_ok (by simp [powDs]) (by decide) (by decide) rfl
    exact h5 rfl

/-- C24 without smoothing and with smoothing 2. -/
example : ∃ st0 fin, CompletedRun (demoCfg 4 2 6) ((debugProc 6 2).view 2)
      (fun _ => 0) () demoProc demoFilt powDs st0 fin ∧
    (∃ d' ∈ fin.diags, d'.name = "rat1" ∧ ∃ vals, d'.data = .ratio "mic" none "src" none 1 vals ∧
      ∃ x y, (demoCfg 4 2 6).PowerAt st0 "mic" [0] 4 x ∧ (demoCfg 4 2 6).PowerAt st0 "src" [0] 4 y ∧
        vals[4]? = some (some (x, y))) ∧
    (∃ d' ∈ fin.diags, d'.name = "rat2") := by
  obtain ⟨st0, fin, h, _⟩ := pow_two
  refine ⟨st0, fin, h, ?_, ?_⟩
  · obtain ⟨d', h1, h2, vals, h3, h4⟩ := C24_one_partial h powRat1_ok (by simp [powDs]) rfl rfl
      (ivs := [(0, 6)]) rfl (by simp [Increasing]) (by decide) (numa := 1) (numb := 1) (ra := [0]) (rb := [0])
      rfl rfl rfl rfl (by decide) (by decide)
    exact ⟨d', h1, h2, vals, h3, (h4 4 (by decide)).1 (by decide)⟩
  · obtain ⟨d', h1, h2, _⟩ := C24_restart_partial h powRat2_ok (by simp [powDs]) rfl (by decide)
      (ivs := [(0, 6)]) rfl (by simp [Increasing]) (by decide) (numa := 1) (numb := 1) (ra := [0]) (rb := [0])
      rfl rfl rfl rfl (by decide) (by decide)
    exact ⟨d', h1, h2⟩

/-- C24, an export at index 3 of this run. -/
example : ∃ st0 fin, CompletedRun (demoCfg 4 2 6) ((debugProc 6 2).view 2)
      (fun _ => 0) () demoProc demoFilt powDs st0 fin ∧ ∃ ev ∈ evOf "rat2" fin.log, ev.time = 3 ∧
      ∃ val : Nat → ℚ × ℚ, ev.out = .ratios
        [((List.range 3).filter fun t => decide (Covered [(0, 6)] t) && decide (¬ val t = (0, 0))).map val]
        (((List.range 3).filter fun t => decide (Covered [(0, 6)] t) && decide (¬ val t = (0, 0))).map
          fun (t : Nat) => (t : Int)) := by
  obtain ⟨st0, fin, h, hl⟩ := pow_two
  have hm : ("rat2", [[((1 / 2 : ℚ), (1 / 2 : ℚ)), (17 / 2, 5 / 2), (49 / 2, 9 / 2)]]) ∈
      (fin.log.filter fun ev => ev.time == 3).map (fun ev => (ev.diag, showRatio ev.out)) := by rw [hl]; simp
  obtain ⟨ev, hev, he⟩ := List.mem_map.1 hm
  obtain ⟨hev, ht⟩ := List.mem_filter.1 hev
  have ht : ev.time = 3 := by simpa using ht
  have hmem : ev ∈ evOf "rat2" fin.log := by
    unfold evOf
    rw [List.mem_filter]
    exact ⟨hev, by simpa using congrArg Prod.fst he⟩
  obtain ⟨pa, pb, _, val, _, ho⟩ := C24_export_partial h powRat2_ok (by simp [powDs]) rfl (by decide)
      (ivs := [(0, 6)]) rfl (by simp [Increasing]) (by decide) (numa := 1) (numb := 1) (ra := [0]) (rb := [0])
      rfl rfl rfl rfl (by decide) (by decide) hmem (by rw [ht]; decide)
  rw [ht] at ho
  exact ⟨st0, fin, h, ev, hmem, ht, val, ho⟩

end Verif

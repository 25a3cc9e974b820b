/-
C173, C174, C175: simulations with `FastBlockFxLMS` for every buffer and all secondary paths.
-/
import Verif.Lemmas.FastMic
import Verif.Props.FastRun
namespace Verif

/-! ### Long secondary paths -/

section
variable {R IR F S A V : Type} [Field R] [DecidableEq R] {q : FxPar R} {Sp : IrMat R}
  {cfg : SimCfg R IR F S A (FxSt R) (DData R (FxSt R) V) (DOut R V)} {srcs : String → S} {arr : A} {f0 : F}
  {ds : List (Diag (DData R (FxSt R) V))} {ds' : List (Diag (DData R (FastSt R) V))}
  {fin : SimSt R F S A (FxSt R) (DData R (FxSt R) V) (DOut R V)}

/-- C173. `FastBlockFxLMS` with any secondary paths exports what `FxLMS` exports when given
the first `L - bs` taps of these paths, without warning. -/
theorem C173_long_paths (h : FxScene cfg q) (hdiag : cfg.diag = diagOps R (FxSt R) V) (hnorm : q.norm = .block) (hub : q.ub = q.L)
    (hdvd : q.L ∣ cfg.B) (hB : Holds cfg q (2 * q.L) (cfg.tot + q.bs)) (hds : List.Forall₂ (Diag.Same SameControl) ds ds')
    (hr : cfg.runWith fxPrepare srcs arr (fxInit q (Sp.firstTaps (q.L - q.bs))) f0 ds = .ok fin) :
    ∃ fin', (cfg.withProc (some (fastProc q)) (diagOps R (FastSt R) V)).runWith (fastPrepare q) srcs arr (fastInit q Sp) f0 ds' =
        .ok fin' ∧
      fin'.log = fin.log ∧ List.Forall₂ (fun d d' => d'.name = d.name ∧ ∀ e, d'.data.output e = d.data.output e) fin.diags fin'.diags := by
  have hle : q.bs ≤ q.L := by
    rw [← hub]
    exact Nat.le_of_dvd h.ub.1 h.ub.2
  rw [← fastInit_firstTaps q Sp hle]
  exact C159_same_exports h hdiag hnorm hub (firstTaps_short q Sp hle) hdvd hB hds hr

end

/-! ### Running to the end -/

section
variable {R S A V : Type} [Field R] [DecidableEq R] {q : FxPar R}
  {cfg : SimCfg R (IrMat R) (Fir R) S A (FastSt R) (DData R (FastSt R) V) (DOut R V)}
  {srcs : String → S} {arr : A} {J : A → Prop}

/-- C174. A valid scene with `FastBlockFxLMS` and diagnostics that fit it runs to its end if
the buffer holds two filter lengths at every update. -/
theorem C174_runs_through (h : FastScene cfg q) (hb : Holds cfg q (2 * q.L) (cfg.tot + q.bs)) (hv : ValidScene cfg srcs arr J)
    (Sp : IrMat R) (f0 : Fir R) {ds0 : List (Diag (DData R (FastSt R) V))} (hnd : (ds0.map Diag.name).Nodup)
    (hds : ∀ d ∈ ds0, d.Fits cfg (FastShape q)) (hreads : ∀ d ∈ ds0, ∀ name ∈ d.data.reads, name ≠ "xf") :
    ∃ fin, cfg.runWith (fastPrepare q) srcs arr (fastInit q Sp) f0 ds0 = .ok fin :=
  h.runs hb hv Sp f0 hnd (fun d hd => (hds d hd).mono fun _ hp => ⟨hp.cIn, hp.cOut, hp.cLen⟩) hreads

/-- C174. Otherwise it raises a `ValueError`. -/
theorem C174_raises (h : FastScene cfg q) (hC : q.bs ≤ cfg.C) (hb : ¬ Reaches cfg q (2 * q.L) (cfg.tot + q.bs))
    (hv : ValidScene cfg srcs arr J) (Sp : IrMat R) (f0 : Fir R) {ds0 : List (Diag (DData R (FastSt R) V))}
    (hnd : (ds0.map Diag.name).Nodup) (hds : ∀ d ∈ ds0, d.Fits cfg (FastShape q))
    (hreads : ∀ d ∈ ds0, ∀ name ∈ d.data.reads, name ≠ "xf") :
    cfg.runWith (fastPrepare q) srcs arr (fastInit q Sp) f0 ds0 = .error .value :=
  h.fails hC hb hv Sp f0 hnd (fun d hd => (hds d hd).mono fun _ hp => ⟨hp.cIn, hp.cOut, hp.cLen⟩) hreads

/-- C174. So it runs to its end exactly if the buffer reaches back two filter lengths at every
update. -/
theorem C174_when (h : FastScene cfg q) (hC : q.bs ≤ cfg.C) (hv : ValidScene cfg srcs arr J) (Sp : IrMat R) (f0 : Fir R)
    {ds0 : List (Diag (DData R (FastSt R) V))} (hnd : (ds0.map Diag.name).Nodup) (hds : ∀ d ∈ ds0, d.Fits cfg (FastShape q))
    (hreads : ∀ d ∈ ds0, ∀ name ∈ d.data.reads, name ≠ "xf") :
    (∃ fin, cfg.runWith (fastPrepare q) srcs arr (fastInit q Sp) f0 ds0 = .ok fin) ↔ Reaches cfg q (2 * q.L) (cfg.tot + q.bs) := by
  constructor
  · rintro ⟨fin, hr⟩
    by_contra hb
    rw [C174_raises h hC hb hv Sp f0 hnd hds hreads] at hr
    cases hr
  · intro hb
    exact C174_runs_through h (.inr ⟨hC, hb⟩) hv Sp f0 hnd hds hreads

end

/-! ### What the processor does -/

section
variable {R IR F S A D O : Type} [Field R] {cfg : SimCfg R IR F S A (FastSt R) D O} {q : FxPar R} {Sp : IrMat R}
  {srcs : String → S} {arr : A} {f0 : F} {ds : List (Diag D)} {st0 st : SimSt R F S A (FastSt R) D O} {k : Nat}

theorem fast_before (h : FastScene cfg q) (hN : Names cfg) {e0 : Eng (Tape R) F S A (FastSt R)}
    (he0 : cfg.tInit srcs arr (fastInit q Sp) f0 = .ok e0) (nm : String) (hn : nm ≠ "xf") (c : Nat) (t : Int)
    (ht : t < -(cfg.B : Int)) : (fastStart q Sp cfg.B e0).sig nm c t = 0 := by
  have hB := h.buffer.1
  rw [fastStart_sig hn, tInit_before hN he0 _ _ _ (by omega) ht]

/-- Every sample up to the current one has been recorded. -/
theorem fast_recorded (h : FastScene cfg q) (hi : cfg.initWith (fastPrepare q) srcs arr (fastInit q Sp) f0 ds = .ok st0)
    (hk : cfg.steps k st0 = .ok st) : ∃ ρ e : Nat → Int → R,
      (∀ c < q.nr, ∀ t ≤ (k : Int), cfg.Recorded st0 "ref" c t (ρ c t)) ∧
      (∀ c < q.ne, ∀ t ≤ (k : Int), cfg.Recorded st0 "error" c t (e c t)) := by
  obtain ⟨hN, e, he, hI⟩ := fast_begin h Sp hi
  obtain ⟨te, off, r, hT⟩ := GInv.steps (fast_sizes h hN) hI k hk
  have hd := fast_dims h hN
  exact ⟨fun c t => te.sig "ref" c (t - 1), fun c t => te.sig "error" c (t - 1),
    fun c hc t ht => (fast_recorded_iff h hN hI hk hT.tape (fast_before h hN he) (by decide) hd.ref hc ht).2 rfl,
    fun c hc t ht => (fast_recorded_iff h hN hI hk hT.tape (fast_before h hN he) (by decide) hd.err hc ht).2 rfl⟩

theorem fast_adaptive (h : FastScene cfg q) (hnorm : q.norm = .block) (hS : ShortPaths q Sp)
    (hi : cfg.initWith (fastPrepare q) srcs arr (fastInit q Sp) f0 ds = .ok st0)
    (hk : cfg.steps k st0 = .ok st) {ρ e : Nat → Int → R}
    (hρ : ∀ c < q.nr, ∀ t ≤ (k : Int), cfg.Recorded st0 "ref" c t (ρ c t))
    (he : ∀ c < q.ne, ∀ t ≤ (k : Int), cfg.Recorded st0 "error" c t (e c t)) :
    (∀ l < q.nl, ∀ t ≤ k, cfg.Produced st0 "loudspeaker" l t (adaptiveOut q.bs q.ub q.nr q.L
      (lmsTaps q.norm q.beta q.mu q.nr q.nl q.ne q.L q.ub q.bs (storedFrom Sp (cfg.B % q.L) q.bs ρ) e) ρ l t)) ∧
    (∀ r < q.nr, ∀ l < q.nl, st.eng.proc.ctrl.mat.ir r l = (List.range q.L).map
      (lmsTaps q.norm q.beta q.mu q.nr q.nl q.ne q.L q.ub q.bs (storedFrom Sp (cfg.B % q.L) q.bs ρ) e
        ((k / q.bs - 1) * q.bs / q.ub) r l)) := by
  obtain ⟨hN, e0, h0, hI⟩ := fast_begin h Sp hi
  obtain ⟨te, off, r, hT⟩ := GInv.steps (fast_sizes h hN) hI k hk
  have hd := fast_dims h hN
  have hB := h.buffer.1
  have hbs := h.bs
  have hz := fast_before h hN h0
  have hρ' : ∀ c < q.nr, ∀ t : Int, t < k → te.sig "ref" c t = ρ c (t + 1) := by
    intro c hc t ht
    have := (fast_recorded_iff h hN hI hk hT.tape hz (by decide) hd.ref hc (by omega)).1 (hρ c hc (t + 1) (by omega))
    rwa [add_sub_cancel_right] at this
  have he' : ∀ c < q.ne, ∀ t : Int, t < k → te.sig "error" c t = e c (t + 1) := by
    intro c hc t ht
    have := (fast_recorded_iff h hN hI hk hT.tape hz (by decide) hd.err hc (by omega)).1 (he c hc (t + 1) (by omega))
    rwa [add_sub_cancel_right] at this
  have hpast : ∀ c (t : Int), t < 0 → te.sig "ref" c t = e0.sig "ref" c t := by
    intro c t ht
    have := gSteps_past (n := 0) (e := fastStart q Sp cfg.B e0) rfl (fast_past hd h.ub.1 (name := "ref") (by decide)) k (e' := te)
      (by rw [Nat.zero_add]; exact hT.tape) c t ht
    rw [this, fastStart_sig (by decide)]
  have hdm := Nat.div_add_mod cfg.B q.L
  rw [Nat.mul_comm] at hdm
  have hz' : ∀ c < q.nr, ∀ t : Int, t < -((cfg.B / q.L * q.L : Nat) : Int) - (cfg.B % q.L : Nat) → ρ c (t + 1) = 0 := by
    intro c hc t ht
    have ht' : t < -(cfg.B : Int) := by
      generalize cfg.B / q.L * q.L = z at hdm ht
      omega
    rw [← hρ' c hc t (by omega), hpast c t (by omega), tInit_before hN h0 _ _ _ (by omega) ht']
  have hS0 : ∃ p, FastRel q Sp p (fastStart q Sp cfg.B e0).proc ∧ AInv q Sp (cfg.B % q.L) (cfg.B / q.L * q.L)
      (fun c t => ρ c (t + 1)) (fun c t => e c (t + 1)) 0 p (fastStart q Sp cfg.B e0).sig := by
    obtain ⟨g1, g2⟩ := fastPast_rel (q := q) (S := Sp) h.nr hS h.ub.1 e0.sig (-(cfg.B : Int)) (cfg.B / q.L)
    refine ⟨_, g1, ?_⟩
    have hblk : refBlock q e0.sig (-((cfg.B % q.L : Nat) : Int)) (cfg.B / q.L * q.L) =
        matOf q.nr (cfg.B / q.L * q.L) fun c k => e0.sig "ref" c (-(cfg.B : Int) + k) := by
      unfold refBlock
      refine matOf_congr fun c k _ _ => congrArg (e0.sig "ref" c) ?_
      generalize cfg.B / q.L * q.L = z at hdm ⊢
      omega
    have hb := AInv.begin (ε := fun c t => e c (t + 1)) Sp h.nr hbs (cfg.B % q.L) (cfg.B / q.L * q.L) (T := e0.sig)
      (ρ := fun c t => ρ c (t + 1)) hz' (fun c hc t h1 h2 => by rw [← hρ' c hc t (by omega), hpast c t (by omega)])
      (fun c t => tInit_unwritten hN h0 (fastXf_unwritten h) c t) (fun c t => tInit_unwritten hN h0 (fastLs_unwritten h hN) c t)
    rw [hblk, show -((cfg.B / q.L * q.L : Nat) : Int) - (cfg.B % q.L : Nat) = -(cfg.B : Int) by
      generalize cfg.B / q.L * q.L = z at hdm ⊢
      omega] at hb
    show AInv _ _ _ _ _ _ _ _ (fastPast q Sp e0.sig (-(cfg.B : Int)) (cfg.B / q.L)).2
    rw [g2]
    exact hb
  obtain ⟨p, hR, hA⟩ := fastInv_steps h hN hnorm hS hz' hS0 k hT.tape hρ' he'
  constructor
  · intro l hl t ht
    rw [gProduced_iff (fast_sizes h hN) hI hk hT.tape ht (fast_past _ _ (by decide))]
    refine ⟨q.nl, hd.ls, hl, ?_⟩
    have hdm := Nat.div_add_mod k q.bs
    have hml := Nat.mod_lt k hbs
    rw [Nat.mul_comm] at hdm
    rw [hA.ls l hl ((t : Int) - 1) (by omega)]
    unfold adaptiveOut
    by_cases hb : t < q.bs
    · rw [if_pos (by omega), if_pos hb]
    · rw [if_neg (by omega), if_neg hb]
      unfold stepOut
      have hu : updates q (((t : Int) - 1 + 1).toNat / q.bs - 1) = (t / q.bs - 2) * q.bs / q.ub := by
        unfold updates
        rw [sub_add_cancel, Int.toNat_natCast, Nat.sub_sub]
      rw [hu]
      refine Finset.sum_congr rfl fun r _ => Finset.sum_congr rfl fun x _ => ?_
      rw [stepTaps_gap q hbs]
      congr 1
      unfold fromZero
      by_cases hc : (t : Int) - q.bs - x < 0
      · rw [if_pos hc, if_pos (by omega)]
      · rw [if_neg hc, if_neg (by omega)]
        show ρ r ((t : Int) - 1 - q.bs - x + 1) = _
        congr 1
        omega
  · intro r hr l hl
    have := hA.taps r hr l hl
    rw [hT.eng]
    show te.proc.ctrl.mat.ir r l = _
    rw [hR.ctrl, this]
    exact List.map_congr_left fun x _ => stepTaps_gap q hbs Sp _ ρ e r l x _

/-- C175. From two blocks and the length of the path on, the filtered reference is the one of
the whole reference. -/
theorem C175_transient (S : IrMat R) (a bs : Nat) (hbs : 0 < bs) (ρ : Nat → Int → R) (r l m : Nat) {t : Int}
    (ht : 2 * (bs : Int) + (S.ir l m).length ≤ t + 1) : storedFrom S a bs ρ r l m t = filteredRef S bs ρ r l m t := by
  unfold storedFrom
  rw [if_neg (by omega)]
  split
  · rename_i h
    omega
  · unfold filteredRef
    refine Finset.sum_congr rfl fun x hx => ?_
    rw [Finset.mem_range] at hx
    unfold skippedFrom
    rw [if_neg (by omega)]
    congr 2
    omega

/-- C175. What `FastBlockFxLMS` does, for every buffer and all secondary paths: if the
reference and the error microphones have recorded `ρ` and `e`, the loudspeakers play the
reference one block late through the taps of the filtered-x LMS recursion with one update
and one step size for every `L` samples, and these are the taps of the control filter.  The
filtered reference is that of the first `L - bs` taps of the secondary paths, and the last
`B mod L` samples of the reference before the first step never enter it. -/
theorem C175_adaptive (h : FastScene cfg q) (hi : cfg.initWith (fastPrepare q) srcs arr (fastInit q Sp) f0 ds = .ok st0)
    (hk : cfg.steps k st0 = .ok st) {ρ e : Nat → Int → R}
    (hρ : ∀ c < q.nr, ∀ t ≤ (k : Int), cfg.Recorded st0 "ref" c t (ρ c t))
    (he : ∀ c < q.ne, ∀ t ≤ (k : Int), cfg.Recorded st0 "error" c t (e c t)) :
    (∀ l < q.nl, ∀ t ≤ k, cfg.Produced st0 "loudspeaker" l t (adaptiveOut q.bs q.L q.nr q.L
      (lmsTaps .block q.beta q.mu q.nr q.nl q.ne q.L q.L q.bs
        (storedFrom (Sp.firstTaps (q.L - q.bs)) (cfg.B % q.L) q.bs ρ) e) ρ l t)) ∧
    (∀ r < q.nr, ∀ l < q.nl, st.eng.proc.ctrl.mat.ir r l = (List.range q.L).map
      (lmsTaps .block q.beta q.mu q.nr q.nl q.ne q.L q.L q.bs
        (storedFrom (Sp.firstTaps (q.L - q.bs)) (cfg.B % q.L) q.bs ρ) e ((k / q.bs - 1) * q.bs / q.L) r l)) := by
  have hle : q.bs ≤ q.L := Nat.le_of_dvd h.L h.ub.2
  have hub := h.ub.1
  have hi' : cfg.initWith (fastPrepare { q with norm := .block }) srcs arr
      (fastInit { q with norm := .block } (Sp.firstTaps (q.L - q.bs))) f0 ds = .ok st0 := by
    rw [fastInit_firstTaps { q with norm := .block } Sp hle]
    exact hi
  have := fast_adaptive h.toBlock rfl (firstTaps_short _ Sp hle) hi' hk hρ he
  dsimp only at this
  rw [hub] at this
  exact this

end

section
variable {R S A D O : Type} [Field R] {cfg : SimCfg R (IrMat R) (Fir R) S A (FastSt R) D O} {q : FxPar R} {Sp : IrMat R}
  {srcs : String → S} {arr : A} {f0 : Fir R} {ds : List (Diag D)} {st0 st : SimSt R (Fir R) S A (FastSt R) D O} {k : Nat}

/-- C175. And every microphone hears, at every time index, the sum over all sources of their
signals through the impulse responses in force, where the sources play their streams and the
loudspeakers what the adaptive filter makes of `ρ` and `e`, and with
`save_source_contributions` every contribution is the part of one source. -/
theorem C175_closed_loop (h : FastScene cfg q) (hi : cfg.initWith (fastPrepare q) srcs arr (fastInit q Sp) f0 ds = .ok st0)
    (hk : cfg.steps k st0 = .ok st) (hfilt : cfg.filt = firOps R) (hpos : ∀ a ∈ cfg.arrays, 0 < a.num)
    (hsh : cfg.PathShape arr) {x : String → Nat → Nat → R}
    (hx : ∀ a ∈ cfg.arrays, a.kind = .free → IsStream cfg.srcGet (srcs a.name) a.num (x a.name)) {ρ e : Nat → Int → R}
    (hρ : ∀ c < q.nr, ∀ t ≤ (k : Int), cfg.Recorded st0 "ref" c t (ρ c t))
    (he : ∀ c < q.ne, ∀ t ≤ (k : Int), cfg.Recorded st0 "error" c t (e c t))
    {m : ArrInfo} (hm : m ∈ cfg.arrays) (hmic : m.kind = .mic) :
    ∀ t ≤ k, ∃ ir : String → IrMat R,
      (∀ s ∈ cfg.arrays, s.kind ≠ .mic → cfg.IrAt arr s m t (ir s.name)) ∧
      ∀ c < m.num,
        cfg.Produced st0 m.name c t (convSum (cfg.arrays.filter fun s => s.kind != .mic) ir
          (cfg.playedWith x (adaptiveOut q.bs q.L q.nr q.L
            (lmsTaps .block q.beta q.mu q.nr q.nl q.ne q.L q.L q.bs
              (storedFrom (Sp.firstTaps (q.L - q.bs)) (cfg.B % q.L) q.bs ρ) e) ρ)) c t) ∧
        (cfg.contrib = true → ∀ s ∈ cfg.arrays, s.kind ≠ .mic →
          cfg.Produced st0 (s.name ++ "~" ++ m.name) c t (convSum [s] ir
            (cfg.playedWith x (adaptiveOut q.bs q.L q.nr q.L
              (lmsTaps .block q.beta q.mu q.nr q.nl q.ne q.L q.L q.bs
                (storedFrom (Sp.firstTaps (q.L - q.bs)) (cfg.B % q.L) q.bs ρ) e) ρ)) c t)) := by
  obtain ⟨hlsp, -⟩ := C175_adaptive h hi hk hρ he
  obtain ⟨hN, e0, he0, hI⟩ := fast_begin h Sp hi
  obtain ⟨te, off, r, hT⟩ := GInv.steps (fast_sizes h hN) hI k hk
  have hd := fast_dims h hN
  have hB := h.buffer.1
  have hmm : m ∈ micsOf cfg.arrays := by
    unfold micsOf; rw [List.mem_filter]; exact ⟨hm, by simpa using hmic⟩
  generalize hY : adaptiveOut q.bs q.L q.nr q.L
    (lmsTaps .block q.beta q.mu q.nr q.nl q.ne q.L q.L q.bs (storedFrom (Sp.firstTaps (q.L - q.bs)) (cfg.B % q.L) q.bs ρ) e) ρ = Y at hlsp ⊢
  have hlst : ∀ l < q.nl, ∀ t : Int, t ≤ k → te.sig "loudspeaker" l (t - 1) = if t < 0 then 0 else Y l t.toNat := by
    intro l hl t ht
    by_cases h0 : t < 0
    · rw [if_pos h0]
      have := gSteps_past (n := 0) (e := fastStart q Sp cfg.B e0) rfl (fast_past hd h.ub.1 (name := "loudspeaker") (by decide)) k (e' := te)
        (by rw [Nat.zero_add]; exact hT.tape) l (t - 1) (by simp; omega)
      rw [this, fastStart_sig (by decide), tInit_unwritten hN he0 (fastLs_unwritten h hN)]
    · rw [if_neg h0]
      have := hlsp l hl t.toNat (by omega)
      rw [gProduced_iff (fast_sizes h hN) hI hk hT.tape (by omega) (fast_past _ _ (by decide))] at this
      obtain ⟨_, _, _, g⟩ := this
      rwa [Int.toNat_of_nonneg (by omega)] at g
  have hsrc : ∀ s ∈ sourcesOf cfg.arrays, ∀ i < s.num, ∀ t : Int, t ≤ k →
      (if -(cfg.prepNum : Int) < t then te.sig s.name i (t - 1) else 0) = cfg.playedWith x Y s.name i t := by
    intro s hs i hi t ht
    unfold SimCfg.playedWith
    by_cases hn : s.name = "loudspeaker"
    · have hnum : s.num = q.nl := by
        have h1 := hN.arr s (mem_sourcesOf hs).1
        rw [hn, hd.ls] at h1
        exact (Option.some.inj h1).symm
      have hpn : 1 ≤ cfg.prepNum := by unfold SimCfg.prepNum; split <;> omega
      rw [if_pos hn, hn, hlst i (by omega) t ht]
      by_cases h0 : t < 0
      · rw [if_pos h0, ite_self]
      · rw [if_neg h0, if_pos (by omega)]
    · rw [if_neg hn]
      exact fast_played h hN hx he0 hT.tape hs hn hi ht
  have hval : ∀ s ∈ sourcesOf cfg.arrays, ∀ (ir : IrMat R) (t c : Nat), t ≤ k → ir.numIn = s.num →
      firOut ir (histAt te.sig s cfg.prepNum t) c = ((List.range s.num).map fun i =>
        ((List.range (ir.ir i c).length).map fun k =>
          (ir.ir i c).getD k 0 * cfg.playedWith x Y s.name i (t - k)).sum).sum := by
    intro s hs ir t c ht hin
    rw [firOut_histAt _ _ _ _ _ _ hin]
    congr 1
    refine List.map_congr_left fun i hi => ?_
    congr 1
    refine List.map_congr_left fun j _ => ?_
    congr 1
    rw [← hsrc s hs i (by simpa using hi) _ (by omega)]
    by_cases hj : (j : Int) < t + cfg.prepNum
    · rw [if_pos hj, if_pos (by omega)]
      exact congrArg (te.sig s.name i) (by omega)
    · rw [if_neg hj, if_neg (by omega)]
  intro t ht
  obtain ⟨ir, g1, g2⟩ := fast_fir h hN hfilt hpos hsh hmm he0 hT.tape ht
  have hmem : ∀ s ∈ cfg.arrays, s.kind ≠ .mic → s ∈ sourcesOf cfg.arrays := by
    intro s hs hsk
    unfold sourcesOf; rw [List.mem_filter]; exact ⟨hs, by simpa using hsk⟩
  refine ⟨ir, fun s hs hsk => (g1 s (hmem s hs hsk)).1, ?_⟩
  intro c hc
  refine ⟨?_, ?_⟩
  · rw [gProduced_iff (fast_sizes h hN) hI hk hT.tape ht (fast_past _ _ (h.own m hm))]
    refine ⟨m.num, hN.arr m hm, hc, ?_⟩
    rw [g2 c hc]
    unfold convSum
    congr 1
    exact List.map_congr_left fun s hs => hval s hs _ t c ht (g1 s hs).2
  · intro hcon s hs hsk
    have hss := hmem s hs hsk
    obtain ⟨ir', q1, q2, q3⟩ := fast_pair h hN hcon hfilt hpos hsh hmm hss he0 hT.tape ht
    have hq : ir' = ir s.name := IrAt.unique q1 (g1 s hss).1
    subst hq
    refine (gProduced_iff (fast_sizes h hN) hI hk hT.tape ht (fast_past _ _ (contribName_ne_xf s m).symm)).2 ?_
    refine ⟨m.num, hN.con hcon (s, m) (mem_combosOf.2 ⟨hss, hmm⟩), hc, ?_⟩
    refine (q3 c hc).trans ?_
    unfold convSum
    rw [List.map_singleton, List.sum_singleton]
    exact hval s hss _ t c ht q2

end

/-! ### Examples -/

theorem fastCfg_scene {B C bs L : Nat} {norm : FxNorm} {a b s : List ℚ} (h1 : 0 < L) (h2 : 0 < bs ∧ bs ∣ L)
    (h3 : 1 ≤ C ∧ (2 ≤ C ∨ bs ≤ C)) (h4 : bs + 1 ≤ B ∧ 2 * L ≤ B + C) :
    FastScene (fastCfg (fxCfg B C (fxDemo bs L L norm) a b s) (fxDemo bs L L norm)) (fxDemo bs L L norm) := by
  have h : FxScene (fxCfg B C (fxDemo bs L L norm) a b s) (fxDemo bs L L norm) :=
    fxCfg_scene h1 h2.1 ⟨h1, h2.2⟩ h3 ⟨h4.1, by omega⟩
  exact ⟨rfl, h.ref, h.err, h.ls, h.own, h.nr, h.nl, h.ne, h.L, h.bs, ⟨rfl, h2.2⟩, h3, h4, regular_pos one_pos⟩

theorem fastCfg_valid (B C : Nat) (q : FxPar ℚ) (a b s : List ℚ) :
    ValidScene (fastCfg (fxCfg B C q a b s) q) (fun _ => 0) () (fun _ => True) :=
  have h := fxCfg_valid B C q a b s
  ⟨rfl, h.filt, h.names, h.channels, h.streams, h.arr0, h.moves, h.paths⟩

theorem fastAll_fits (B C bs L : Nat) (norm : FxNorm) (a b s : List ℚ) (hL : 0 < L) :
    ∀ d ∈ fastAll L, d.Fits (fastCfg (fxCfg B C (fxDemo bs L L norm) a b s) (fxDemo bs L L norm)) (FastShape (fxDemo bs L L norm)) := by
  have hone : ∀ (x : Int), 0 ≤ x → ∀ e ∈ [x], 0 ≤ e := by
    intro x hx e he
    rw [List.mem_singleton] at he
    rw [he]; exact hx
  have hex : ∀ (x y : Int), 0 ≤ x → 0 ≤ y → ∀ e ∈ [x, y], 0 ≤ e := by
    intro x y hx hy e he
    simp only [List.mem_cons, List.not_mem_nil, or_false] at he
    rcases he with rfl | rfl <;> assumption
  intro d hd
  simp only [fastAll, List.mem_cons, List.not_mem_nil, or_false] at hd
  rcases hd with rfl | rfl | rfl | rfl | rfl | rfl | rfl | rfl
  · exact ⟨[(0, 8)], rfl, by simp [Increasing], by simp [fxCfg, SimCfg.withProc], hex _ _ (by omega) (by omega),
      .recSignal (rows := [0]) (num := 1) rfl rfl (by simp)⟩
  · exact ⟨[(1, 2), (3, 4), (7, 8)], rfl, by simp [Increasing], by simp [fxCfg, SimCfg.withProc], hex _ _ (by omega) (by omega),
      .recState rfl hL (fun p hp => ⟨_, rfl, hp.2.2 0 Nat.one_pos 0 Nat.one_pos⟩) (by simp) (by decide)⟩
  · exact ⟨[(0, 3), (4, 5)], rfl, by simp [Increasing], by simp [fxCfg, SimCfg.withProc], hone _ (by omega),
      .power (rows := [0]) (num := 1) rfl rfl (by simp)⟩
  · exact ⟨[(0, 8)], rfl, by simp [Increasing], by simp [fxCfg, SimCfg.withProc], hone _ (by omega),
      .ratio (ra := [0]) (rb := [0]) (numa := 1) (numb := 1) rfl rfl (by simp) rfl rfl (by simp) (by decide)⟩
  · exact ⟨[(2, 3)], rfl, by simp [Increasing], by simp [fxCfg, SimCfg.withProc], hone _ (by omega), .instant rfl fun p _ => ⟨_, rfl⟩⟩
  · exact ⟨[(0, 4)], rfl, by simp [Increasing], by simp [fxCfg, SimCfg.withProc], hone _ (by omega), .sfPower rfl rfl⟩
  · exact ⟨[(1, 5)], rfl, by simp [Increasing], by simp [fxCfg, SimCfg.withProc], hone _ (by omega),
      .spectrum (rows := [0]) (num := 1) (a := 1) (b := 5) rfl rfl rfl⟩
  · exact ⟨[(0, 5)], rfl, by simp [Increasing], by simp [fxCfg, SimCfg.withProc], hone _ (by omega),
      .summary (num := 1) rfl (fun v => ⟨_, rfl⟩) (by decide)⟩

theorem fastAll_reads (L : Nat) : ∀ d ∈ fastAll L, ∀ name ∈ d.data.reads, name ≠ "xf" := by
  intro d hd
  simp only [fastAll, List.mem_cons, List.not_mem_nil, or_false] at hd
  rcases hd with rfl | rfl | rfl | rfl | rfl | rfl | rfl | rfl <;> simp [DData.reads]

/-- C173, all sizes and secondary paths of any length. -/
example (m C bs L : Nat) (a b s : List ℚ) (h1 : 0 < L) (h2 : 0 < bs ∧ bs ∣ L) (h4 : 2 ≤ C) (h5 : 3 ≤ m) :
    ∃ fin fin', (fxCfg (m * L) C (fxDemo bs L L .block) a b s).runWith fxPrepare (fun _ => 0) ()
        (fxInit (fxDemo bs L L .block) (fxSec (s.take (L - bs)))) demoFilt (fxAll L) = .ok fin ∧
      (fastCfg (fxCfg (m * L) C (fxDemo bs L L .block) a b s) (fxDemo bs L L .block)).runWith (fastPrepare (fxDemo bs L L .block))
        (fun _ => 0) () (fastInit (fxDemo bs L L .block) (fxSec s)) demoFilt (fastAll L) = .ok fin' ∧ fin'.log = fin.log := by
  have hle : bs ≤ L := Nat.le_of_dvd h1 h2.2
  have hm : 3 * L ≤ m * L := Nat.mul_le_mul_right L h5
  have hsc : FxScene (fxCfg (m * L) C (fxDemo bs L L .block) a b s) (fxDemo bs L L .block) :=
    fxCfg_scene h1 h2.1 ⟨h1, h2.2⟩ ⟨by omega, .inl h4⟩ ⟨by omega, by omega⟩
  have hv := fxCfg_valid (m * L) C (fxDemo bs L L .block) a b s
  obtain ⟨fin, hr⟩ := C157_adaptive_runs_through hsc (.inl (show L + L - 1 + bs ≤ m * L + 1 by omega)) hv
    (fxSec (s.take (L - bs))) demoFilt (by simp [fxAll]) (fxAll_fits (m * L) C bs L L .block a b s h1) (by
      intro d hd
      simp only [fxAll, List.mem_cons, List.not_mem_nil, or_false] at hd
      rcases hd with rfl | rfl | rfl | rfl | rfl | rfl | rfl | rfl <;> simp [DData.reads])
  obtain ⟨fin', g1, g2, -⟩ := C173_long_paths (Sp := fxSec s) hsc hv.diag rfl rfl ⟨m, Nat.mul_comm m L⟩
    (.inl (show 2 * L + bs ≤ m * L + 1 by omega)) (fastAll_same L) hr
  exact ⟨fin, fin', hr, g1, g2⟩

/-- C174: blocks of one sample, a control filter of 2 taps and chunks of 5 samples.  With a buffer
of 4 samples the simulation runs through, and so it does with a buffer of 3, where the updates
come early in no chunk; with chunks of 4 samples it raises. -/
example (s a b : List ℚ) :
    (∃ fin, (fastCfg (fxCfg 4 5 (fxDemo 1 2 2 .block) a b s) (fxDemo 1 2 2 .block)).runWith (fastPrepare (fxDemo 1 2 2 .block))
      (fun _ => 0) () (fastInit (fxDemo 1 2 2 .block) (fxSec s)) demoFilt (fastAll 2) = .ok fin) ∧
    (∃ fin, (fastCfg (fxCfg 3 5 (fxDemo 1 2 2 .block) a b s) (fxDemo 1 2 2 .block)).runWith (fastPrepare (fxDemo 1 2 2 .block))
      (fun _ => 0) () (fastInit (fxDemo 1 2 2 .block) (fxSec s)) demoFilt (fastAll 2) = .ok fin) ∧
    (fastCfg (fxCfg 3 4 (fxDemo 1 2 2 .block) a b s) (fxDemo 1 2 2 .block)).runWith (fastPrepare (fxDemo 1 2 2 .block))
      (fun _ => 0) () (fastInit (fxDemo 1 2 2 .block) (fxSec s)) demoFilt (fastAll 2) = .error .value := by
  have hs : ∀ B C, 2 ≤ C → 2 ≤ B → 4 ≤ B + C →
      FastScene (fastCfg (fxCfg B C (fxDemo 1 2 2 .block) a b s) (fxDemo 1 2 2 .block)) (fxDemo 1 2 2 .block) :=
    fun B C hC hB hBC => fastCfg_scene (by decide) (by decide) ⟨by omega, .inl hC⟩ ⟨hB, hBC⟩
  have hm : ∀ B C, (fastCfg (fxCfg B C (fxDemo 1 2 2 .block) a b s) (fxDemo 1 2 2 .block)).mbs = 1 := fun _ _ => rfl
  refine ⟨C174_runs_through (hs 4 5 (by decide) (by decide) (by decide)) (.inl (show 2 * 2 + 1 ≤ 4 + 1 by decide)) (fastCfg_valid 4 5 _ a b s) _ _
      (by simp [fastAll]) (fastAll_fits 4 5 1 2 .block a b s (by decide)) (fastAll_reads 2),
    (C174_when (hs 3 5 (by decide) (by decide) (by decide)) (show 1 ≤ 5 by decide) (fastCfg_valid 3 5 _ a b s) _ _
      (by simp [fastAll]) (fastAll_fits 3 5 1 2 .block a b s (by decide)) (fastAll_reads 2)).2 ?_,
    C174_raises (hs 3 4 (by decide) (by decide) (by decide)) (show 1 ≤ 4 by decide) ?_ (fastCfg_valid 3 4 _ a b s) _ _
      (by simp [fastAll]) (fastAll_fits 3 4 1 2 .block a b s (by decide)) (fastAll_reads 2)⟩
  · intro k hk _
    have hk' : k < 9 := hk
    unfold looksBack SimCfg.indexAt
    rw [hm]
    show (if 0 < k + 1 - 1 ∧ 2 ∣ k + 1 - 1 then 4 else 1) ≤ 3 + 1 - 1 + (k + 1 - 1) % 5
    split
    · omega
    · omega
  · intro h
    have := h 4 (show 4 < 9 by decide) (by decide)
    unfold looksBack SimCfg.indexAt at this
    rw [hm] at this
    exact absurd (show (if 0 < 4 + 1 - 1 ∧ 2 ∣ 4 + 1 - 1 then 4 else 1) ≤ 3 + 1 - 1 + (4 + 1 - 1) % 4 from this) (by decide)

/-- C175, all sizes and paths: the simulation runs, so that the theorems apply. -/
example (B C bs L : Nat) (norm : FxNorm) (a b s : List ℚ) (h1 : 0 < L) (h2 : 0 < bs ∧ bs ∣ L) (h4 : 2 ≤ C)
    (h5 : 2 * L + bs ≤ B + 1) : ∃ st0 st, ∃ ρ e : Nat → Int → ℚ,
    (fastCfg (fxCfg B C (fxDemo bs L L norm) a b s) (fxDemo bs L L norm)).initWith (fastPrepare (fxDemo bs L L norm))
      (fun _ => 0) () (fastInit (fxDemo bs L L norm) (fxSec s)) demoFilt (fastAll L) = .ok st0 ∧
    (fastCfg (fxCfg B C (fxDemo bs L L norm) a b s) (fxDemo bs L L norm)).steps (8 + bs) st0 = .ok st ∧
    (∀ t ≤ 8 + bs, (fastCfg (fxCfg B C (fxDemo bs L L norm) a b s) (fxDemo bs L L norm)).Produced st0 "loudspeaker" 0 t
      (adaptiveOut bs L 1 L (lmsTaps .block 1 (1/2) 1 1 1 L L bs (storedFrom (fxSec (s.take (L - bs))) (B % L) bs ρ) e) ρ 0 t)) := by
  have hle : bs ≤ L := Nat.le_of_dvd h1 h2.2
  have hsc : FastScene (fastCfg (fxCfg B C (fxDemo bs L L norm) a b s) (fxDemo bs L L norm)) (fxDemo bs L L norm) :=
    fastCfg_scene h1 h2 ⟨by omega, .inl h4⟩ ⟨by omega, by omega⟩
  obtain ⟨fin, hr⟩ := C174_runs_through hsc (.inl (show 2 * L + bs ≤ B + 1 from h5)) (fastCfg_valid B C _ a b s)
    (fxSec s) demoFilt (by simp [fastAll]) (fastAll_fits B C bs L norm a b s h1) (fastAll_reads L)
  unfold SimCfg.runWith at hr
  split at hr
  · cases hr
  · rename_i st0 hst0
    split at hr
    · cases hr
    · rename_i st hst
      rw [hsc.mbs] at hst
      obtain ⟨ρ, e, hρ, he⟩ := fast_recorded hsc hst0 hst
      exact ⟨st0, st, ρ, e, hst0, hst, (C175_adaptive hsc hst0 hst hρ he).1 0 Nat.one_pos⟩

end Verif

/-
Simulations with `FastBlockFxLMS` that run to their end, or raise.
-/
import Verif.Lemmas.FastTape
import Verif.Lemmas.AdaptiveShort
import Verif.Spec.Fast
namespace Verif

section
variable {R IR F S A D O : Type} [Field R] {cfg : SimCfg R IR F S A (FastSt R) D O} {q : FxPar R}

theorem fast_dims (h : FastScene cfg q) (hN : Names cfg) : FxDims q cfg.dims where
  ref := by obtain ⟨a, ha, hn, _, hm⟩ := h.ref; rw [← hn, hN.arr a ha, hm]
  ls := by obtain ⟨a, ha, hn, _, hm⟩ := h.ls; rw [← hn, hN.arr a ha, hm]
  err := by obtain ⟨a, ha, hn, _, hm⟩ := h.err; rw [← hn, hN.arr a ha, hm]
  xf := by
    have hb : ∀ b ∈ cfg.arrays.map (fun a => (a.name, a.num)) ++
        (if cfg.contrib then (combosOf cfg.arrays).map fun p => (contribName p.1 p.2, p.2.num) else []), b.1 ≠ "xf" := by
      intro b hb
      rw [List.mem_append] at hb
      rcases hb with hb | hb
      · rw [List.mem_map] at hb
        obtain ⟨a, ha, rfl⟩ := hb
        exact h.own a ha
      · split at hb
        · rw [List.mem_map] at hb
          obtain ⟨p, _, rfl⟩ := hb
          exact (contribName_ne_xf p.1 p.2).symm
        · cases hb
    unfold SimCfg.dims SimCfg.signalList
    rw [h.proc]
    simp only
    rw [List.find?_append, List.find?_eq_none.2 (fun b hb' => by simpa using hb b hb'), Option.none_or]
    have : (fastProc q).extra = [("xf", q.nr * q.nl * q.ne)] := rfl
    rw [this, List.filter_cons_of_pos]
    · simp
    · simp only [Bool.not_eq_true', List.any_eq_false]
      intro b hb'
      simpa using hb b hb'
  nr := h.nr
  nl := h.nl
  ne := h.ne
  L := h.L
  bs := h.bs
  ub := by rw [h.ub.1]; exact Nat.le_of_dvd h.L h.ub.2

theorem fast_sizes (h : FastScene cfg q) (hN : Names cfg) : GSizes cfg (fastTape (fast_dims h hN) h.ub.1) where
  proc := h.proc
  block := h.bs
  buffer := h.buffer.1
  chunk := h.chunk.1
  fits := h.chunk.2
  look := h.buffer.2

theorem fast_past {dims : String → Option Nat} (hd : FxDims q dims) (hub : q.ub = q.L) {name : String} (hn : name ≠ "xf") :
    (fastTape hd hub).Past name := by
  intro p T n c t ht
  exact fastAct_sig q p T n name c t (fun _ => .inl ht) (fun he => absurd he hn)

theorem fast_leaves {dims : String → Option Nat} (hd : FxDims q dims) (hub : q.ub = q.L) {name : String} (hn : name ≠ "xf")
    (hl : name ≠ "loudspeaker") : (fastTape hd hub).Leaves name := by
  intro p T n c t
  exact fastAct_sig q p T n name c t (fun he => absurd he hl) (fun he => absurd he hn)

theorem fastLs_ne (h : FastScene cfg q) (hN : Names cfg) {a : ArrInfo} (ha : a ∈ cfg.arrays) (hk : a.kind ≠ .ctrl) :
    a.name ≠ "loudspeaker" := by
  obtain ⟨l, hl, hn, hkl, _⟩ := h.ls
  intro he
  rw [hN.inj a ha l hl (by rw [he, hn])] at hk
  exact hk hkl

theorem fastLs_unwritten (h : FastScene cfg q) (hN : Names cfg) : Unwritten cfg "loudspeaker" := by
  obtain ⟨a, ha, hn, hk, _⟩ := h.ls
  have hs : a ∈ sourcesOf cfg.arrays := by
    unfold sourcesOf; rw [List.mem_filter]; exact ⟨ha, by rw [hk]; rfl⟩
  obtain ⟨n1, n2⟩ := src_ne hN hs
  rw [hn] at n1 n2
  refine ⟨?_, n2, n1⟩
  intro x hx he
  obtain ⟨h3, h4⟩ := mem_freeOf hx
  have := hN.inj a ha x h3 (by rw [hn, he])
  rw [this, h4] at hk
  cases hk

/-- The state before step 0 on the tape. -/
def fastStart (q : FxPar R) (Sp : IrMat R) (B : Nat) (e : Eng (Tape R) F S A (FastSt R)) : Eng (Tape R) F S A (FastSt R) :=
  { e with
    sig := (fastPast q Sp e.sig (-(B : Int)) (B / q.L)).2
    proc := (fastPast q Sp e.sig (-(B : Int)) (B / q.L)).1 }

theorem fastStart_sig {Sp : IrMat R} {name : String} (hn : name ≠ "xf") (B : Nat) (e : Eng (Tape R) F S A (FastSt R)) (c : Nat) (t : Int) :
    (fastStart q Sp B e).sig name c t = e.sig name c t :=
  fastPast_sig q Sp e.sig _ name c t _ (fun he => absurd he hn)

theorem fastInit_good (q : FxPar R) (hub : q.ub = q.L) (Sp : IrMat R) : FastGood q (fastInit q Sp) :=
  fastPast_good q hub Sp (fun _ _ _ => 0) 0 0

/-- What `prepare` of the processor does. -/
theorem fast_prepared (h : FastScene cfg q) (hN : Names cfg) (Sp : IrMat R) {srcs : String → S} {arr : A} {f0 : F}
    {e : Eng (Tape R) F S A (FastSt R)} (he : cfg.tInit srcs arr (fastInit q Sp) f0 = .ok e) :
    fastPrepare q e.proc (cut cfg.dims e.sig (-(cfg.B : Int)) (cfg.B + cfg.C)) cfg.B =
      .ok ((fastStart q Sp cfg.B e).proc, cut cfg.dims (fastStart q Sp cfg.B e).sig (-(cfg.B : Int)) (cfg.B + cfg.C)) := by
  rw [tInit_proc hN he]
  unfold fastPrepare blockStarts
  rw [Int.toNat_natCast]
  refine fastPast_cut (fast_dims h hN) e.sig (-(cfg.B : Int)) (cfg.B + cfg.C) (cfg.B / q.L) ?_
  have := Nat.div_mul_le_self cfg.B q.L
  omega

/-- The prepared simulation is the tape seen through the buffer. -/
theorem fast_begin (h : FastScene cfg q) (Sp : IrMat R) {srcs : String → S} {arr : A} {f0 : F} {ds : List (Diag D)}
    {st0 : SimSt R F S A (FastSt R) D O} (hi : cfg.initWith (fastPrepare q) srcs arr (fastInit q Sp) f0 ds = .ok st0) :
    ∃ hN : Names cfg, ∃ e, cfg.tInit srcs arr (fastInit q Sp) f0 = .ok e ∧
      GInv (fastTape (fast_dims h hN) h.ub.1) (fastStart q Sp cfg.B e) 0 st0 (fastStart q Sp cfg.B e) (-(cfg.B : Int)) 0 := by
  unfold SimCfg.initWith at hi
  split at hi
  · cases hi
  · rename_i st hst
    have hB := h.buffer.1
    have hbs := h.bs
    have hnd := init_nodup cfg hst
    have hN := names_of cfg hnd
    refine ⟨hN, ?_⟩
    rw [init_conc cfg (by omega) hnd] at hst
    cases he : cfg.tInit srcs arr (fastInit q Sp) f0 with
    | error x => rw [he] at hst; cases hst
    | ok e =>
      rw [he] at hst
      simp only [Except.map, Except.ok.injEq] at hst
      subst hst
      refine ⟨e, rfl, ?_⟩
      have hprep := fast_prepared h hN Sp he
      simp only [conc] at hi
      rw [hprep] at hi
      simp only [Except.ok.injEq] at hi
      subst hi
      refine ⟨rfl, rfl, rfl, PosInv.start (by rw [(fast_sizes h hN).mbs]; exact h.bs) (by rw [(fast_sizes h hN).mbs]; exact hB),
        ?_, fastPast_good q h.ub.1 Sp _ _ _⟩
      intro nm c t ht
      have hle := Nat.div_mul_le_self cfg.B q.L
      show (fastPast q Sp e.sig (-(cfg.B : Int)) (cfg.B / q.L)).2 nm c t = 0
      rw [fastPast_sig q Sp e.sig _ nm c t _ (fun _ => .inr (by generalize cfg.B / q.L * q.L = z at hle ⊢; omega))]
      exact tInit_zero cfg he nm c t (by omega)

/-! ### The counter -/

/-- A state of `FxLMS` with the same counter. -/
def FastSt.asFx (p : FastSt R) : FxSt R := ⟨p.ctrl, p.ctrl, p.cnt⟩

theorem FastScene.mbs (h : FastScene cfg q) : cfg.mbs = q.bs := by
  unfold SimCfg.mbs
  rw [h.proc]
  rfl

theorem fastCnt_start (Sp : IrMat R) (B : Nat) (e : Eng (Tape R) F S A (FastSt R)) :
    CntInv q 0 (fastStart q Sp B e).proc.asFx := by
  have hc : (fastStart q Sp B e).proc.asFx.cnt = (fastInit q Sp).cnt := fastPast_cnt q Sp _ _ _
  constructor
  · rw [hc, Nat.zero_div, Nat.zero_mul]; rfl
  · rw [hc, Nat.zero_div]
    simp [fastInit, EventSt.init]

theorem fastCnt_steps (h : FastScene cfg q) (hN : Names cfg) {e0 : Eng (Tape R) F S A (FastSt R)}
    (h0 : CntInv q 0 e0.proc.asFx) : ∀ (k : Nat) {te},
    cfg.gSteps (fastTape (fast_dims h hN) h.ub.1) k e0 = .ok te → CntInv q k te.proc.asFx
  | 0, te, hs => by cases hs; exact h0
  | k + 1, te, hs => by
    simp only [SimCfg.gSteps] at hs
    split at hs
    · cases hs
    · rename_i e1 h1
      have hI := fastCnt_steps h hN h0 k h1
      unfold SimCfg.gEngine at hs
      split at hs
      · cases hs
      · rename_i arr _
        rw [tPropagate_proc hs]
        have hbs := h.bs
        by_cases hm : k % q.bs = q.bs - 1
        · have hgp : (cfg.gProc (fastTape (fast_dims h hN) h.ub.1) k { e1 with arr := arr }).proc = (fastAct q e1.proc e1.sig k).1 := by
            unfold SimCfg.gProc
            rw [if_pos (show k % (fastProc q).bs = (fastProc q).bs - 1 from hm)]
            rfl
          rw [hgp]
          exact hI.call hbs e1.sig hm
        · have hgp : (cfg.gProc (fastTape (fast_dims h hN) h.ub.1) k { e1 with arr := arr }).proc = e1.proc := by
            unfold SimCfg.gProc
            rw [if_neg (show ¬ k % (fastProc q).bs = (fastProc q).bs - 1 from hm)]
          rw [hgp]
          have hnext : (k + 1) / q.bs = k / q.bs := by
            rw [Nat.succ_div, if_neg, Nat.add_zero]
            intro hdvd
            have h1 : k % q.bs < q.bs := Nat.mod_lt _ (by omega)
            have h3 : (k % q.bs + 1) % q.bs = 0 := by
              rw [Nat.mod_add_mod]
              exact Nat.mod_eq_zero_of_dvd hdvd
            rw [Nat.mod_eq_of_lt (by omega)] at h3
            omega
          unfold CntInv
          rw [hnext]
          exact hI

/-- How far the processor looks back when called at step `k`. -/
theorem fastCnt_look {k : Nat} {p : FastSt R} (hbs : 0 < q.bs) (h : CntInv q k p.asFx) (hm : k % q.bs = q.bs - 1) :
    fastLook q p = looksBack q (2 * q.L) k := by
  have e : k / q.bs * q.bs = k + 1 - q.bs := by
    have h1 := Nat.div_add_mod k q.bs
    rw [Nat.mul_comm] at h1
    omega
  have e2 : 0 < k / q.bs ↔ 0 < k + 1 - q.bs := by
    rw [← e]
    exact ⟨fun h => Nat.mul_pos h hbs, fun h => Nat.pos_of_mul_pos_right h⟩
  have h2 : "update_filter" ∈ p.cnt.event ↔ 0 < k / q.bs ∧ q.ub ∣ k / q.bs * q.bs := h.2
  unfold fastLook looksBack
  simp only [h2, e, e2]

/-- What the processor looks at is in the buffer. -/
theorem FastScene.holds_index (h : FastScene cfg q) {N : Nat} (hb : Holds cfg q (2 * q.L) N) (hN : Names cfg)
    {e0 : Eng (Tape R) F S A (FastSt R)} {st0 st : SimSt R F S A (FastSt R) D O} {r0 : Int}
    (hI : GInv (fastTape (fast_dims h hN) h.ub.1) e0 0 st0 e0 (-(cfg.B : Int)) r0) {k : Nat} (hs : cfg.steps k st0 = .ok st)
    (hm : k % q.bs = q.bs - 1) (hk : k < N) : ((looksBack q (2 * q.L) k : Nat) : Int) ≤ st.idx := by
  have hmbs := h.mbs
  have hbs := h.bs
  have hBB := h.buffer.1
  rcases hb with hb | ⟨hC, hb⟩
  · obtain ⟨te, off, r, hT⟩ := GInv.steps (fast_sizes h hN) hI k hs
    have hlow := hT.pos.low
    have hLL := Nat.le_of_dvd h.L h.ub.2
    rw [hmbs] at hlow
    unfold looksBack
    split <;> omega
  · have h0 : st0.idx = cfg.B := by have := hI.pos.sync; omega
    rw [steps_index h0 (by omega) (by omega) (by omega) k hs]
    exact_mod_cast hb k hk hm

end

section
variable {R S A V : Type} [Field R] [DecidableEq R] {q : FxPar R}
  {cfg : SimCfg R (IrMat R) (Fir R) S A (FastSt R) (DData R (FastSt R) V) (DOut R V)}
  {srcs : String → S} {arr : A} {J : A → Prop}

/-- The preparation of a valid scene with the processor succeeds. -/
theorem FastScene.begins (h : FastScene cfg q) (hv : ValidScene cfg srcs arr J) (Sp : IrMat R) (f0 : Fir R)
    (ds0 : List (Diag (DData R (FastSt R) V))) (hN : Names cfg) :
    ∃ st0 e, cfg.initWith (fastPrepare q) srcs arr (fastInit q Sp) f0 ds0 = .ok st0 ∧ st0.diags = ds0 ∧ st0.log = [] ∧
      cfg.tInit srcs arr (fastInit q Sp) f0 = .ok e ∧
      GInv (fastTape (fast_dims h hN) h.ub.1) (fastStart q Sp cfg.B e) 0 st0 (fastStart q Sp cfg.B e) (-(cfg.B : Int)) 0 ∧
      Sound cfg J (fastTape (fast_dims h hN) h.ub.1).good (fastStart q Sp cfg.B e) := by
  obtain ⟨e, he, s⟩ := Sound.init (K := FastGood q) hv (fastInit_good q h.ub.1 Sp) hN f0
  have hinit : ∃ st0, cfg.initWith (fastPrepare q) srcs arr (fastInit q Sp) f0 ds0 = .ok st0 ∧ st0.diags = ds0 ∧ st0.log = [] := by
    unfold SimCfg.initWith
    rw [init_conc cfg (by have := h.buffer; omega) hv.names, he]
    simp only [Except.map, conc]
    rw [fast_prepared h hN Sp he]
    exact ⟨_, rfl, rfl, rfl⟩
  obtain ⟨st0, hst0, hd0, hl0⟩ := hinit
  obtain ⟨hN', e', he', hI⟩ := fast_begin h Sp hst0
  rw [he] at he'
  cases he'
  exact ⟨st0, e, hst0, hd0, hl0, he, hI, s.streams, s.filts, s.arr, hI.good⟩

/-- A valid scene with the processor and fitting diagnostics runs to its end. -/
theorem FastScene.runs (h : FastScene cfg q) (hb : Holds cfg q (2 * q.L) (cfg.tot + q.bs)) (hv : ValidScene cfg srcs arr J)
    (Sp : IrMat R) (f0 : Fir R) {ds0 : List (Diag (DData R (FastSt R) V))} (hnd : (ds0.map Diag.name).Nodup)
    (hds : ∀ d ∈ ds0, d.Fits cfg (FastGood q)) (hreads : ∀ d ∈ ds0, ∀ name ∈ d.data.reads, name ≠ "xf") :
    ∃ fin, cfg.runWith (fastPrepare q) srcs arr (fastInit q Sp) f0 ds0 = .ok fin := by
  have hN := names_of cfg hv.names
  obtain ⟨st0, e, hst0, hd0, hl0, he, hI, s0⟩ := h.begins hv Sp f0 ds0 hN
  obtain ⟨st, ds, log, h1, h2⟩ := gLoop_ok (ok := fun name => name ≠ "xf") (fast_sizes h hN) hv.diag hnd
    (fun name hn => fast_past _ _ hn) hI hd0 hl0
    (fun k te hte => by
      obtain ⟨te1, g1, g2⟩ := Sound.gSteps _ hv hN s0 k
      rw [g1] at hte
      cases hte
      obtain ⟨te', g3, _⟩ := g2.gEngine _ hv hN k
      exact ⟨te', g3⟩)
    (fun d hd => (hds d hd).live hv.diag fun _ n _ => by
      obtain ⟨te, g1, g2⟩ := Sound.gSteps _ hv hN s0 (n + 1)
      exact ⟨te.proc, by simp only [SimCfg.gProcAfter, g1], g2.proc⟩)
    hreads (fun k hk hm st te hs hte => by
      rw [h.mbs] at hk
      have hcnt := fastCnt_steps h hN (fastCnt_start Sp cfg.B e) k hte
      show ((fastLook q te.proc : Nat) : Int) ≤ _
      rw [fastCnt_look h.bs hcnt hm]
      exact h.holds_index hb hN hI hs hm hk)
  refine ⟨{ st with diags := ds, log := log }, ?_⟩
  unfold SimCfg.runWith
  rw [hst0]
  simp only [h1, h2]

/-- If some call finds a buffer that does not go back far enough, the simulation raises. -/
theorem FastScene.fails (h : FastScene cfg q) (hC : q.bs ≤ cfg.C) (hb : ¬ Reaches cfg q (2 * q.L) (cfg.tot + q.bs))
    (hv : ValidScene cfg srcs arr J) (Sp : IrMat R) (f0 : Fir R)
    {ds0 : List (Diag (DData R (FastSt R) V))} (hnd : (ds0.map Diag.name).Nodup)
    (hds : ∀ d ∈ ds0, d.Fits cfg (FastGood q)) (hreads : ∀ d ∈ ds0, ∀ name ∈ d.data.reads, name ≠ "xf") :
    cfg.runWith (fastPrepare q) srcs arr (fastInit q Sp) f0 ds0 = .error .value := by
  classical
  have hN := names_of cfg hv.names
  obtain ⟨st0, e, hst0, hd0, hl0, he, hI, s0⟩ := h.begins hv Sp f0 ds0 hN
  have hbs := h.bs
  have hex : ∃ k, k < cfg.tot + q.bs ∧ k % q.bs = q.bs - 1 ∧ cfg.indexAt k < looksBack q (2 * q.L) k := by
    unfold Reaches at hb
    push Not at hb
    exact hb
  obtain ⟨g1, g2, g3⟩ := Nat.find_spec hex
  have hmin : ∀ j < Nat.find hex, j % q.bs = q.bs - 1 → looksBack q (2 * q.L) j ≤ cfg.indexAt j := by
    intro j hj hm
    by_contra hn
    exact Nat.find_min hex hj ⟨by omega, hm, by omega⟩
  generalize Nat.find hex = k at g1 g2 g3 hmin
  obtain ⟨st, hs⟩ := gLoop_until (ok := fun name => name ≠ "xf") (N := k) (fast_sizes h hN) hv.diag hnd
    (fun name hn => fast_past _ _ hn) hI hd0 hl0
    (fun k te hte => by
      obtain ⟨te1, g1, g2⟩ := Sound.gSteps _ hv hN s0 k
      rw [g1] at hte
      cases hte
      obtain ⟨te', g3, _⟩ := g2.gEngine _ hv hN k
      exact ⟨te', g3⟩)
    (fun d hd => (hds d hd).live hv.diag fun _ n _ => by
      obtain ⟨te, g1, g2⟩ := Sound.gSteps _ hv hN s0 (n + 1)
      exact ⟨te.proc, by simp only [SimCfg.gProcAfter, g1], g2.proc⟩)
    hreads (by rw [h.mbs]; omega) (fun j hj hm st te hs hte => by
      have hcnt := fastCnt_steps h hN (fastCnt_start Sp cfg.B e) j hte
      show ((fastLook q te.proc : Nat) : Int) ≤ _
      rw [fastCnt_look h.bs hcnt hm]
      exact h.holds_index (N := k) (.inr ⟨hC, fun i hi hm => hmin i hi hm⟩) hN hI hs hm hj) k (le_refl _)
  obtain ⟨te, off, r, hT⟩ := GInv.steps (fast_sizes h hN) hI k hs
  obtain ⟨te1, t1, t2⟩ := Sound.gSteps _ hv hN s0 k
  rw [hT.tape] at t1
  cases t1
  obtain ⟨arr', ha, _⟩ := hv.moves te.arr k t2.arr
  have hmbs := h.mbs
  have hBB := h.buffer.1
  have hidx := steps_index (by have := hI.pos.sync; omega) (by omega) (by omega) (by omega) k hs
  have hcnt := fastCnt_steps h hN (fastCnt_start Sp cfg.B e) k hT.tape
  have hraise : cfg.engine st.n st.idx st.eng = .error .value := by
    have hfit := hT.pos.block_fits (by omega) (by rw [hmbs]; omega) (by rw [hmbs]; exact g2)
    rw [hT.n, hidx, hT.eng]
    refine engine_raises (fastTape (fast_dims h hN) h.ub.1) h.proc hbs off (cfg.B + cfg.C) (cfg.indexAt k) k h.buffer.2 te g2 ?_ ?_
      hT.good ha
    · show _ < fastLook q te.proc
      rw [fastCnt_look hbs hcnt g2]
      exact g3
    · show cfg.indexAt k + q.bs ≤ _
      omega
  have hstep : cfg.steps (k + 1) st0 = .error .value := by
    simp only [SimCfg.steps, hs]
    unfold SimCfg.step
    rw [hraise]
  unfold SimCfg.runWith
  rw [hst0]
  have hlast : cfg.steps (cfg.tot + cfg.mbs) st0 = .error .value := by
    have := steps_raised hstep (cfg.tot + cfg.mbs - (k + 1))
    rwa [Nat.add_sub_cancel' (by omega)] at this
  simp only [hlast]

end
end Verif

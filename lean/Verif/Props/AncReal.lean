/-
C176 and C177: the active noise control example with measured responses.
-/
import Verif.Lemmas.AncReal
namespace Verif

section
variable {K R G S V : Type} [Field K] [LinearOrder K] [Field R] [DecidableEq R]
  {ext : RoomExt K R G} {i : RoomInfo K} {freq : Nat} {as : List (Arr (K × K × K))} {os : List (PathOp R)} {t : String}

/-- C176. The script runs to its end if the signals hold two filter lengths at every update. -/
theorem C176_runs {base : SimCfg R (IrMat R) (Fir R) S (G × Coll (K × K × K) (IrMat R)) (FastSt R) (DData R (FastSt R) V) (DOut R V)}
    {srcs : String → S} {q : FxPar R} (h : RealScene base ext i freq as os t srcs q)
    (hb : Holds (base.withFast as q) q (2 * q.L) (base.tot + q.bs)) (f0 : Fir R)
    {diags : Coll (K × K × K) (IrMat R) → Except PyErr (List (Diag (DData R (FastSt R) V)))}
    (hds : ∀ c, c.arrays = as → ∃ ds, diags c = .ok ds ∧ (ds.map Diag.name).Nodup ∧
      (∀ d ∈ ds, d.Fits (base.withFast as q) (FastShape q)) ∧ ∀ d ∈ ds, ∀ name ∈ d.data.reads, name ≠ "xf") (g : G) :
    ∃ fin, realSimulate base ext i g (planned freq as os t) srcs q.bs q.L q.mu q.beta f0 diags = .ok fin := by
  obtain ⟨par, gc, sp, hset, harr, hu, -, he⟩ := h.begin g
  obtain ⟨ds, d1, d2, d3, d4⟩ := hds gc.2 harr
  have hv := h.plan.scene { base with proc := some (fastProc q) } h.diag h.filt h.names h.streams hu
  obtain ⟨fin, hfin⟩ := C174_runs_through (h.fast par) hb hv sp f0 d2 (fun d hd => Diag.Fits.of_dims (cfg := base.withFast as q)
    (cfg' := roomCfg { base with proc := some (fastProc q) } ext i par as) rfl rfl rfl (d3 d hd)) d4
  exact ⟨fin, by rw [he, d1]; exact hfin⟩

/-- C176. Otherwise it ends with a `ValueError`. -/
theorem C176_raises {base : SimCfg R (IrMat R) (Fir R) S (G × Coll (K × K × K) (IrMat R)) (FastSt R) (DData R (FastSt R) V) (DOut R V)}
    {srcs : String → S} {q : FxPar R} (h : RealScene base ext i freq as os t srcs q) (hC : q.bs ≤ base.C)
    (hb : ¬ Reaches (base.withFast as q) q (2 * q.L) (base.tot + q.bs)) (f0 : Fir R)
    {diags : Coll (K × K × K) (IrMat R) → Except PyErr (List (Diag (DData R (FastSt R) V)))}
    (hds : ∀ c, c.arrays = as → ∃ ds, diags c = .ok ds ∧ (ds.map Diag.name).Nodup ∧
      (∀ d ∈ ds, d.Fits (base.withFast as q) (FastShape q)) ∧ ∀ d ∈ ds, ∀ name ∈ d.data.reads, name ≠ "xf") (g : G) :
    realSimulate base ext i g (planned freq as os t) srcs q.bs q.L q.mu q.beta f0 diags = .error .value := by
  obtain ⟨par, gc, sp, hset, harr, hu, -, he⟩ := h.begin g
  obtain ⟨ds, d1, d2, d3, d4⟩ := hds gc.2 harr
  have hv := h.plan.scene { base with proc := some (fastProc q) } h.diag h.filt h.names h.streams hu
  have := C174_raises (h.fast par) hC hb hv sp f0 d2 (fun d hd => Diag.Fits.of_dims (cfg := base.withFast as q)
    (cfg' := roomCfg { base with proc := some (fastProc q) } ext i par as) rfl rfl rfl (d3 d hd)) d4
  rw [he, d1]
  exact this

/-- C177. One noise source and the loudspeakers of the processor, error microphones and a reference
microphone with a direct path from the noise source, all standing still, and sources that
begin before the simulation.  The reference is the noise at all times, also before the
simulation.  The recorded error is the sum of the recorded contributions: the noise after the room's
responses, and the recorded loudspeaker signal after the responses that the processor got.  And
what the loudspeakers play is what the adaptive filter makes of the noise and the recorded error. -/
theorem C177_loop {base : SimCfg R (IrMat R) (Fir R) S (G × Coll (K × K × K) (IrMat R)) (FastSt R) (DData R (FastSt R) V) (DOut R V)}
    {srcs : String → S} {q : FxPar R} (h : RealScene base ext i freq as os t srcs q) (hcon : base.contrib = true)
    (hwarm : base.warm = true) (hlow : ¬ 0 < i.cutoff)
    {n l m r : Arr (K × K × K)} (hn : n ∈ as) (hnk : n.kind = some .free) (hl : l ∈ as) (hln : l.name = "loudspeaker")
    (hm : m ∈ as) (hmn : m.name = "error") (hr : r ∈ as) (hrn : r.name = "ref") (hdir : HasType os t n r "direct")
    (hnone : HasType os t l r "none")
    (honly : ∀ a ∈ as, (a.kind = some .free ∨ a.kind = some .ctrl) → a = n ∨ a = l)
    (hstill : n.dynamic = false ∧ l.dynamic = false ∧ m.dynamic = false)
    {x : Nat → Nat → R} (hx : IsStream base.srcGet (srcs n.name) n.num x)
    {g : G} {f0 : Fir R} {diags : Coll (K × K × K) (IrMat R) → Except PyErr (List (Diag (DData R (FastSt R) V)))}
    {fin : SimSt R (Fir R) S (G × Coll (K × K × K) (IrMat R)) (FastSt R) (DData R (FastSt R) V) (DOut R V)}
    (hfin : realSimulate base ext i g (planned freq as os t) srcs q.bs q.L q.mu q.beta f0 diags = .ok fin)
    {info : DiagInfo} {name1 name2 name3 name4 name5 : String} {ex : Option IdxSel}
    (hds : ∀ c ds, c.arrays = as → diags c = .ok ds → (ds.map Diag.name).Nodup ∧
      (∃ d ∈ ds, mkRecordSignal info name1 m.name ex none m.num none = .ok d) ∧
      (∃ d ∈ ds, mkRecordSignal info name2 (n.name ++ "~" ++ m.name) ex none m.num none = .ok d) ∧
      (∃ d ∈ ds, mkRecordSignal info name3 ("loudspeaker~" ++ m.name) ex none m.num none = .ok d) ∧
      (∃ d ∈ ds, mkRecordSignal info name4 "loudspeaker" ex none l.num none = .ok d) ∧
      ∃ d ∈ ds, mkRecordSignal info name5 "ref" ex none r.num none = .ok d)
    (htot : info.tot = base.tot) (hpos : 0 < base.tot) :
    ∃ par gc hN hL, roomSetup ext i g (planned freq as os t) = .ok (par, gc) ∧
      gc.2.paths n.name m.name = some hN ∧ gc.2.paths "loudspeaker" m.name = some hL ∧
      ∃ e p s y : Nat → Nat → R, Recording fin.diags name1 m.name m.num base.tot e ∧
        Recording fin.diags name2 (n.name ++ "~" ++ m.name) m.num base.tot p ∧
        Recording fin.diags name3 ("loudspeaker~" ++ m.name) m.num base.tot s ∧
        Recording fin.diags name4 "loudspeaker" l.num base.tot y ∧
        Recording fin.diags name5 "ref" r.num base.tot (fun c t => x c (t + base.B - 1)) ∧
        (∀ c < m.num, ∀ t < base.tot, e c t = p c t + s c t ∧
          p c t = throughPath hN n.num (streamFrom base.B x) c t ∧
          s c t = throughPath hL l.num (fun i t => if t < 0 then 0 else y i t.toNat) c t) ∧
        ∀ c < l.num, ∀ t < base.tot, y c t = adaptiveOut q.bs q.L q.nr q.L
          (lmsTaps .block q.beta q.mu q.nr q.nl q.ne q.L q.L q.bs
            (storedFrom (hL.firstTaps (q.L - q.bs)) (base.B % q.L) q.bs (streamFrom base.B x))
            (fun c t => if t < 0 then 0 else e c t.toNat)) (streamFrom base.B x) c t := by
  obtain ⟨par, gc, sp, ds, st0, hset, harr, hu, hsp, hds', hrun⟩ := h.ran hfin fun c ds hc hd => (hds c ds hc hd).1
  obtain ⟨k1, ⟨d1, e1, f1⟩, ⟨d2, e2, f2⟩, ⟨d3, e3, f3⟩, ⟨d4, e4, f4⟩, ⟨d5, e5, f5⟩⟩ := hds gc.2 ds harr hds'
  have inj : ∀ {a b : Arr (K × K × K)}, a ∈ as → b ∈ as → a.name = b.name → a = b := fun ha hb e =>
    List.inj_on_of_nodup_map h.plan.names ha hb e
  obtain ⟨l', hl1, hl2, hlk, hlnum⟩ := h.ls
  obtain rfl : l = l' := inj hl hl1 (hln.trans hl2.symm)
  obtain ⟨m', hm1, hm2, hmk, hmnum⟩ := h.err
  obtain rfl : m = m' := inj hm hm1 (hmn.trans hm2.symm)
  obtain ⟨r', hr1, hr2, hrk, hrnum⟩ := h.ref
  obtain rfl : r = r' := inj hr hr1 (hrn.trans hr2.symm)
  have hri : (⟨r.name, r.num, .mic, r.dynamic⟩ : ArrInfo) ∈ infosOf as := mem_infosOf.2 ⟨r, hr, hrk, rfl, rfl, rfl⟩
  have hmi : (⟨m.name, m.num, .mic, m.dynamic⟩ : ArrInfo) ∈ infosOf as := mem_infosOf.2 ⟨m, hm, hmk, rfl, rfl, rfl⟩
  have hni : (⟨n.name, n.num, .free, n.dynamic⟩ : ArrInfo) ∈ infosOf as := mem_infosOf.2 ⟨n, hn, hnk, rfl, rfl, rfl⟩
  have hli : (⟨l.name, l.num, .ctrl, l.dynamic⟩ : ArrInfo) ∈ infosOf as := mem_infosOf.2 ⟨l, hl, hlk, rfl, rfl, rfl⟩
  have hls : n.name ≠ "loudspeaker" := by
    intro e
    rw [inj hn hl (e.trans hl2.symm), hlk] at hnk
    cases hnk
  obtain ⟨hN, p1, -⟩ := hu.paths n (by rw [harr]; exact hn) m (by rw [harr]; exact hm) (.inl hnk) hmk
  obtain ⟨hL, p2, -⟩ := hu.paths l (by rw [harr]; exact hl) m (by rw [harr]; exact hm) (.inr hlk) hmk
  obtain rfl : sp = hL := by
    rw [hln, hmn, hsp] at p2
    exact Option.some.inj p2
  have hNm := (fast_begin hrun.scene sp hrun.init).1
  obtain ⟨X, hX1, hX⟩ := h.allStreams hn hx
  obtain ⟨Y, hY, hloop⟩ := h.loop hX hset hu hrun
  have hprep : (if base.warm then base.B else 1) = base.B := by rw [if_pos hwarm]
  have href := h.direct hlow hn hnk hr hrk hdir (fun a ha hk hne => by
    rcases honly a ha hk with rfl | rfl
    · exact absurd rfl hne
    · exact hnone) hX hset hu hrun
  rw [hX1, hprep] at href
  obtain ⟨st, hst⟩ := hrun.stepsTo (n := base.tot) (Nat.le_add_right _ _)
  obtain ⟨ρ0, e0, -, he0⟩ := fast_recorded hrun.scene hrun.init hst
  have hρ : ∀ c < q.nr, ∀ t ≤ (base.tot : Int), (roomCfg { base with proc := some (fastProc q) } ext i par as).Recorded st0 "ref" c t
      (streamFrom base.B x c t) := fun c hc t ht => by
    have := href c (by omega) t ht (.inr hwarm)
    rwa [hrn] at this
  have hls' := (C175_adaptive hrun.scene hrun.init hst hρ he0).1
  generalize hcfg : roomCfg { base with proc := some (fastProc q) } ext i par as = cfg at hrun hNm hY hloop href hρ he0 hls'
  have hc : cfg.contrib = true := by rw [← hcfg]; exact hcon
  have ht : cfg.tot = base.tot := by rw [← hcfg]; rfl
  have har : cfg.arrays = infosOf as := by rw [← hcfg]; rfl
  have hw : ∀ i t, cfg.playedWith X Y n.name i t = streamFrom base.B x i t := by
    intro i t
    unfold SimCfg.playedWith SimCfg.played streamFrom
    have q1 : cfg.warm = base.warm := by rw [← hcfg]; rfl
    have q2 : cfg.B = base.B := by rw [← hcfg]; rfl
    rw [if_neg hls, hX1]
    simp only [q1, q2, har, hprep]
    by_cases hh : -(base.B : Int) < t
    · rw [if_pos ⟨⟨_, hni, rfl, rfl⟩, hh⟩, if_pos hh]
    · rw [if_neg (fun hh' => hh hh'.2), if_neg hh]
  have hwl : ∀ i t, cfg.playedWith X Y l.name i t = if t < 0 then 0 else Y i t.toNat := by
    intro i t
    unfold SimCfg.playedWith
    rw [if_pos hln]
  have hir : ∀ {s : Arr (K × K × K)} {k : ArrKind} {H x : IrMat R} {t : Nat}, s.dynamic = false → gc.2.paths s.name m.name = some H →
      cfg.IrAt gc ⟨s.name, s.num, k, s.dynamic⟩ ⟨m.name, m.num, .mic, m.dynamic⟩ t x → x = H := by
    intro s k H x t hsd hH hi
    have : cfg.arrPath gc s.name m.name = .ok x := by
      cases t with
      | zero => exact hi
      | succ t =>
        simp only [SimCfg.IrAt] at hi
        rwa [if_neg (by rw [hsd, hstill.2.2]; simp)] at hi
    rw [← hcfg] at this
    change Coll.path gc s.name m.name = .ok x at this
    unfold Coll.path at this
    rw [hH] at this
    cases this
    rfl
  have hval : ∀ t ≤ base.tot, ∀ c < m.num,
      cfg.Produced st0 m.name c t (throughPath hN n.num (cfg.playedWith X Y n.name) c t + throughPath sp l.num (cfg.playedWith X Y l.name) c t) ∧
      cfg.Produced st0 (n.name ++ "~" ++ m.name) c t (throughPath hN n.num (cfg.playedWith X Y n.name) c t) ∧
      cfg.Produced st0 (l.name ++ "~" ++ m.name) c t (throughPath sp l.num (cfg.playedWith X Y l.name) c t) := by
    intro t' ht' c hc'
    obtain ⟨ir, g1, g2⟩ := hloop _ hmi rfl t' ht'
    have i1 := hir hstill.1 p1 (g1 _ hni (by simp))
    have i2 := hir hstill.2.1 p2 (g1 _ hli (by simp))
    obtain ⟨o1, o2⟩ := g2 c hc'
    have c1 := o2 hcon _ hni (by simp)
    have c2 := o2 hcon _ hli (by simp)
    have hc1 : ∀ u, convSum [(⟨n.name, n.num, .free, n.dynamic⟩ : ArrInfo)] ir u c t' = throughPath hN n.num (u n.name) c t' := by
      intro u
      unfold convSum throughPath
      dsimp only at i1
      simp only [List.map_cons, List.map_nil, List.sum_cons, List.sum_nil, add_zero, i1]
    have hc2 : ∀ u, convSum [(⟨l.name, l.num, .ctrl, l.dynamic⟩ : ArrInfo)] ir u c t' = throughPath sp l.num (u l.name) c t' := by
      intro u
      unfold convSum throughPath
      dsimp only at i2
      simp only [List.map_cons, List.map_nil, List.sum_cons, List.sum_nil, add_zero, i2]
    have hsum : ∀ u, convSum ((infosOf as).filter fun s => s.kind != .mic) ir u c t' =
        convSum [(⟨n.name, n.num, .free, n.dynamic⟩ : ArrInfo)] ir u c t' + convSum [(⟨l.name, l.num, .ctrl, l.dynamic⟩ : ArrInfo)] ir u c t' := by
      intro u
      unfold convSum
      rw [sum_srcs_two ((nodup_map_of h.infos_nodup).filter _) (List.mem_filter.2 ⟨hni, rfl⟩) (List.mem_filter.2 ⟨hli, rfl⟩) (by simp) ?_]
      · simp only [List.map_cons, List.map_nil, List.sum_cons, List.sum_nil, add_zero]
      · intro a ha
        obtain ⟨ha1, ha2⟩ := List.mem_filter.1 ha
        obtain ⟨b, hb, b1, b2, b3, b4⟩ := mem_infosOf.1 ha1
        have hbk : b.kind = some .free ∨ b.kind = some .ctrl := by
          rw [b1]
          cases hk : a.kind
          · rw [hk] at ha2; cases ha2
          · exact .inl rfl
          · exact .inr rfl
        rcases honly b hb hbk with rfl | rfl
        · exact .inl (hNm.inj _ (by rw [har]; exact ha1) _ (by rw [har]; exact hni) b2.symm)
        · exact .inr (hNm.inj _ (by rw [har]; exact ha1) _ (by rw [har]; exact hli) b2.symm)
    rw [hsum, hc1, hc2] at o1
    rw [hc1] at c1
    rw [hc2] at c2
    exact ⟨o1, c1, c2⟩
  have hdims : ∀ {s : ArrInfo}, s ∈ infosOf as → s.kind ≠ .mic → cfg.dims (s.name ++ "~" ++ m.name) = some m.num := by
    intro s hs hk
    refine hNm.con hc (s, ⟨m.name, m.num, .mic, m.dynamic⟩) (mem_combosOf.2 ⟨?_, ?_⟩)
    · rw [har]
      exact List.mem_filter.2 ⟨hs, by simpa using hk⟩
    · rw [har]
      exact List.mem_filter.2 ⟨hmi, rfl⟩
  have hnx : ∀ {s : ArrInfo}, s ∈ infosOf as → s.kind ≠ .mic → s.name ++ "~" ++ m.name ≠ "xf" := by
    intro s _ _ e
    have h1 : '~' ∈ (s.name ++ "~" ++ m.name).toList := by simp
    rw [e] at h1
    revert h1
    decide
  have c3 : "loudspeaker~" ++ m.name = l.name ++ "~" ++ m.name := by rw [hln]; rfl
  have herr : ∀ c < m.num, ∀ t < base.tot, e0 c (t : Int) =
      throughPath hN n.num (cfg.playedWith X Y n.name) c t + throughPath sp l.num (cfg.playedWith X Y l.name) c t := by
    intro c hc t ht
    have h1 := he0 c (by omega) t (by omega)
    unfold SimCfg.Recorded at h1
    rw [if_pos (Int.natCast_nonneg _), Int.toNat_natCast] at h1
    have h2 := (hval t (by omega) c hc).1
    rw [hmn] at h2
    exact h1.unique h2
  refine ⟨par, gc, hN, sp, hset, p1, by rw [← hln]; exact p2, fun c t => e0 c (t : Int),
    fun c t => throughPath hN n.num (cfg.playedWith X Y n.name) c t, fun c t => throughPath sp l.num (cfg.playedWith X Y l.name) c t, Y,
    ?_, ?_, ?_, ?_, ?_, fun c hc t ht => ⟨herr c hc t ht, ?_, ?_⟩, fun c hc t ht => ?_⟩
  · rw [← ht]
    exact hrun.recording e1 f1 (by rw [ht]; exact htot) (by rw [ht]; exact hpos) (hNm.arr _ (by rw [har]; exact hmi)) (h.own m hm)
      fun c hc t' ht' => by rw [herr c hc t' (by omega)]; exact (hval t' (by omega) c hc).1
  · rw [← ht]
    exact hrun.recording e2 f2 (by rw [ht]; exact htot) (by rw [ht]; exact hpos) (hdims hni (by simp)) (hnx hni (by simp))
      fun c hc t' ht' => (hval t' (by omega) c hc).2.1
  · rw [← ht, c3]
    rw [c3] at f3
    exact hrun.recording e3 f3 (by rw [ht]; exact htot) (by rw [ht]; exact hpos) (hdims hli (by simp)) (hnx hli (by simp))
      fun c hc t' ht' => (hval t' (by omega) c hc).2.2
  · rw [← ht]
    rw [← hln] at f4 ⊢
    exact hrun.recording e4 f4 (by rw [ht]; exact htot) (by rw [ht]; exact hpos) (hNm.arr _ (by rw [har]; exact hli)) (h.own l hl)
      fun c hc t' ht' => by rw [hln]; exact hY c (by rw [← hlnum]; exact hc) t' (by omega)
  · rw [← ht]
    rw [← hrn] at f5 ⊢
    refine hrun.recording e5 f5 (by rw [ht]; exact htot) (by rw [ht]; exact hpos) (hNm.arr _ (by rw [har]; exact hri)) (h.own r hr)
      fun c hc t' ht' => ?_
    have hB := h.buffer.1
    have h1 := href c hc t' (by omega) (.inl (Int.natCast_nonneg _))
    unfold SimCfg.Recorded streamFrom at h1
    rw [if_pos (Int.natCast_nonneg _), Int.toNat_natCast, if_pos (by omega),
      show ((t' : Int) + (base.B : Int) - 1).toNat = t' + base.B - 1 by omega] at h1
    exact h1
  · exact congrArg (fun u => throughPath hN n.num u c t) (funext fun i => funext fun t => hw i t)
  · exact congrArg (fun u => throughPath sp l.num u c t) (funext fun i => funext fun t => hwl i t)
  · have h1 := (hY c (by omega) t (by omega)).unique (hls' c (by omega) t (by omega))
    rw [h1]
    have hBc : cfg.B = base.B := by rw [← hcfg]; rfl
    rw [hBc]
    congr 1
    funext j r' l' x'
    refine lmsTaps_congr_error _ _ _ _ _ _ _ _ _ _ (fun c' _ t' ht' => ?_) j r' l' x'
    dsimp only
    rw [if_neg (by omega), Int.toNat_of_nonneg ht']

/-! ### The script as it is shipped -/

omit [DecidableEq R] in
theorem realOps_paths {hm he : IrMat R} {pm pe pl : List (K × K × K)} (h1 : hm.numIn = pl.length ∧ hm.numOut = pm.length)
    (h2 : he.numIn = pl.length ∧ he.numOut = pe.length) :
    userPaths (placedArr "loudspeaker" .ctrl true pl) (placedArr "error" .mic true pm) (realOps hm he) = [hm] ∧
    userPaths (placedArr "loudspeaker" .ctrl true pl) (placedArr "eval" .mic true pe) (realOps hm he) = [he] := by
  constructor
  · simp [userPaths, realOps, placedArr, h1]
  · simp [userPaths, realOps, placedArr, h2]

omit [DecidableEq R] in
theorem realArrays_plan {hm he : IrMat R} {pm pe pl : List (K × K × K)} {pr pn : K × K × K}
    (h1 : hm.numIn = pl.length ∧ hm.numOut = pm.length) (h2 : he.numIn = pl.length ∧ he.numOut = pe.length)
    (hpm : pm ≠ []) (hpe : pe ≠ []) (hpl : pl ≠ []) (hfreq : 1 ≤ freq) (hdims : i.dims = 3)
    (hrev : 0 < i.rt60 → ∃ r, ext.inverseSabine i.rt60 i.size = .ok r) (hext : ∀ par, (i.cfg ext par).Lawful) :
    RoomPlan ext i freq (realArrays pm pe pr pl pn) (realOps hm he) "ism" where
  names := by
    show ["error", "eval", "ref", "loudspeaker", "noise"].Nodup
    decide
  kinds := by
    intro a ha
    simp only [realArrays, List.mem_cons, List.not_mem_nil, or_false] at ha
    rcases ha with rfl | rfl | rfl | rfl | rfl <;> exact Option.some_ne_none _
  channels := by
    intro a ha
    simp only [realArrays, List.mem_cons, List.not_mem_nil, or_false] at ha
    rcases ha with rfl | rfl | rfl | rfl | rfl
    · exact List.length_pos_iff.2 hpm
    · exact List.length_pos_iff.2 hpe
    · exact Nat.le_refl 1
    · exact List.length_pos_iff.2 hpl
    · exact Nat.le_refl 1
  sized := by
    intro a ha u
    simp only [realArrays, List.mem_cons, List.not_mem_nil, or_false] at ha
    rcases ha with rfl | rfl | rfl | rfl | rfl <;> rfl
  initial := by
    intro a ha f hf
    simp only [realArrays, List.mem_cons, List.not_mem_nil, or_false] at ha
    rcases ha with rfl | rfl | rfl | rfl | rfl <;> cases hf
  types := by
    intro a ha b hb hak hbk hup
    obtain ⟨u1, u2⟩ := realOps_paths h1 h2
    simp only [realArrays, List.mem_cons, List.not_mem_nil, or_false] at ha hb
    rcases hb with rfl | rfl | rfl | rfl | rfl
    · rcases ha with rfl | rfl | rfl | rfl | rfl
      · rcases hak with h | h <;> cases h
      · rcases hak with h | h <;> cases h
      · rcases hak with h | h <;> cases h
      · rw [u1] at hup
        cases hup
      · exact .inr (.inr (.inr ⟨rfl, hdims, rfl⟩))
    · rcases ha with rfl | rfl | rfl | rfl | rfl
      · rcases hak with h | h <;> cases h
      · rcases hak with h | h <;> cases h
      · rcases hak with h | h <;> cases h
      · rw [u2] at hup
        cases hup
      · exact .inr (.inr (.inr ⟨rfl, hdims, rfl⟩))
    · rcases ha with rfl | rfl | rfl | rfl | rfl
      · rcases hak with h | h <;> cases h
      · rcases hak with h | h <;> cases h
      · rcases hak with h | h <;> cases h
      · exact .inl rfl
      · exact .inr (.inr (.inl ⟨rfl, rfl⟩))
    · cases hbk
    · cases hbk
  moving := by
    intro a ha b hb _ _ hmv
    simp only [realArrays, List.mem_cons, List.not_mem_nil, or_false] at ha hb
    rcases ha with rfl | rfl | rfl | rfl | rfl <;> rcases hb with rfl | rfl | rfl | rfl | rfl <;>
      (rcases hmv with h | h <;> cases h)
  sources := by
    intro b hb _ hd
    simp only [realArrays, List.mem_cons, List.not_mem_nil, or_false] at hb
    rcases hb with rfl | rfl | rfl | rfl | rfl <;> cases hd
  interval := hfreq
  reverberation := hrev
  external := hext

omit [DecidableEq R] in
/-- The updates find two filter lengths, up to 150015 samples and no further. -/
theorem real_reaches {A D O F : Type} {cfg : SimCfg R (IrMat R) F S A (FastSt R) D O} {q : FxPar R} (hB : cfg.B = 1000) (hC : cfg.C = 10000)
    (hm : cfg.mbs = 1) (hbs : q.bs = 1) (hub : q.ub = 512) {n : Nat} :
    Reaches cfg q (2 * 512) (n + 1) ↔ n < 150016 := by
  have hidx : ∀ k, cfg.indexAt k = 1000 + k % 10000 := by
    intro k
    unfold SimCfg.indexAt
    rw [hB, hC, hm]
    omega
  constructor
  · intro h
    by_contra hn
    have := h 150016 (by omega) (by rw [hbs])
    rw [hidx] at this
    unfold looksBack at this
    rw [hbs, hub, if_pos ⟨by decide, by decide⟩] at this
    omega
  · intro hn k hk _
    rw [hidx]
    unfold looksBack
    rw [hbs, hub]
    split
    · rename_i hc
      obtain ⟨hp, m, hm⟩ := hc
      have key : ∀ j < 293, 0 < j → 24 ≤ 512 * j % 10000 := by decide +kernel
      have := key m (by omega) (by omega)
      have hkm : k = 512 * m := by omega
      rw [hkm]
      omega
    · omega

theorem real_signals (base : SimCfg R (IrMat R) (Fir R) S (G × Coll (K × K × K) (IrMat R)) (FastSt R) (DData R (FastSt R) V) (DOut R V))
    (hcon : base.contrib = true) (pm pe pl : List (K × K × K)) (pr pn : K × K × K) (q : FxPar R) :
    (base.withFast (realArrays pm pe pr pl pn) q).signalList =
      [("error", pm.length), ("eval", pe.length), ("ref", 1), ("loudspeaker", pl.length), ("noise", 1),
        ("loudspeaker~error", pm.length), ("loudspeaker~eval", pe.length), ("loudspeaker~ref", 1),
        ("noise~error", pm.length), ("noise~eval", pe.length), ("noise~ref", 1),
        ("xf", q.nr * q.nl * q.ne)] := by
  unfold SimCfg.signalList
  rw [show (base.withFast (realArrays pm pe pr pl pn) q).contrib = true from hcon]
  rfl

theorem real_scene {hm he : IrMat R} {pm pe pl : List (K × K × K)} {pr pn : K × K × K}
    (hp : RoomPlan ext i freq (realArrays pm pe pr pl pn) (realOps hm he) "ism")
    {base : SimCfg R (IrMat R) (Fir R) S (G × Coll (K × K × K) (IrMat R)) (FastSt R) (DData R (FastSt R) V) (DOut R V)}
    (hdiag : base.diag = diagOps R (FastSt R) V) (hfilt : base.filt = firOps R) (hB : base.B = 1000) (hC : base.C = 10000)
    (hcon : base.contrib = true) {srcs : String → S} {x : Nat → Nat → R}
    (hx : IsStream base.srcGet (srcs "noise") 1 x) {mu beta : R}
    (hreg : ∀ l : List R, (l.map fun x => x * x).sum + beta ≠ 0) :
    RealScene base ext i freq (realArrays pm pe pr pl pn) (realOps hm he) "ism" srcs
      ⟨1, 512, 512, 1, pl.length, pm.length, mu, beta, .block⟩ := by
  refine ⟨hp, hdiag, hfilt,
    ⟨placedArr "ref" .mic true [pr], by simp [realArrays], rfl, rfl, rfl⟩, ⟨placedArr "error" .mic true pm, by simp [realArrays], rfl, rfl, rfl⟩,
    ⟨placedArr "loudspeaker" .ctrl true pl, by simp [realArrays], rfl, rfl, rfl⟩,
    ?_, ?_, ?_, by dsimp only; omega, by dsimp only; omega, ⟨rfl, one_dvd _⟩, rfl, ⟨by omega, .inl (by omega)⟩,
    ⟨by dsimp only; omega, by dsimp only; omega⟩, hreg⟩
  · intro a ha
    simp only [realArrays, List.mem_cons, List.not_mem_nil, or_false] at ha
    rcases ha with rfl | rfl | rfl | rfl | rfl <;> simp [placedArr]
  · rw [real_signals base hcon]
    simp
  · intro a ha hk
    simp only [realArrays, List.mem_cons, List.not_mem_nil, or_false] at ha
    rcases ha with rfl | rfl | rfl | rfl | rfl
    · cases hk
    · cases hk
    · cases hk
    · cases hk
    · exact ⟨x, hx⟩

theorem real_diags {pm pe pl : List (K × K × K)} {pr pn : K × K × K} (hpm : pm ≠ []) (hpe : pe ≠ []) (hpl : pl ≠ [])
    (base : SimCfg R (IrMat R) (Fir R) S (G × Coll (K × K × K) (IrMat R)) (FastSt R) (DData R (FastSt R) V) (DOut R V))
    (htot : 0 < base.tot) (hcon : base.contrib = true) {mu beta : R} {info : DiagInfo}
    (hi : info.tot = base.tot) (hf : 0 < info.exportFreq) (hs : info.smoothing ≠ 0) (v : V)
    (c : Coll (K × K × K) (IrMat R)) (hc : c.arrays = realArrays pm pe pr pl pn) : ∃ ds,
      ancDiagnostics info c.arrays (fun _ => .ok v) = .ok ds ∧ (ds.map Diag.name).Nodup ∧
      (∀ d ∈ ds, d.Fits (base.withFast (realArrays pm pe pr pl pn) ⟨1, 512, 512, 1, pl.length, pm.length, mu, beta, .block⟩)
        (FastShape ⟨1, 512, 512, 1, pl.length, pm.length, mu, beta, .block⟩)) ∧ (∀ d ∈ ds, ∀ name ∈ d.data.reads, name ≠ "xf") ∧
      ∀ x ∈ [("sig_ls", "loudspeaker", pl.length), ("sig_error", "error", pm.length), ("sig_ref", "ref", 1),
        ("sig_primary_noise", "noise~error", pm.length), ("sig_secondary_noise", "loudspeaker~error", pm.length)],
        ∃ d ∈ ds, mkRecordSignal info x.1 x.2.1 none none x.2.2 none = .ok d := by
  have hd : ∀ q name, (base.withFast (realArrays pm pe pr pl pn) q).dims name = _ := fun q name => by
    unfold SimCfg.dims
    rw [real_signals base hcon]
  refine ancDiagnostics_fit_eval (cfg := base.withFast (realArrays pm pe pr pl pn) _) rfl hi htot hf hs (nr := 1) (nv := pe.length) ?_ ?_ ?_ ?_
    (List.length_pos_iff.2 hpl) (List.length_pos_iff.2 hpm) (Nat.lt_add_one 0) (List.length_pos_iff.2 hpe) (hd _ _) (hd _ _) (hd _ _) (hd _ _)
    (hd _ _) (hd _ _) (hd _ _) fun p _ => ⟨v, rfl⟩
  · rw [hc]; rfl
  · rw [hc]; rfl
  · rw [hc]; rfl
  · rw [hc]; rfl

/-- C176 for the script as it is shipped: whatever the room, the places of the microphones and
loudspeakers, the measured responses, the noise and the step size, it runs to its end for up to
150015 samples (the script has 10000), and for more it ends with a `ValueError`. -/
theorem C176_shipped {hm he : IrMat R} {pm pe pl : List (K × K × K)} {pr pn : K × K × K}
    (h1 : hm.numIn = pl.length ∧ hm.numOut = pm.length) (h2 : he.numIn = pl.length ∧ he.numOut = pe.length)
    (hpm : pm ≠ []) (hpe : pe ≠ []) (hpl : pl ≠ []) (hfreq : 1 ≤ freq) (hdims : i.dims = 3)
    (hrev : 0 < i.rt60 → ∃ r, ext.inverseSabine i.rt60 i.size = .ok r) (hext : ∀ par, (i.cfg ext par).Lawful)
    (base : SimCfg R (IrMat R) (Fir R) S (G × Coll (K × K × K) (IrMat R)) (FastSt R) (DData R (FastSt R) V) (DOut R V))
    (hdiag : base.diag = diagOps R (FastSt R) V) (hfilt : base.filt = firOps R) (hB : base.B = 1000) (hC : base.C = 10000)
    (htot : 0 < base.tot) (hcon : base.contrib = true) {srcs : String → S} {x : Nat → Nat → R}
    (hx : IsStream base.srcGet (srcs "noise") 1 x) {mu beta : R}
    (hreg : ∀ l : List R, (l.map fun x => x * x).sum + beta ≠ 0) {info : DiagInfo}
    (hi : info.tot = base.tot) (hf : 0 < info.exportFreq) (hs : info.smoothing ≠ 0) (v : V) (f0 : Fir R) (g : G) :
    (base.tot < 150016 → ∃ fin, realSimulate base ext i g (planned freq (realArrays pm pe pr pl pn) (realOps hm he) "ism") srcs 1 512 mu beta f0
      (fun c => ancDiagnostics info c.arrays fun _ => .ok v) = .ok fin) ∧
    (150016 ≤ base.tot → realSimulate base ext i g (planned freq (realArrays pm pe pr pl pn) (realOps hm he) "ism") srcs 1 512 mu beta f0
      (fun c => ancDiagnostics info c.arrays fun _ => .ok v) = .error .value) := by
  have hS := real_scene (mu := mu) (realArrays_plan (pr := pr) (pn := pn) h1 h2 hpm hpe hpl hfreq hdims hrev hext) hdiag hfilt hB hC hcon hx hreg
  have hds := fun c hc => real_diags (pr := pr) (pn := pn) (mu := mu) (beta := beta) hpm hpe hpl base htot hcon hi hf hs v c hc
  have hr : Reaches (base.withFast (realArrays pm pe pr pl pn) ⟨1, 512, 512, 1, pl.length, pm.length, mu, beta, .block⟩)
      ⟨1, 512, 512, 1, pl.length, pm.length, mu, beta, .block⟩ (2 * 512) (base.tot + 1) ↔ base.tot < 150016 :=
    real_reaches (cfg := base.withFast _ _) hB hC rfl rfl rfl
  constructor
  · intro ht
    exact C176_runs hS (.inr ⟨show 1 ≤ base.C by omega, hr.2 ht⟩) f0
      (fun c hc => by obtain ⟨ds, d1, d2, d3, d4, -⟩ := hds c hc; exact ⟨ds, d1, d2, d3, d4⟩) g
  · intro ht
    exact C176_raises hS (show 1 ≤ base.C by omega) (fun h => by have := hr.1 h; omega) f0
      (fun c hc => by obtain ⟨ds, d1, d2, d3, d4, -⟩ := hds c hc; exact ⟨ds, d1, d2, d3, d4⟩) g

/-- C177 for the script as it is shipped, in terms of its recordings, the noise `x` and the measured
responses `hm`.  The last 488 samples of the noise before the simulation do not enter the filtered
reference, nor does what comes after the first 511 taps of the measured responses. -/
theorem C177_shipped {hm he : IrMat R} {pm pe pl : List (K × K × K)} {pr pn : K × K × K}
    (h1 : hm.numIn = pl.length ∧ hm.numOut = pm.length) (h2 : he.numIn = pl.length ∧ he.numOut = pe.length)
    (hpm : pm ≠ []) (hpe : pe ≠ []) (hpl : pl ≠ []) (hfreq : 1 ≤ freq) (hdims : i.dims = 3)
    (hrev : 0 < i.rt60 → ∃ r, ext.inverseSabine i.rt60 i.size = .ok r) (hext : ∀ par, (i.cfg ext par).Lawful) (hlow : ¬ 0 < i.cutoff)
    (base : SimCfg R (IrMat R) (Fir R) S (G × Coll (K × K × K) (IrMat R)) (FastSt R) (DData R (FastSt R) V) (DOut R V))
    (hdiag : base.diag = diagOps R (FastSt R) V) (hfilt : base.filt = firOps R) (hB : base.B = 1000) (hC : base.C = 10000)
    (htot : 0 < base.tot) (hcon : base.contrib = true) (hwarm : base.warm = true) {srcs : String → S} {x : Nat → Nat → R}
    (hx : IsStream base.srcGet (srcs "noise") 1 x) {mu beta : R}
    (hreg : ∀ l : List R, (l.map fun x => x * x).sum + beta ≠ 0) {info : DiagInfo}
    (hi : info.tot = base.tot) (hf : 0 < info.exportFreq) (hs : info.smoothing ≠ 0) (v : V) {f0 : Fir R} {g : G}
    {fin : SimSt R (Fir R) S (G × Coll (K × K × K) (IrMat R)) (FastSt R) (DData R (FastSt R) V) (DOut R V)}
    (hfin : realSimulate base ext i g (planned freq (realArrays pm pe pr pl pn) (realOps hm he) "ism") srcs 1 512 mu beta f0
      (fun c => ancDiagnostics info c.arrays fun _ => .ok v) = .ok fin) :
    ∃ par gc hN, roomSetup ext i g (planned freq (realArrays pm pe pr pl pn) (realOps hm he) "ism") = .ok (par, gc) ∧
      gc.2.paths "noise" "error" = some hN ∧
      ∃ e p s y : Nat → Nat → R, Recording fin.diags "sig_error" "error" pm.length base.tot e ∧
        Recording fin.diags "sig_primary_noise" "noise~error" pm.length base.tot p ∧
        Recording fin.diags "sig_secondary_noise" "loudspeaker~error" pm.length base.tot s ∧
        Recording fin.diags "sig_ls" "loudspeaker" pl.length base.tot y ∧
        Recording fin.diags "sig_ref" "ref" 1 base.tot (fun c t => x c (t + 999)) ∧
        (∀ c < pm.length, ∀ t < base.tot, e c t = p c t + s c t ∧
          p c t = throughPath hN 1 (streamFrom 1000 x) c t ∧
          s c t = throughPath hm pl.length (fun i t => if t < 0 then 0 else y i t.toNat) c t) ∧
        ∀ c < pl.length, ∀ t < base.tot, y c t = adaptiveOut 1 512 1 512
          (lmsTaps .block beta mu 1 pl.length pm.length 512 512 1 (storedFrom (hm.firstTaps 511) 488 1 (streamFrom 1000 x))
            (fun c t => if t < 0 then 0 else e c t.toNat)) (streamFrom 1000 x) c t := by
  have hp := realArrays_plan (pr := pr) (pn := pn) h1 h2 hpm hpe hpl hfreq hdims hrev hext
  have hS := real_scene (mu := mu) hp hdiag hfilt hB hC hcon hx hreg
  obtain ⟨par, gc, hN, hL, a1, a2, a3, e, p, s, y, b1, b2, b3, b4, b5, b6, b7⟩ := C177_loop hS hcon hwarm hlow
    (n := placedArr "noise" .free true [pn]) (l := placedArr "loudspeaker" .ctrl true pl) (m := placedArr "error" .mic true pm)
    (r := placedArr "ref" .mic true [pr])
    (by simp [realArrays]) rfl (by simp [realArrays]) rfl (by simp [realArrays]) rfl (by simp [realArrays]) rfl ⟨rfl, rfl⟩ ⟨rfl, rfl⟩
    (by
      intro a ha hk
      simp only [realArrays, List.mem_cons, List.not_mem_nil, or_false] at ha
      rcases ha with rfl | rfl | rfl | rfl | rfl
      · rcases hk with h | h <;> cases h
      · rcases hk with h | h <;> cases h
      · rcases hk with h | h <;> cases h
      · exact .inr rfl
      · exact .inl rfl) ⟨rfl, rfl, rfl⟩ hx hfin (info := info) (ex := none)
    (name1 := "sig_error") (name2 := "sig_primary_noise") (name3 := "sig_secondary_noise") (name4 := "sig_ls") (name5 := "sig_ref")
    (by
      intro c ds hc hd
      obtain ⟨ds', d1, d2, -, -, d5⟩ := real_diags (pr := pr) (pn := pn) (mu := mu) (beta := beta) hpm hpe hpl base htot hcon hi hf hs v c hc
      rw [hd] at d1
      cases d1
      exact ⟨d2, d5 ("sig_error", "error", pm.length) (by simp), d5 ("sig_primary_noise", "noise~error", pm.length) (by simp),
        d5 ("sig_secondary_noise", "loudspeaker~error", pm.length) (by simp), d5 ("sig_ls", "loudspeaker", pl.length) (by simp),
        d5 ("sig_ref", "ref", 1) (by simp)⟩) hi htot
  have hgiven := hp.given a1 (s := placedArr "loudspeaker" .ctrl true pl) (m := placedArr "error" .mic true pm) (by simp [realArrays])
    (.inr rfl) (by simp [realArrays]) rfl (H := hm) (by rw [(realOps_paths (pe := pe) h1 h2).1]; rfl)
  obtain rfl : hL = hm := Option.some.inj (a3.symm.trans hgiven)
  rw [hB] at b5 b6 b7
  have c5 : (fun (c t : Nat) => x c (t + 1000 - 1)) = fun c t => x c (t + 999) := by
    funext c t
    rw [show t + 1000 - 1 = t + 999 by omega]
  rw [c5] at b5
  have e1 : (512 - 1 : Nat) = 511 := by decide
  have e2 : 1000 % 512 = 488 := by decide
  dsimp only at b7
  rw [e1, e2] at b7
  exact ⟨par, gc, hN, a1, a2, e, p, s, y, b1, b2, b3, b4, b5, b6, b7⟩

end

/-- The other arguments of the script, for a box. -/
def realBase (tot : Nat) : SimCfg ℚ (IrMat ℚ) (Fir ℚ) Nat (Nat × Coll (ℚ × ℚ × ℚ) (IrMat ℚ)) (FastSt ℚ) (DData ℚ (FastSt ℚ) ℚ) (DOut ℚ ℚ) where
  B := 1000
  C := 10000
  tot := tot
  warm := true
  contrib := true
  plotNone := false
  arrays := []
  srcGet := boxBase.srcGet
  filt := firOps ℚ
  arrUpdate := fun _ _ => .error .key
  arrPath := fun _ _ _ => .error .key
  proc := none
  diag := diagOps ℚ (FastSt ℚ) ℚ

/-- Measured responses of three loudspeakers at `n` microphones. -/
def realIr (n : Nat) : IrMat ℚ := ⟨3, n, fun i j => [(i : ℚ), (j : ℚ), 1 / 2]⟩

/-- Two error and one evaluation microphones and three loudspeakers: the whole script with 10000 samples. -/
example (g : Nat) : ∃ fin, realSimulate (realBase 10000) boxExt boxInfo g
    (planned 2 (realArrays [(0, 1, 3), (0, 2, 3)] [(0, 0, 3)] (3, 1, 3) [(1, 1, 3), (1, 2, 3), (1, 0, 3)] (3, 1, 3)) (realOps (realIr 2) (realIr 1)) "ism")
    (fun _ => 0) 1 512 (1 / 20) (1 / 1000000) demoFilt
    (fun c => ancDiagnostics ⟨10000, 2000, 512⟩ c.arrays fun _ => .ok 0) = .ok fin ∧
    ∃ e p s y : Nat → Nat → ℚ, Recording fin.diags "sig_error" "error" 2 10000 e ∧
      Recording fin.diags "sig_primary_noise" "noise~error" 2 10000 p ∧
      Recording fin.diags "sig_secondary_noise" "loudspeaker~error" 2 10000 s ∧
      Recording fin.diags "sig_ls" "loudspeaker" 3 10000 y ∧
      Recording fin.diags "sig_ref" "ref" 1 10000 (fun _ t => ((t + 1000 : Nat) : ℚ)) ∧ e 1 9999 = p 1 9999 + s 1 9999 := by
  have hx : IsStream (realBase 10000).srcGet ((fun _ => 0 : String → Nat) "noise") 1 fun _ t => ((0 + t + 1 : Nat) : ℚ) := open_stream 0
  obtain ⟨fin, h1⟩ := (C176_shipped (hm := realIr 2) (he := realIr 1) (pm := [((0 : ℚ), (1 : ℚ), (3 : ℚ)), (0, 2, 3)]) (pe := [(0, 0, 3)])
    (pl := [(1, 1, 3), (1, 2, 3), (1, 0, 3)]) (pr := (3, 1, 3)) (pn := (3, 1, 3)) (freq := 2) (i := boxInfo) (ext := boxExt)
    ⟨rfl, rfl⟩ ⟨rfl, rfl⟩ (by simp) (by simp) (by simp) (by omega) rfl plan_demo.reverberation box_lawful (realBase 10000) rfl rfl rfl rfl
    (by decide) rfl (srcs := fun _ => 0) hx (mu := 1 / 20) (beta := 1 / 1000000)
    (regular_pos (by norm_num)) (info := ⟨10000, 2000, 512⟩) rfl (by decide) (by decide) 0 demoFilt g).1 (by decide)
  obtain ⟨par, gc, hN, -, -, e, p, s, y, r1, r2, r3, r4, r5, r6, -⟩ := C177_shipped (hm := realIr 2) (he := realIr 1)
    (pm := [((0 : ℚ), (1 : ℚ), (3 : ℚ)), (0, 2, 3)]) (pe := [(0, 0, 3)])
    (pl := [(1, 1, 3), (1, 2, 3), (1, 0, 3)]) (pr := (3, 1, 3)) (pn := (3, 1, 3)) (freq := 2) (i := boxInfo) (ext := boxExt)
    ⟨rfl, rfl⟩ ⟨rfl, rfl⟩ (by simp) (by simp) (by simp) (by omega) rfl plan_demo.reverberation box_lawful (by decide) (realBase 10000) rfl rfl rfl rfl
    (by decide) rfl rfl (srcs := fun _ => 0) hx (regular_pos (by norm_num)) (info := ⟨10000, 2000, 512⟩) rfl (by decide) (by decide) 0 h1
  refine ⟨fin, h1, e, p, s, y, r1, r2, r3, r4, ?_, (r6 1 (by decide) 9999 (by decide)).1⟩
  have hfun : (fun (_ t : Nat) => ((t + 1000 : Nat) : ℚ)) = fun _ t => ((0 + (t + 999) + 1 : Nat) : ℚ) := by
    funext _ t
    rw [show 0 + (t + 999) + 1 = t + 1000 by omega]
  rw [hfun]
  exact r5

end Verif

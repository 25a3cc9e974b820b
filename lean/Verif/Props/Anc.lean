/-
C166, C167: the active noise control example as a whole.
-/
import Verif.Lemmas.Anc
import Verif.Spec.Anc
import Verif.Props.AdaptiveScene
import Verif.Props.AdaptiveRecording
import Verif.Props.AdaptiveTotal
import Verif.Props.RoomTotal
namespace Verif

section
variable {K R G S V : Type} [Field K] [LinearOrder K] [Field R] [DecidableEq R]
  {ext : RoomExt K R G} {i : RoomInfo K} {freq : Nat} {as : List (Arr (K × K × K))} {os : List (PathOp R)} {t : String}

theorem numOfArray_eq {Pt : Type} {as : List (Arr Pt)} (hnd : (as.map Arr.name).Nodup) {a : Arr Pt} (ha : a ∈ as) :
    numOfArray as a.name = .ok a.num := by
  have : as.find? (fun b => b.name == a.name) = some a := by
    induction as with
    | nil => cases ha
    | cons b as ih =>
      rw [List.map_cons, List.nodup_cons] at hnd
      rcases List.mem_cons.1 ha with rfl | h'
      · simp
      · rw [List.find?_cons_of_neg, ih hnd.2 h']
        intro hb
        exact hnd.1 (by rw [eq_of_beq hb]; exact List.mem_map_of_mem h')
  unfold numOfArray
  rw [this]

theorem AncScene.fx {base : SimCfg R (IrMat R) (Fir R) S (G × Coll (K × K × K) (IrMat R)) (FxSt R) (DData R (FxSt R) V) (DOut R V)}
    {srcs : String → S} {q : FxPar R} (h : AncScene base ext i freq as os t srcs q) (par : K × Nat) :
    FxScene (roomCfg { base with proc := some (fxProc q) } ext i par as) q := by
  have hmem : ∀ {a : Arr (K × K × K)} {k : ArrKind}, a ∈ as → a.kind = some k →
      (⟨a.name, a.num, k, a.dynamic⟩ : ArrInfo) ∈ infosOf as :=
    fun ha hk => mem_infosOf.2 ⟨_, ha, hk, rfl, rfl, rfl⟩
  have hn : ∀ a ∈ as, 0 < a.num := h.plan.channels
  obtain ⟨r, hr1, hr2, hr3, hr4⟩ := h.ref
  obtain ⟨e, he1, he2, he3, he4⟩ := h.err
  obtain ⟨l, hl1, hl2, hl3, hl4⟩ := h.ls
  exact ⟨rfl, ⟨_, hmem hr1 hr3, hr2, rfl, hr4⟩, ⟨_, hmem he1 he3, he2, rfl, he4⟩,
    ⟨_, hmem hl1 hl3, hl2, rfl, hl4⟩,
    fun a ha => by obtain ⟨b, hb, -, e2, -⟩ := mem_infosOf.1 ha; rw [← e2]; exact h.own b hb,
    hr4 ▸ hn r hr1, hl4 ▸ hn l hl1, he4 ▸ hn e he1, h.L,
    h.bs, h.ub, h.chunk, h.buffer,
    h.regular⟩

/-- What happens before the simulation is run. -/
theorem AncScene.begin {base : SimCfg R (IrMat R) (Fir R) S (G × Coll (K × K × K) (IrMat R)) (FxSt R) (DData R (FxSt R) V) (DOut R V)}
    {srcs : String → S} {q : FxPar R} (h : AncScene base ext i freq as os t srcs q) (g : G) :
    ∃ par gc sp, roomSetup ext i g (planned freq as os t) = .ok (par, gc) ∧ gc.2.arrays = as ∧
      Usable (i.cfg ext par) (infosOf as) gc.2 ∧ gc.2.paths "loudspeaker" "error" = some sp ∧
      ∀ (f0 : Fir R) (diags : Coll (K × K × K) (IrMat R) → Except PyErr (List (Diag (DData R (FxSt R) V)))),
      ancSimulate base ext i g (planned freq as os t) srcs q.bs q.ub q.L q.mu q.beta q.norm f0 diags =
        match diags gc.2 with
        | .error x => .error x
        | .ok ds => (roomCfg { base with proc := some (fxProc q) } ext i par as).runWith fxPrepare srcs gc (fxInit q sp) f0 ds := by
  obtain ⟨r, hr1, hr2, hr3, hr4⟩ := h.ref
  obtain ⟨e, he1, he2, he3, he4⟩ := h.err
  obtain ⟨l, hl1, hl2, hl3, hl4⟩ := h.ls
  obtain ⟨hinf, par, gc, hset, hu⟩ := h.plan.setup g
  have harr := h.plan.arrays hset
  obtain ⟨sp, hsp, -⟩ := hu.paths l (by rw [harr]; exact hl1) e (by rw [harr]; exact he1) (.inr hl3) he3
  have hpath : Coll.path gc "loudspeaker" "error" = .ok sp := by
    unfold Coll.path
    rw [← hl2, ← he2, hsp]
  have hcre : fxCreate gc.2.arrays q.bs q.ub q.L q.mu q.beta q.norm = .ok q := by
    have k1 := numOfArray_eq h.plan.names hr1
    have k2 := numOfArray_eq h.plan.names he1
    have k3 := numOfArray_eq h.plan.names hl1
    rw [hr2, hr4] at k1
    rw [he2, he4] at k2
    rw [hl2, hl4] at k3
    have hub := h.ub
    have hbs := h.bs
    unfold fxCreate
    rw [harr, k1, k2, k3]
    dsimp only
    rw [if_neg (by omega), if_neg (by simp [Nat.mod_eq_zero_of_dvd hub.2]),
      if_neg (by have := Nat.le_of_dvd hub.1 hub.2; omega)]
  refine ⟨par, gc, sp, hset, harr, hu, by rw [← hl2, ← he2, hsp], fun f0 diags => ?_⟩
  unfold ancSimulate
  rw [hset]
  dsimp only
  rw [hpath]
  dsimp only
  rw [hcre]
  dsimp only
  cases diags gc.2 with
  | error x => rfl
  | ok ds => rw [hinf]; rfl

/-- C166. The active noise control example runs to its end, in any room and with any arrays: the
impulse responses are generated, the processor is made with those from the loudspeakers to the error
microphones, and the simulation is run with any diagnostics that fit. -/
theorem C166_anc_runs {base : SimCfg R (IrMat R) (Fir R) S (G × Coll (K × K × K) (IrMat R)) (FxSt R) (DData R (FxSt R) V) (DOut R V)}
    {srcs : String → S} {q : FxPar R} (h : AncScene base ext i freq as os t srcs q)
    (hb : Holds (base.withAnc as q) q (q.ub + q.L - 1) (base.tot + q.bs)) (f0 : Fir R)
    {diags : Coll (K × K × K) (IrMat R) → Except PyErr (List (Diag (DData R (FxSt R) V)))}
    (hds : ∀ c, c.arrays = as → ∃ ds, diags c = .ok ds ∧ (ds.map Diag.name).Nodup ∧
      (∀ d ∈ ds, d.Fits (base.withAnc as q) (FxShape q)) ∧ ∀ d ∈ ds, ∀ name ∈ d.data.reads, name ≠ "xf") (g : G) :
    ∃ fin, ancSimulate base ext i g (planned freq as os t) srcs q.bs q.ub q.L q.mu q.beta q.norm f0 diags = .ok fin := by
  obtain ⟨par, gc, sp, hset, harr, hu, -, he⟩ := h.begin g
  obtain ⟨ds, d1, d2, d3, d4⟩ := hds gc.2 harr
  have hv := h.plan.scene { base with proc := some (fxProc q) } h.diag h.filt h.names h.streams hu
  obtain ⟨fin, hfin⟩ := C157_adaptive_runs_through (h.fx par) hb hv sp f0 d2 (fun d hd => Diag.Fits.of_dims (cfg := base.withAnc as q)
    (cfg' := roomCfg { base with proc := some (fxProc q) } ext i par as) rfl rfl rfl (d3 d hd)) d4
  exact ⟨fin, by rw [he, d1]; exact hfin⟩

/-! ### The signals of the example -/

/-- What a simulation of the example that ran through consists of. -/
theorem AncScene.ran {base : SimCfg R (IrMat R) (Fir R) S (G × Coll (K × K × K) (IrMat R)) (FxSt R) (DData R (FxSt R) V) (DOut R V)}
    {srcs : String → S} {q : FxPar R} (h : AncScene base ext i freq as os t srcs q) {g : G} {f0 : Fir R}
    {diags : Coll (K × K × K) (IrMat R) → Except PyErr (List (Diag (DData R (FxSt R) V)))}
    {fin : SimSt R (Fir R) S (G × Coll (K × K × K) (IrMat R)) (FxSt R) (DData R (FxSt R) V) (DOut R V)}
    (hfin : ancSimulate base ext i g (planned freq as os t) srcs q.bs q.ub q.L q.mu q.beta q.norm f0 diags = .ok fin)
    (hnd : ∀ c ds, c.arrays = as → diags c = .ok ds → (ds.map Diag.name).Nodup) :
    ∃ par gc sp ds st0, roomSetup ext i g (planned freq as os t) = .ok (par, gc) ∧ gc.2.arrays = as ∧
      Usable (i.cfg ext par) (infosOf as) gc.2 ∧ gc.2.paths "loudspeaker" "error" = some sp ∧ diags gc.2 = .ok ds ∧
      FxRun (roomCfg { base with proc := some (fxProc q) } ext i par as) q sp srcs gc f0 ds st0 fin := by
  obtain ⟨par, gc, sp, hset, harr, hu, hsp, he⟩ := h.begin g
  rw [he] at hfin
  split at hfin
  · cases hfin
  rename_i ds hds'
  have hinit : ∃ st0, (roomCfg { base with proc := some (fxProc q) } ext i par as).initWith fxPrepare srcs gc (fxInit q sp) f0 ds = .ok st0 := by
    unfold SimCfg.runWith at hfin
    split at hfin
    · cases hfin
    · exact ⟨_, by assumption⟩
  obtain ⟨st0, hst0⟩ := hinit
  exact ⟨par, gc, sp, ds, st0, hset, harr, hu, hsp, hds', h.fx par, h.diag, hnd gc.2 ds harr hds', hst0, hfin⟩

/-- What was recorded was produced. -/
theorem FxRun.recording {A F IR : Type} {cfg : SimCfg R IR F S A (FxSt R) (DData R (FxSt R) V) (DOut R V)} {q : FxPar R} {Sp : IrMat R}
    {srcs : String → S} {arr : A} {f0 : F} {ds0 : List (Diag (DData R (FxSt R) V))}
    {st0 fin : SimSt R F S A (FxSt R) (DData R (FxSt R) V) (DOut R V)} (h : FxRun cfg q Sp srcs arr f0 ds0 st0 fin)
    {info : DiagInfo} {name sig : String} {ex : Option IdxSel} {num : Nat} {d : Diag (DData R (FxSt R) V)} (hmem : d ∈ ds0)
    (hd : mkRecordSignal info name sig ex none num none = .ok d) (htot : info.tot = cfg.tot) (hpos : 0 < cfg.tot)
    (hsig : cfg.dims sig = some num) (hx : sig ≠ "xf") {y : Nat → Nat → R}
    (hy : ∀ c < num, ∀ t < cfg.tot, cfg.Produced st0 sig c t (y c t)) : Recording fin.diags name sig num cfg.tot y := by
  obtain ⟨d', g1, g2, signal, g3, g4, g5⟩ := C151_recording h hd hmem htot (ivs := [(0, (cfg.tot : Int))]) rfl
    ⟨le_refl _, Int.natCast_pos.2 hpos, trivial⟩ (by intro p hp; rw [List.mem_singleton] at hp; subst hp; exact le_refl _)
    hsig hx rfl List.length_range
  refine ⟨d', g1, g2, signal, g3, g4, fun c hc => ?_⟩
  obtain ⟨row, r1, r2, r3⟩ := g5 c c (by rw [List.getElem?_range hc])
  refine ⟨row, r1, r2, fun t' ht => ?_⟩
  obtain ⟨v, hv, hrow⟩ := (r3 t' ht).1 ⟨_, List.mem_singleton.2 rfl, Int.natCast_nonneg _, Int.ofNat_lt.2 ht⟩
  rw [hrow, hv.unique (hy c hc t' ht)]

/-- The closed loop in the room: `Y` is what the loudspeakers play. -/
theorem AncScene.loop {base : SimCfg R (IrMat R) (Fir R) S (G × Coll (K × K × K) (IrMat R)) (FxSt R) (DData R (FxSt R) V) (DOut R V)}
    {srcs : String → S} {q : FxPar R} (h : AncScene base ext i freq as os t srcs q) {n : Arr (K × K × K)} (hn : n ∈ as)
    {x : Nat → Nat → R} (hx : IsStream base.srcGet (srcs n.name) n.num x) {par : K × Nat} {gc : G × Coll (K × K × K) (IrMat R)} {g : G}
    (hset : roomSetup ext i g (planned freq as os t) = .ok (par, gc)) (hu : Usable (i.cfg ext par) (infosOf as) gc.2)
    {sp : IrMat R} {f0 : Fir R} {ds : List (Diag (DData R (FxSt R) V))}
    {st0 fin : SimSt R (Fir R) S (G × Coll (K × K × K) (IrMat R)) (FxSt R) (DData R (FxSt R) V) (DOut R V)}
    (hrun : FxRun (roomCfg { base with proc := some (fxProc q) } ext i par as) q sp srcs gc f0 ds st0 fin) :
    ∃ (X : String → Nat → Nat → R) (Y : Nat → Nat → R), X n.name = x ∧
      (∀ l < q.nl, ∀ t ≤ base.tot, (roomCfg { base with proc := some (fxProc q) } ext i par as).Produced st0 "loudspeaker" l t (Y l t)) ∧
      ∀ m ∈ infosOf as, m.kind = .mic → ∀ t ≤ base.tot, ∃ ir : String → IrMat R,
        (∀ s ∈ infosOf as, s.kind ≠ .mic → (roomCfg { base with proc := some (fxProc q) } ext i par as).IrAt gc s m t (ir s.name)) ∧
        ∀ c < m.num,
          (roomCfg { base with proc := some (fxProc q) } ext i par as).Produced st0 m.name c t
            (convSum ((infosOf as).filter fun s => s.kind != .mic) ir
              ((roomCfg { base with proc := some (fxProc q) } ext i par as).playedWith X Y) c t) ∧
          (base.contrib = true → ∀ s ∈ infosOf as, s.kind ≠ .mic →
            (roomCfg { base with proc := some (fxProc q) } ext i par as).Produced st0 (s.name ++ "~" ++ m.name) c t
              (convSum [s] ir ((roomCfg { base with proc := some (fxProc q) } ext i par as).playedWith X Y) c t)) := by
  have inj : ∀ {a b : Arr (K × K × K)}, a ∈ as → b ∈ as → a.name = b.name → a = b := fun ha hb e =>
    List.inj_on_of_nodup_map h.plan.names ha hb e
  obtain ⟨st, hst⟩ := hrun.stepsTo (n := base.tot) (Nat.le_add_right _ _)
  obtain ⟨ρ, e, hρ, he'⟩ := fx_recorded hrun.scene hrun.init hst
  have hstr : ∃ X : String → Nat → Nat → R, X n.name = x ∧ ∀ a ∈ as, a.kind = some .free → IsStream base.srcGet (srcs a.name) a.num (X a.name) := by
    have : ∀ nm : String, ∃ X : Nat → Nat → R, (nm = n.name → X = x) ∧
        ∀ a ∈ as, a.kind = some .free → a.name = nm → IsStream base.srcGet (srcs a.name) a.num X := by
      intro nm
      by_cases e : nm = n.name
      · exact ⟨x, fun _ => rfl, fun a ha _ hnm => by rw [inj ha hn (hnm.trans e)]; exact hx⟩
      · by_cases hh : ∃ a ∈ as, a.kind = some .free ∧ a.name = nm
        · obtain ⟨a, ha, hk, hnm⟩ := hh
          obtain ⟨X, hX⟩ := h.streams a ha hk
          exact ⟨X, fun e' => absurd e' e, fun b hb _ hbm => by rw [inj hb ha (hbm.trans hnm.symm)]; exact hX⟩
        · exact ⟨fun _ _ => 0, fun e' => absurd e' e, fun a ha hk hnm => absurd ⟨a, ha, hk, hnm⟩ hh⟩
    choose X hX1 hX2 using this
    exact ⟨X, hX1 _ rfl, fun a ha hk => hX2 _ a ha hk rfl⟩
  obtain ⟨X, hX1, hX2⟩ := hstr
  refine ⟨X, _, hX1, (C143_stored hrun.scene hrun.init hst hρ he').1, fun m hmi hmk t' ht => ?_⟩
  exact C148_closed_loop hrun.scene hrun.init hst h.filt
    (fun a ha => by obtain ⟨b, hb, -, -, e3, -⟩ := mem_infosOf.1 ha; rw [← e3]; exact h.plan.channels b hb)
    (h.plan.shape hset hu) (x := X)
    (fun a ha hk => by
      obtain ⟨b, hb, e1, e2, e3, -⟩ := mem_infosOf.1 ha
      rw [← e2, ← e3]
      exact hX2 b hb (by rw [e1, hk]))
    hρ he' hmi hmk t' ht

omit [Field K] [LinearOrder K] [DecidableEq R] in
theorem AncScene.infos_nodup [LinearOrder K] [Field K] [DecidableEq R] {base : SimCfg R (IrMat R) (Fir R) S (G × Coll (K × K × K) (IrMat R)) (FxSt R) (DData R (FxSt R) V) (DOut R V)}
    {srcs : String → S} {q : FxPar R} (h : AncScene base ext i freq as os t srcs q) : ((infosOf as).map ArrInfo.name).Nodup := by
  have := h.names
  unfold SimCfg.signalList at this
  rw [show (base.withAnc as q).proc = some (fxProc q) from rfl] at this
  simp only [List.map_append, List.map_map, List.nodup_append] at this
  exact this.1.1

/-- C167. A microphone array with a direct path from one source and none from the others records that
source, if the simulation has no high-pass filter: the sample at time index `t` is the
source's `t`-th (or, with `start_sources_before_0`, its `(t + sim_buffer - 1)`-th). -/
theorem C167_reference {base : SimCfg R (IrMat R) (Fir R) S (G × Coll (K × K × K) (IrMat R)) (FxSt R) (DData R (FxSt R) V) (DOut R V)}
    {srcs : String → S} {q : FxPar R} (h : AncScene base ext i freq as os t srcs q) (hlow : ¬ 0 < i.cutoff)
    {n m : Arr (K × K × K)} (hn : n ∈ as) (hnk : n.kind = some .free) (hm : m ∈ as) (hmk : m.kind = some .mic)
    (hdir : HasType os t n m "direct")
    (hnone : ∀ a ∈ as, (a.kind = some .free ∨ a.kind = some .ctrl) → a ≠ n → HasType os t a m "none")
    {x : Nat → Nat → R} (hx : IsStream base.srcGet (srcs n.name) n.num x)
    {g : G} {f0 : Fir R} {diags : Coll (K × K × K) (IrMat R) → Except PyErr (List (Diag (DData R (FxSt R) V)))}
    {fin : SimSt R (Fir R) S (G × Coll (K × K × K) (IrMat R)) (FxSt R) (DData R (FxSt R) V) (DOut R V)}
    (hfin : ancSimulate base ext i g (planned freq as os t) srcs q.bs q.ub q.L q.mu q.beta q.norm f0 diags = .ok fin)
    {info : DiagInfo} {name : String} {ex : Option IdxSel}
    (hds : ∀ c ds, c.arrays = as → diags c = .ok ds → (ds.map Diag.name).Nodup ∧
      ∃ d ∈ ds, mkRecordSignal info name m.name ex none m.num none = .ok d)
    (htot : info.tot = base.tot) (hpos : 0 < base.tot) :
    Recording fin.diags name m.name m.num base.tot fun c t => x c (if base.warm then t + base.B - 1 else t) := by
  obtain ⟨par, gc, sp, ds, st0, hset, harr, hu, -, hds', hrun⟩ := h.ran hfin fun c ds hc hd => (hds c ds hc hd).1
  obtain ⟨k1, d, hd1, hd2⟩ := hds gc.2 ds harr hds'
  have hmi : (⟨m.name, m.num, .mic, m.dynamic⟩ : ArrInfo) ∈ infosOf as := mem_infosOf.2 ⟨m, hm, hmk, rfl, rfl, rfl⟩
  have hni : (⟨n.name, n.num, .free, n.dynamic⟩ : ArrInfo) ∈ infosOf as := mem_infosOf.2 ⟨n, hn, hnk, rfl, rfl, rfl⟩
  have inj : ∀ {a b : Arr (K × K × K)}, a ∈ as → b ∈ as → a.name = b.name → a = b := fun ha hb e =>
    List.inj_on_of_nodup_map h.plan.names ha hb e
  have hnum : n.num = m.num := by
    have := h.plan.types n hn m hm (.inl hnk) hmk hdir.1
    rw [hdir.2] at this
    rcases this with e | e | ⟨-, e⟩ | ⟨e, -⟩
    · exact absurd e (by decide)
    · exact absurd e (by decide)
    · exact e
    · exact absurd e (by decide)
  have hN := (fx_init hrun.scene sp hrun.init).1
  refine hrun.recording hd1 hd2 htot hpos (hN.arr _ hmi) (h.own m hm) fun c hc t' ht => ?_
  obtain ⟨X, Y, hX1, -, hloop⟩ := h.loop hn hx hset hu hrun
  obtain ⟨ir, hir, hout⟩ := hloop _ hmi rfl t' (Nat.le_of_lt ht)
  have hval := (hout c hc).1
  rw [convSum_plain (s := ⟨n.name, n.num, .free, n.dynamic⟩) ?_ ?_
    (fun a => if a.name = n.name then "direct" else "none") (fun a => a.num) ?_ (if_pos rfl) ?_ (by rw [hnum]; exact hc)] at hval
  · have hls : n.name ≠ "loudspeaker" := by
      obtain ⟨l, hl1, hl2, hl3, -⟩ := h.ls
      intro e
      rw [inj hn hl1 (e.trans hl2.symm), hl3] at hnk
      cases hnk
    have hB := h.buffer.1
    unfold SimCfg.playedWith SimCfg.played at hval
    have hlt : -(((if base.warm then base.B else 1 : Nat)) : Int) < t' := by split <;> omega
    rw [if_neg hls, if_pos ⟨⟨_, hni, rfl, rfl⟩, hlt⟩, hX1] at hval
    have hidx : (t' + ((if base.warm then base.B else 1 : Nat) : Int) - 1).toNat = if base.warm then t' + base.B - 1 else t' := by
      split <;> omega
    rw [← hidx]
    exact hval
  · exact (nodup_map_of h.infos_nodup).filter _
  · exact List.mem_filter.2 ⟨hni, rfl⟩
  · intro a ha
    obtain ⟨ha1, ha2⟩ := List.mem_filter.1 ha
    obtain ⟨b, hb, e1, e2, e3, -⟩ := mem_infosOf.1 ha1
    have hbk : b.kind = some .free ∨ b.kind = some .ctrl := by
      rw [e1]
      cases hk : a.kind
      · rw [hk] at ha2; cases ha2
      · exact .inl rfl
      · exact .inr rfl
    refine ⟨m.num, ?_⟩
    have hi := hir a ha1 (by simpa using ha2)
    by_cases e : a.name = n.name
    · rw [if_pos e]
      have hp := h.plan.plain hlow hb hm hbk hmk (ty := "direct") (by rw [inj hb hn (e2.trans e)]; exact hdir.1)
        (by rw [inj hb hn (e2.trans e)]; exact hdir.2) (.inr rfl) hset hu
      rw [e2, e3] at hp
      exact hp.irAt h.plan hlow rfl rfl (.inr rfl) hi
    · rw [if_neg e]
      have hne : b ≠ n := fun e' => e (by rw [← e2, e'])
      have hp := h.plan.plain hlow hb hm hbk hmk (hnone b hb hbk hne).1 (hnone b hb hbk hne).2 (.inl rfl) hset hu
      rw [e2, e3] at hp
      exact hp.irAt h.plan hlow rfl rfl (.inl rfl) hi
  · intro a ha hne
    refine if_neg fun e => hne ?_
    exact hN.inj a (List.mem_filter.1 ha).1 _ hni e

/-! ### The sizes of the example -/

/-- An array that stands still, as `add_mics`, `add_controllable_source` and `add_free_source` create it. -/
def stillArr (name : String) (kind : ArrKind) (pos : List (K × K × K)) : Arr (K × K × K) :=
  ⟨name, some kind, pos.length, pos, none, 1, none, true, []⟩

omit [Field K] [LinearOrder K] in
theorem stillArr_made (name : String) (kind : ArrKind) (pos : List (K × K × K)) :
    mkArr name (some kind) true (.mat pos) = .ok (stillArr name kind pos) := rfl

/-- The arrays of the example, at any places. -/
def exampleArrays (pe pr pl pn : List (K × K × K)) : List (Arr (K × K × K)) :=
  [stillArr "error" .mic pe, stillArr "ref" .mic pr, stillArr "loudspeaker" .ctrl pl, stillArr "noise" .free pn]

/-- The path types set in the example. -/
def exampleTypes : List (PathOp R) := [.type "loudspeaker" "ref" "none", .type "noise" "ref" "direct"]

omit [DecidableEq R] in
theorem exampleArrays_plan {pe pr pl pn : List (K × K × K)} (he : pe ≠ []) (hr : pr ≠ []) (hl : pl ≠ [])
    (hn : pn.length = pr.length) (hfreq : 1 ≤ freq) (hdims : i.dims = 3)
    (hrev : 0 < i.rt60 → ∃ r, ext.inverseSabine i.rt60 i.size = .ok r) (hext : ∀ par, (i.cfg ext par).Lawful) :
    RoomPlan ext i freq (exampleArrays pe pr pl pn) exampleTypes "ism" where
  names := by
    show ["error", "ref", "loudspeaker", "noise"].Nodup
    decide
  kinds := by
    intro a ha
    simp only [exampleArrays, List.mem_cons, List.not_mem_nil, or_false] at ha
    rcases ha with rfl | rfl | rfl | rfl <;> exact Option.some_ne_none _
  channels := by
    have h1 := List.length_pos_iff.2 he
    have h2 := List.length_pos_iff.2 hr
    have h3 := List.length_pos_iff.2 hl
    intro a ha
    simp only [exampleArrays, List.mem_cons, List.not_mem_nil, or_false] at ha
    rcases ha with rfl | rfl | rfl | rfl
    · exact h1
    · exact h2
    · exact h3
    · show 1 ≤ pn.length
      omega
  sized := by
    intro a ha u
    simp only [exampleArrays, List.mem_cons, List.not_mem_nil, or_false] at ha
    rcases ha with rfl | rfl | rfl | rfl <;> rfl
  initial := by
    intro a ha f hf
    simp only [exampleArrays, List.mem_cons, List.not_mem_nil, or_false] at ha
    rcases ha with rfl | rfl | rfl | rfl <;> cases hf
  types := by
    intro a ha b hb hak hbk _
    simp only [exampleArrays, List.mem_cons, List.not_mem_nil, or_false] at ha hb
    rcases hb with rfl | rfl | rfl | rfl
    · rcases ha with rfl | rfl | rfl | rfl
      · rcases hak with h | h <;> cases h
      · rcases hak with h | h <;> cases h
      · exact .inr (.inr (.inr ⟨rfl, hdims, rfl⟩))
      · exact .inr (.inr (.inr ⟨rfl, hdims, rfl⟩))
    · rcases ha with rfl | rfl | rfl | rfl
      · rcases hak with h | h <;> cases h
      · rcases hak with h | h <;> cases h
      · exact .inl rfl
      · exact .inr (.inr (.inl ⟨rfl, hn⟩))
    · cases hbk
    · cases hbk
  moving := by
    intro a ha b hb _ _ hmv
    simp only [exampleArrays, List.mem_cons, List.not_mem_nil, or_false] at ha hb
    rcases ha with rfl | rfl | rfl | rfl <;> rcases hb with rfl | rfl | rfl | rfl <;> rfl
  sources := by
    intro b hb _ hd
    simp only [exampleArrays, List.mem_cons, List.not_mem_nil, or_false] at hb
    rcases hb with rfl | rfl | rfl | rfl <;> cases hd
  interval := hfreq
  reverberation := hrev
  external := hext

omit [DecidableEq R] in
/-- With the sizes of the example every update finds the samples it needs, up to 150015 samples. -/
theorem example_reaches {A D O F : Type} {cfg : SimCfg R (IrMat R) F S A (FxSt R) D O} {q : FxPar R} (hB : cfg.B = 1000) (hC : cfg.C = 10000)
    (hm : cfg.mbs = 1) (hbs : q.bs = 1) (hub : q.ub = 512) {n : Nat} (hn : n < 150016) :
    Reaches cfg q (512 + 512 - 1) (n + 1) := by
  intro k hk _
  have hidx : cfg.indexAt k = 1000 + k % 10000 := by
    unfold SimCfg.indexAt
    rw [hB, hC, hm]
    omega
  rw [hidx]
  unfold looksBack
  rw [hbs, hub]
  split
  · rename_i hc
    obtain ⟨hp, m, hm⟩ := hc
    have key : ∀ j < 293, 0 < j → 23 ≤ 512 * j % 10000 := by decide +kernel
    have := key m (by omega) (by omega)
    have hkm : k = 512 * m := by omega
    rw [hkm]
    omega
  · omega

theorem example_signals (base : SimCfg R (IrMat R) (Fir R) S (G × Coll (K × K × K) (IrMat R)) (FxSt R) (DData R (FxSt R) V) (DOut R V))
    (hcon : base.contrib = true) (pe pr pl pn : List (K × K × K)) (q : FxPar R) :
    (base.withAnc (exampleArrays pe pr pl pn) q).signalList =
      [("error", pe.length), ("ref", pr.length), ("loudspeaker", pl.length), ("noise", pn.length),
        ("loudspeaker~error", pe.length), ("loudspeaker~ref", pr.length), ("noise~error", pe.length), ("noise~ref", pr.length),
        ("xf", q.nr * q.nl * q.ne)] := by
  unfold SimCfg.signalList
  rw [show (base.withAnc (exampleArrays pe pr pl pn) q).contrib = true from hcon]
  rfl

theorem example_scene {pe pr pl pn : List (K × K × K)} (hp : RoomPlan ext i freq (exampleArrays pe pr pl pn) exampleTypes "ism")
    {base : SimCfg R (IrMat R) (Fir R) S (G × Coll (K × K × K) (IrMat R)) (FxSt R) (DData R (FxSt R) V) (DOut R V)}
    (hdiag : base.diag = diagOps R (FxSt R) V) (hfilt : base.filt = firOps R) (hB : base.B = 1000) (hC : base.C = 10000)
    (hcon : base.contrib = true) {srcs : String → S} {x : Nat → Nat → R}
    (hx : IsStream base.srcGet (srcs "noise") pn.length x) {mu beta : R} {norm : FxNorm}
    (hreg : norm = .none ∨ ∀ l : List R, (l.map fun x => x * x).sum + beta ≠ 0) :
    AncScene base ext i freq (exampleArrays pe pr pl pn) exampleTypes "ism" srcs
      ⟨1, 512, 512, pr.length, pl.length, pe.length, mu, beta, norm⟩ := by
  refine ⟨hp, hdiag, hfilt,
    ⟨stillArr "ref" .mic pr, by simp [exampleArrays], rfl, rfl, rfl⟩, ⟨stillArr "error" .mic pe, by simp [exampleArrays], rfl, rfl, rfl⟩,
    ⟨stillArr "loudspeaker" .ctrl pl, by simp [exampleArrays], rfl, rfl, rfl⟩,
    ?_, ?_, ?_, by dsimp only; omega, by dsimp only; omega, ⟨by dsimp only; omega, one_dvd _⟩, ⟨by omega, .inl (by omega)⟩,
    ⟨by dsimp only; omega, by dsimp only; omega⟩, hreg⟩
  · intro a ha
    simp only [exampleArrays, List.mem_cons, List.not_mem_nil, or_false] at ha
    rcases ha with rfl | rfl | rfl | rfl <;> simp [stillArr]
  · rw [example_signals base hcon]
    simp
  · intro a ha hk
    simp only [exampleArrays, List.mem_cons, List.not_mem_nil, or_false] at ha
    rcases ha with rfl | rfl | rfl | rfl
    · cases hk
    · cases hk
    · cases hk
    · exact ⟨x, hx⟩

theorem example_diags {pe pr pl pn : List (K × K × K)} (he : pe ≠ []) (hr : pr ≠ []) (hl : pl ≠ [])
    (base : SimCfg R (IrMat R) (Fir R) S (G × Coll (K × K × K) (IrMat R)) (FxSt R) (DData R (FxSt R) V) (DOut R V))
    (htot : 0 < base.tot) (hcon : base.contrib = true) {mu beta : R} {norm : FxNorm} {info : DiagInfo}
    (hi : info.tot = base.tot) (hf : 0 < info.exportFreq) (hs : info.smoothing ≠ 0) (v : V)
    (c : Coll (K × K × K) (IrMat R)) (hc : c.arrays = exampleArrays pe pr pl pn) : ∃ ds,
      exampleDiagnostics info c.arrays pl.length pe.length (fun _ => .ok v) = .ok ds ∧ (ds.map Diag.name).Nodup ∧
      (∀ d ∈ ds, d.Fits (base.withAnc (exampleArrays pe pr pl pn) ⟨1, 512, 512, pr.length, pl.length, pe.length, mu, beta, norm⟩)
        (FxShape ⟨1, 512, 512, pr.length, pl.length, pe.length, mu, beta, norm⟩)) ∧ (∀ d ∈ ds, ∀ name ∈ d.data.reads, name ≠ "xf") ∧
      ∀ x ∈ [("sig_ls", "loudspeaker", pl.length), ("sig_error", "error", pe.length), ("sig_ref", "ref", pr.length),
        ("sig_primary_noise", "noise~error", pe.length), ("sig_secondary_noise", "loudspeaker~error", pe.length)],
        ∃ d ∈ ds, mkRecordSignal info x.1 x.2.1 none none x.2.2 none = .ok d := by
  have hd : ∀ q name, (base.withAnc (exampleArrays pe pr pl pn) q).dims name = _ := fun q name => by
    unfold SimCfg.dims
    rw [example_signals base hcon]
  refine exampleDiagnostics_fit (cfg := base.withAnc (exampleArrays pe pr pl pn) _) rfl hi htot hf hs (nr := pr.length) ?_ ?_ ?_ ?_
    (List.length_pos_iff.2 hl) (List.length_pos_iff.2 he) (List.length_pos_iff.2 hr) (hd _ _) (hd _ _) (hd _ _) (hd _ _)
    (hd _ _) fun p _ => ⟨v, rfl⟩
  · rw [hc]; rfl
  · rw [hc]; rfl
  · rw [hc]; rfl
  · rw [hc]; rfl

/-- C166 and C167, the example as it is shipped: whatever the room, the places and numbers of microphones
and loudspeakers, the noise, the step size and the normalization, it runs to its end and makes all its
exports, for up to 150015 samples (the example has 10000).  Without a high-pass filter the recording
"sig_ref" of the reference microphones has the samples of the noise. -/
theorem C166_shipped {pe pr pl pn : List (K × K × K)} (he : pe ≠ []) (hr : pr ≠ []) (hl : pl ≠ [])
    (hn : pn.length = pr.length) (hfreq : 1 ≤ freq) (hdims : i.dims = 3)
    (hrev : 0 < i.rt60 → ∃ r, ext.inverseSabine i.rt60 i.size = .ok r) (hext : ∀ par, (i.cfg ext par).Lawful)
    (base : SimCfg R (IrMat R) (Fir R) S (G × Coll (K × K × K) (IrMat R)) (FxSt R) (DData R (FxSt R) V) (DOut R V))
    (hdiag : base.diag = diagOps R (FxSt R) V) (hfilt : base.filt = firOps R) (hB : base.B = 1000) (hC : base.C = 10000)
    (htot : 0 < base.tot ∧ base.tot < 150016) (hcon : base.contrib = true) {srcs : String → S} {x : Nat → Nat → R}
    (hx : IsStream base.srcGet (srcs "noise") pn.length x) {mu beta : R} {norm : FxNorm}
    (hreg : norm = .none ∨ ∀ l : List R, (l.map fun x => x * x).sum + beta ≠ 0) {info : DiagInfo}
    (hi : info.tot = base.tot) (hf : 0 < info.exportFreq) (hs : info.smoothing ≠ 0) (v : V) (f0 : Fir R) (g : G) :
    ∃ fin, ancSimulate base ext i g (planned freq (exampleArrays pe pr pl pn) exampleTypes "ism") srcs 1 512 512 mu beta norm f0
      (fun c => exampleDiagnostics info c.arrays pl.length pe.length fun _ => .ok v) = .ok fin ∧
      (¬ 0 < i.cutoff → Recording fin.diags "sig_ref" "ref" pr.length base.tot
        fun c t => x c (if base.warm then t + base.B - 1 else t)) := by
  have h1 := List.length_pos_iff.2 he
  have h2 := List.length_pos_iff.2 hr
  have h3 := List.length_pos_iff.2 hl
  have hS := example_scene (mu := mu) (pe := pe) (pr := pr) (pl := pl) (exampleArrays_plan he hr hl hn hfreq hdims hrev hext) hdiag hfilt hB hC hcon hx hreg
  have hds := fun c hc => example_diags (mu := mu) (beta := beta) (norm := norm) he hr hl base htot.1 hcon hi hf hs v (pn := pn) c hc
  obtain ⟨fin, hfin⟩ := C166_anc_runs hS (.inr ⟨show 1 ≤ base.C by omega,
      example_reaches (cfg := base.withAnc _ _) hB hC rfl rfl rfl htot.2⟩) f0
    (fun c hc => by obtain ⟨ds, d1, d2, d3, d4, -⟩ := hds c hc; exact ⟨ds, d1, d2, d3, d4⟩) g
  refine ⟨fin, hfin, fun hlow => ?_⟩
  refine C167_reference hS hlow (n := stillArr "noise" .free pn) (m := stillArr "ref" .mic pr) (by simp [exampleArrays]) rfl
    (by simp [exampleArrays]) rfl ⟨rfl, rfl⟩ ?_ hx hfin (info := info) (ex := none) ?_ hi htot.1
  · intro a ha hk hne
    simp only [exampleArrays, List.mem_cons, List.not_mem_nil, or_false] at ha
    rcases ha with rfl | rfl | rfl | rfl
    · rcases hk with h | h <;> cases h
    · rcases hk with h | h <;> cases h
    · exact ⟨rfl, rfl⟩
    · exact absurd rfl hne
  · intro c ds hc hd
    obtain ⟨ds', d1, d2, -, -, d5⟩ := hds c hc
    rw [hd] at d1
    cases d1
    exact ⟨d2, d5 ("sig_ref", "ref", pr.length) (by simp)⟩

end

/-- The example in a box: one noise source, two error microphones and three loudspeakers, 10000 samples. -/
def ancBase : SimCfg ℚ (IrMat ℚ) (Fir ℚ) Nat (Nat × Coll (ℚ × ℚ × ℚ) (IrMat ℚ)) (FxSt ℚ) (DData ℚ (FxSt ℚ) ℚ) (DOut ℚ ℚ) where
  B := 1000
  C := 10000
  tot := 10000
  warm := false
  contrib := true
  plotNone := false
  arrays := []
  srcGet := boxBase.srcGet
  filt := firOps ℚ
  arrUpdate := fun _ _ => .error .key
  arrPath := fun _ _ _ => .error .key
  proc := none
  diag := diagOps ℚ (FxSt ℚ) ℚ

example (g : Nat) : ∃ fin, ancSimulate ancBase boxExt boxInfo g
    (planned 2 (exampleArrays [(0, 1, 3), (0, 2, 3)] [(3, 1, 3)] [(1, 1, 3), (1, 2, 3), (1, 0, 3)] [(3, 1, 3)]) exampleTypes "ism")
    (fun _ => 0) 1 512 512 (1 / 100) (1 / 1000) .none demoFilt
    (fun c => exampleDiagnostics ⟨10000, 2000, 512⟩ c.arrays 3 2 fun _ => .ok 0) = .ok fin ∧
    ∃ d ∈ fin.diags, d.name = "sig_ref" ∧ ∃ signal : Mat (Option ℚ), d.data = .recSignal "ref" none signal ∧
      ∃ row, signal[0]? = some row ∧ row[7]? = some (some 8) := by
  obtain ⟨fin, h1, h2⟩ := C166_shipped (pe := [((0 : ℚ), (1 : ℚ), (3 : ℚ)), (0, 2, 3)]) (pr := [(3, 1, 3)])
    (pl := [(1, 1, 3), (1, 2, 3), (1, 0, 3)]) (pn := [(3, 1, 3)]) (freq := 2) (i := boxInfo) (ext := boxExt)
    (by simp) (by simp) (by simp) rfl (by omega) rfl plan_demo.reverberation box_lawful ancBase rfl rfl rfl rfl
    ⟨by decide, by decide⟩ rfl (srcs := fun _ => 0) (x := fun _ t => ((0 + t + 1 : Nat) : ℚ)) (open_stream 0) (mu := 1 / 100) (beta := 1 / 1000)
    (norm := .none) (.inl rfl) (info := ⟨10000, 2000, 512⟩) rfl (by decide) (by decide) 0 demoFilt g
  obtain ⟨d, k1, k2, signal, k3, -, k4⟩ := h2 (by decide)
  obtain ⟨row, r1, -, r2⟩ := k4 0 (by decide)
  refine ⟨fin, h1, d, k1, k2, signal, k3, row, r1, ?_⟩
  have := r2 7 (by decide)
  rw [this]
  simp [ancBase]

end Verif

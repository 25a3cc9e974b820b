/-
Lemmas on the active noise control example with measured responses.
-/
import Verif.Spec.AncReal
import Verif.Props.AncError
import Verif.Props.FastExact
import Verif.Props.Scripts
import Verif.Lemmas.AdaptiveScale
namespace Verif

section
variable {R IR F S A V : Type} [Field R] [DecidableEq R]
  {cfg : SimCfg R IR F S A (FastSt R) (DData R (FastSt R) V) (DOut R V)} {q : FxPar R} {Sp : IrMat R}
  {srcs : String → S} {arr : A} {f0 : F} {ds0 : List (Diag (DData R (FastSt R) V))}
  {st0 fin : SimSt R F S A (FastSt R) (DData R (FastSt R) V) (DOut R V)}

theorem FastRun.steps (h : FastRun cfg q Sp srcs arr f0 ds0 st0 fin) :
    ∃ st, cfg.steps (cfg.tot + cfg.mbs) st0 = .ok st ∧ ∃ ds log,
      dispatch cfg.diag cfg.plotNone st.diags st.log = .ok (ds, log) ∧ fin = { st with diags := ds, log := log } := by
  have hr := h.run
  unfold SimCfg.runWith at hr
  rw [h.init] at hr
  dsimp only at hr
  split at hr
  · cases hr
  · rename_i st hst
    split at hr
    · cases hr
    · rename_i ds log hd
      cases hr
      exact ⟨st, hst, ds, log, hd, rfl⟩

theorem FastRun.diagRun (h : FastRun cfg q Sp srcs arr f0 ds0 st0 fin) :
    ∃ T pf, DiagRun cfg ds0 st0 fin (fun name => name ≠ "xf") T pf := by
  obtain ⟨hN, e0, -, hI⟩ := fast_begin h.scene Sp h.init
  obtain ⟨st, hk, ds, log, hdisp, hfin⟩ := h.steps
  obtain ⟨hds, hlog⟩ := initWith_diags h.init
  obtain ⟨te, -, hD⟩ := gDiagRun (ok := fun name => name ≠ "xf") (fast_sizes h.scene hN) h.diag h.names
    (fun _ hn => fast_past _ _ hn) hI hds hlog hk hdisp hfin
  exact ⟨_, _, hD⟩

theorem FastRun.stepsTo (h : FastRun cfg q Sp srcs arr f0 ds0 st0 fin) {n : Nat} (hn : n ≤ cfg.tot + cfg.mbs) :
    ∃ s, cfg.steps n st0 = .ok s := by
  obtain ⟨st, hk, -⟩ := h.steps
  obtain ⟨m, hm⟩ := Nat.exists_eq_add_of_le hn
  rw [hm] at hk
  exact steps_prefix cfg m hk

/-- What was recorded was produced. -/
theorem FastRun.recording (h : FastRun cfg q Sp srcs arr f0 ds0 st0 fin)
    {info : DiagInfo} {name sig : String} {ex : Option IdxSel} {num : Nat} {d : Diag (DData R (FastSt R) V)} (hmem : d ∈ ds0)
    (hd : mkRecordSignal info name sig ex none num none = .ok d) (htot : info.tot = cfg.tot) (hpos : 0 < cfg.tot)
    (hsig : cfg.dims sig = some num) (hx : sig ≠ "xf") {y : Nat → Nat → R}
    (hy : ∀ c < num, ∀ t < cfg.tot, cfg.Produced st0 sig c t (y c t)) : Recording fin.diags name sig num cfg.tot y := by
  obtain ⟨h1, h2, h3, h4, h5⟩ := mkRecordSignal_ok hd
  obtain ⟨_, _, hR⟩ := h.diagRun
  obtain ⟨d', g1, g2, signal, g3, g4, g5⟩ := hR.recorded hmem (savedIvs_counter h2 htot)
    (show Increasing 0 [(0, (cfg.tot : Int))] from ⟨le_refl _, Int.natCast_pos.2 hpos, trivial⟩)
    (by intro p hp; rw [show savedIvs cfg.tot none = [(0, (cfg.tot : Int))] from rfl, List.mem_singleton] at hp; subst hp; exact le_refl _)
    (by rw [h4, htot]) hsig (show chanRows num none = some (List.range num) from rfl) List.length_range hx
  refine ⟨d', g1, g2.trans h1, signal, g3, g4, fun c hc => ?_⟩
  obtain ⟨row, r1, r2, r3⟩ := g5 c c (by rw [List.getElem?_range hc])
  refine ⟨row, r1, r2, fun t' ht => ?_⟩
  obtain ⟨v, hv, hrow⟩ := (r3 t' ht).1 ⟨_, List.mem_singleton.2 rfl, Int.natCast_nonneg _, Int.ofNat_lt.2 ht⟩
  rw [hrow, hv.unique (hy c hc t' ht)]

end

section
variable {R : Type} [Field R]

/-- The taps depend on the errors from the first update block on. -/
theorem lmsTaps_congr_error (norm : FxNorm) (β μ : R) (nr nl ne L ub a : Nat) (X : Nat → Nat → Nat → Int → R) {e e' : Nat → Int → R}
    (h : ∀ m < ne, ∀ t : Int, 0 ≤ t → e m t = e' m t) :
    ∀ j r l q, lmsTaps norm β μ nr nl ne L ub a X e j r l q = lmsTaps norm β μ nr nl ne L ub a X e' j r l q
  | 0, _, _, _ => rfl
  | j + 1, r, l, q => by
    unfold lmsTaps
    rw [lmsTaps_congr_error norm β μ nr nl ne L ub a X h j]
    congr 2
    unfold lmsGrad
    refine Finset.sum_congr rfl fun i _ => ?_
    congr 1
    refine Finset.sum_congr rfl fun m hm => ?_
    rw [h m (Finset.mem_range.1 hm) _ (by positivity)]

end

section
variable {K R G S V : Type} [Field K] [LinearOrder K] [Field R] [DecidableEq R]
  {ext : RoomExt K R G} {i : RoomInfo K} {freq : Nat} {as : List (Arr (K × K × K))} {os : List (PathOp R)} {t : String}
  {base : SimCfg R (IrMat R) (Fir R) S (G × Coll (K × K × K) (IrMat R)) (FastSt R) (DData R (FastSt R) V) (DOut R V)}
  {srcs : String → S} {q : FxPar R}

theorem RealScene.fast (h : RealScene base ext i freq as os t srcs q) (par : K × Nat) :
    FastScene (roomCfg { base with proc := some (fastProc q) } ext i par as) q := by
  have hmem : ∀ {a : Arr (K × K × K)} {k : ArrKind}, a ∈ as → a.kind = some k →
      (⟨a.name, a.num, k, a.dynamic⟩ : ArrInfo) ∈ infosOf as :=
    fun ha hk => mem_infosOf.2 ⟨_, ha, hk, rfl, rfl, rfl⟩
  have hn : ∀ a ∈ as, 0 < a.num := h.plan.channels
  obtain ⟨r, hr1, hr2, hr3, hr4⟩ := h.ref
  obtain ⟨e, he1, he2, he3, he4⟩ := h.err
  obtain ⟨l, hl1, hl2, hl3, hl4⟩ := h.ls
  exact ⟨rfl, ⟨_, hmem hr1 hr3, hr2, rfl, hr4⟩, ⟨_, hmem he1 he3, he2, rfl, he4⟩,
    ⟨_, hmem hl1 hl3, hl2, rfl, hl4⟩,
    fun a ha => by obtain ⟨b, hb, -, e2, -⟩ := mem_infosOf.1 ha; rw [← e2]; exact h.own b hb,
    hr4 ▸ hn r hr1, hl4 ▸ hn l hl1, he4 ▸ hn e he1, h.L, h.bs, h.ub, h.chunk, h.buffer, h.regular⟩

/-- The script up to the simulation. -/
theorem RealScene.begin (h : RealScene base ext i freq as os t srcs q) (g : G) :
    ∃ par gc sp, roomSetup ext i g (planned freq as os t) = .ok (par, gc) ∧ gc.2.arrays = as ∧
      Usable (i.cfg ext par) (infosOf as) gc.2 ∧ gc.2.paths "loudspeaker" "error" = some sp ∧
      ∀ (f0 : Fir R) (diags : Coll (K × K × K) (IrMat R) → Except PyErr (List (Diag (DData R (FastSt R) V)))),
      realSimulate base ext i g (planned freq as os t) srcs q.bs q.L q.mu q.beta f0 diags =
        match diags gc.2 with
        | .error x => .error x
        | .ok ds => (roomCfg { base with proc := some (fastProc q) } ext i par as).runWith (fastPrepare q) srcs gc (fastInit q sp) f0 ds := by
  obtain ⟨r, hr1, hr2, hr3, hr4⟩ := h.ref
  obtain ⟨e, he1, he2, he3, he4⟩ := h.err
  obtain ⟨l, hl1, hl2, hl3, hl4⟩ := h.ls
  obtain ⟨hinf, par, gc, hset, hu⟩ := h.plan.setup g
  have harr := h.plan.arrays hset
  obtain ⟨sp, hsp, -⟩ := hu.paths l (by rw [harr]; exact hl1) e (by rw [harr]; exact he1) (.inr hl3) he3
  have hpath : Coll.path gc "loudspeaker" "error" = .ok sp := by
    unfold Coll.path
    rw [← hl2, ← he2, hsp]
  have hcre : fastCreate gc.2.arrays q.bs q.L q.mu q.beta = .ok q := by
    have k1 := numOfArray_eq h.plan.names hr1
    have k2 := numOfArray_eq h.plan.names he1
    have k3 := numOfArray_eq h.plan.names hl1
    rw [hr2, hr4] at k1
    rw [he2, he4] at k2
    rw [hl2, hl4] at k3
    have hub := h.ub
    have hbs := h.bs
    unfold fastCreate fxCreate
    rw [harr, k1, k2, k3]
    dsimp only
    rw [if_neg (by omega), if_neg (by simp [Nat.mod_eq_zero_of_dvd hub.2]),
      if_neg (by have := Nat.le_of_dvd h.L hub.2; omega)]
    have h1 := hub.1
    have h2 := h.norm
    clear * - h1 h2
    obtain ⟨bs, ub, L, nr, nl, ne, mu, beta, norm⟩ := q
    dsimp only at h1 h2 ⊢
    rw [h1, h2]
  refine ⟨par, gc, sp, hset, harr, hu, by rw [← hl2, ← he2, hsp], fun f0 diags => ?_⟩
  unfold realSimulate
  rw [hset]
  dsimp only
  rw [hpath]
  dsimp only
  rw [hcre]
  dsimp only
  cases diags gc.2 with
  | error x => rfl
  | ok ds => rw [hinf]; rfl

/-- What a simulation of the script that ran through consists of. -/
theorem RealScene.ran (h : RealScene base ext i freq as os t srcs q) {g : G} {f0 : Fir R}
    {diags : Coll (K × K × K) (IrMat R) → Except PyErr (List (Diag (DData R (FastSt R) V)))}
    {fin : SimSt R (Fir R) S (G × Coll (K × K × K) (IrMat R)) (FastSt R) (DData R (FastSt R) V) (DOut R V)}
    (hfin : realSimulate base ext i g (planned freq as os t) srcs q.bs q.L q.mu q.beta f0 diags = .ok fin)
    (hnd : ∀ c ds, c.arrays = as → diags c = .ok ds → (ds.map Diag.name).Nodup) :
    ∃ par gc sp ds st0, roomSetup ext i g (planned freq as os t) = .ok (par, gc) ∧ gc.2.arrays = as ∧
      Usable (i.cfg ext par) (infosOf as) gc.2 ∧ gc.2.paths "loudspeaker" "error" = some sp ∧ diags gc.2 = .ok ds ∧
      FastRun (roomCfg { base with proc := some (fastProc q) } ext i par as) q sp srcs gc f0 ds st0 fin := by
  obtain ⟨par, gc, sp, hset, harr, hu, hsp, he⟩ := h.begin g
  rw [he] at hfin
  split at hfin
  · cases hfin
  rename_i ds hds'
  have hinit : ∃ st0, (roomCfg { base with proc := some (fastProc q) } ext i par as).initWith (fastPrepare q) srcs gc (fastInit q sp) f0 ds = .ok st0 := by
    unfold SimCfg.runWith at hfin
    split at hfin
    · cases hfin
    · exact ⟨_, by assumption⟩
  obtain ⟨st0, hst0⟩ := hinit
  exact ⟨par, gc, sp, ds, st0, hset, harr, hu, hsp, hds', h.fast par, h.diag, hnd gc.2 ds harr hds', hst0, hfin⟩

theorem RealScene.infos_nodup (h : RealScene base ext i freq as os t srcs q) : ((infosOf as).map ArrInfo.name).Nodup := by
  have := h.names
  unfold SimCfg.signalList at this
  rw [show (base.withFast as q).proc = some (fastProc q) from rfl] at this
  simp only [List.map_append, List.map_map, List.nodup_append] at this
  exact this.1.1

/-- All streams, with a given one for one source. -/
theorem RealScene.allStreams (h : RealScene base ext i freq as os t srcs q) {n : Arr (K × K × K)} (hn : n ∈ as)
    {x : Nat → Nat → R} (hx : IsStream base.srcGet (srcs n.name) n.num x) :
    ∃ X : String → Nat → Nat → R, X n.name = x ∧
      ∀ a ∈ infosOf as, a.kind = .free → IsStream base.srcGet (srcs a.name) a.num (X a.name) := by
  have inj : ∀ {a b : Arr (K × K × K)}, a ∈ as → b ∈ as → a.name = b.name → a = b := fun ha hb e =>
    List.inj_on_of_nodup_map h.plan.names ha hb e
  have : ∀ nm : String, ∃ X : Nat → Nat → R, (nm = n.name → X = x) ∧
      ∀ a ∈ as, a.kind = some .free → a.name = nm → IsStream base.srcGet (srcs a.name) a.num X := by
    intro nm
    by_cases e : nm = n.name
    · exact ⟨x, fun _ => rfl, fun a ha _ hnm => by rw [inj ha hn (hnm.trans e)]; exact hx⟩
    · by_cases hh : ∃ a ∈ as, a.kind = some .free ∧ a.name = nm
      · obtain ⟨a, ha, hk, hnm⟩ := hh
        obtain ⟨X, hX⟩ := h.streams a ha hk
        exact ⟨X, fun e' => absurd e' e, fun b hb _ hbm => by rw [inj hb ha (hbm.trans hnm.symm)]; exact hX⟩
      · exact ⟨fun _ _ => 0, fun e' => absurd e' e, fun a ha hk hnm => absurd ⟨a, ha, hk, hnm⟩ hh⟩
  choose X hX1 hX2 using this
  refine ⟨X, hX1 _ rfl, fun a ha hk => ?_⟩
  obtain ⟨b, hb, e1, e2, e3, -⟩ := mem_infosOf.1 ha
  rw [← e2, ← e3]
  exact hX2 _ b hb (by rw [e1, hk]) rfl

/-- The closed loop in the room: `Y` is what the loudspeakers play. -/
theorem RealScene.loop (h : RealScene base ext i freq as os t srcs q) {X : String → Nat → Nat → R}
    (hX : ∀ a ∈ infosOf as, a.kind = .free → IsStream base.srcGet (srcs a.name) a.num (X a.name))
    {par : K × Nat} {gc : G × Coll (K × K × K) (IrMat R)} {g : G}
    (hset : roomSetup ext i g (planned freq as os t) = .ok (par, gc)) (hu : Usable (i.cfg ext par) (infosOf as) gc.2)
    {sp : IrMat R} {f0 : Fir R} {ds : List (Diag (DData R (FastSt R) V))}
    {st0 fin : SimSt R (Fir R) S (G × Coll (K × K × K) (IrMat R)) (FastSt R) (DData R (FastSt R) V) (DOut R V)}
    (hrun : FastRun (roomCfg { base with proc := some (fastProc q) } ext i par as) q sp srcs gc f0 ds st0 fin) :
    ∃ Y : Nat → Nat → R,
      (∀ l < q.nl, ∀ t ≤ base.tot, (roomCfg { base with proc := some (fastProc q) } ext i par as).Produced st0 "loudspeaker" l t (Y l t)) ∧
      ∀ m ∈ infosOf as, m.kind = .mic → ∀ t ≤ base.tot, ∃ ir : String → IrMat R,
        (∀ s ∈ infosOf as, s.kind ≠ .mic → (roomCfg { base with proc := some (fastProc q) } ext i par as).IrAt gc s m t (ir s.name)) ∧
        ∀ c < m.num,
          (roomCfg { base with proc := some (fastProc q) } ext i par as).Produced st0 m.name c t
            (convSum ((infosOf as).filter fun s => s.kind != .mic) ir
              ((roomCfg { base with proc := some (fastProc q) } ext i par as).playedWith X Y) c t) ∧
          (base.contrib = true → ∀ s ∈ infosOf as, s.kind ≠ .mic →
            (roomCfg { base with proc := some (fastProc q) } ext i par as).Produced st0 (s.name ++ "~" ++ m.name) c t
              (convSum [s] ir ((roomCfg { base with proc := some (fastProc q) } ext i par as).playedWith X Y) c t)) := by
  obtain ⟨st, hst⟩ := hrun.stepsTo (n := base.tot) (Nat.le_add_right _ _)
  obtain ⟨ρ, e, hρ, he'⟩ := fast_recorded hrun.scene hrun.init hst
  refine ⟨_, (C175_adaptive hrun.scene hrun.init hst hρ he').1, fun m hmi hmk t' ht => ?_⟩
  exact C175_closed_loop hrun.scene hrun.init hst h.filt
    (fun a ha => by obtain ⟨b, hb, -, -, e3, -⟩ := mem_infosOf.1 ha; rw [← e3]; exact h.plan.channels b hb)
    (h.plan.shape hset hu) (x := X) hX hρ he' hmi hmk t' ht

/-- The responses from all sources to a microphone array with a direct path from `n` and none from the others. -/
theorem plain_paths (h : RoomPlan ext i freq as os t) (hlow : ¬ 0 < i.cutoff) {n m : Arr (K × K × K)} (hn : n ∈ as)
    (hm : m ∈ as) (hmk : m.kind = some .mic) (hdir : HasType os t n m "direct")
    (hnone : ∀ a ∈ as, (a.kind = some .free ∨ a.kind = some .ctrl) → a ≠ n → HasType os t a m "none")
    {par : K × Nat} {gc : G × Coll (K × K × K) (IrMat R)} {g : G}
    (hset : roomSetup ext i g (planned freq as os t) = .ok (par, gc)) (hu : Usable (i.cfg ext par) (infosOf as) gc.2) :
    ∀ a ∈ infosOf as, a.kind ≠ .mic → PlainPair (i.cfg ext par) (infosOf as) a.name m.name
      (if a.name = n.name then "direct" else "none") a.num m.num gc.2 := by
  have inj : ∀ {a b : Arr (K × K × K)}, a ∈ as → b ∈ as → a.name = b.name → a = b := fun ha hb e =>
    List.inj_on_of_nodup_map h.names ha hb e
  intro a ha1 ha2
  obtain ⟨b, hb, e1, e2, e3, -⟩ := mem_infosOf.1 ha1
  have hbk : b.kind = some .free ∨ b.kind = some .ctrl := by
    rw [e1]
    cases hk : a.kind
    · exact absurd hk ha2
    · exact .inl rfl
    · exact .inr rfl
  by_cases e : a.name = n.name
  · rw [if_pos e]
    have hp := h.plain hlow hb hm hbk hmk (ty := "direct") (by rw [inj hb hn (e2.trans e)]; exact hdir.1)
      (by rw [inj hb hn (e2.trans e)]; exact hdir.2) (.inr rfl) hset hu
    rw [e2, e3] at hp
    exact hp
  · rw [if_neg e]
    have hne : b ≠ n := fun e' => e (by rw [← e2, e'])
    have hp := h.plain hlow hb hm hbk hmk (hnone b hb hbk hne).1 (hnone b hb hbk hne).2 (.inl rfl) hset hu
    rw [e2, e3] at hp
    exact hp

end

section
variable {R : Type} [CommRing R]

theorem firOut_direct {n m c : Nat} (hc : c < n) {l : List (List R)} :
    firOut (plainPath "direct" n m) l c = (l.getD 0 []).getD c 0 := by
  unfold firOut
  show ((List.range n).map _).sum = _
  rw [sum_map_single List.nodup_range (List.mem_range.2 hc)]
  · simp [plainPath]
  · intro b _ hb
    simp [plainPath, hb]

theorem firOut_none {n m c : Nat} {l : List (List R)} : firOut (plainPath "none" n m) l c = 0 := by
  unfold firOut
  refine sum_map_zero' fun b _ => ?_
  simp [plainPath]

end

section
variable {K R G S V : Type} [Field K] [LinearOrder K] [Field R] [DecidableEq R]
  {ext : RoomExt K R G} {i : RoomInfo K} {freq : Nat} {as : List (Arr (K × K × K))} {os : List (PathOp R)} {t : String}
  {base : SimCfg R (IrMat R) (Fir R) S (G × Coll (K × K × K) (IrMat R)) (FastSt R) (DData R (FastSt R) V) (DOut R V)}
  {srcs : String → S} {q : FxPar R}

/-- A microphone array with a direct path from `n` and none from the others has the samples of `n` at all
times, also before time index 0 if the sources have begun before. -/
theorem RealScene.direct (h : RealScene base ext i freq as os t srcs q) (hlow : ¬ 0 < i.cutoff)
    {n m : Arr (K × K × K)} (hn : n ∈ as) (hnk : n.kind = some .free) (hm : m ∈ as) (hmk : m.kind = some .mic)
    (hdir : HasType os t n m "direct")
    (hnone : ∀ a ∈ as, (a.kind = some .free ∨ a.kind = some .ctrl) → a ≠ n → HasType os t a m "none")
    {X : String → Nat → Nat → R} (hX : ∀ a ∈ infosOf as, a.kind = .free → IsStream base.srcGet (srcs a.name) a.num (X a.name))
    {par : K × Nat} {gc : G × Coll (K × K × K) (IrMat R)} {g : G}
    (hset : roomSetup ext i g (planned freq as os t) = .ok (par, gc)) (hu : Usable (i.cfg ext par) (infosOf as) gc.2)
    {sp : IrMat R} {f0 : Fir R} {ds : List (Diag (DData R (FastSt R) V))}
    {st0 fin : SimSt R (Fir R) S (G × Coll (K × K × K) (IrMat R)) (FastSt R) (DData R (FastSt R) V) (DOut R V)}
    (hrun : FastRun (roomCfg { base with proc := some (fastProc q) } ext i par as) q sp srcs gc f0 ds st0 fin) :
    ∀ c < m.num, ∀ t' ≤ (base.tot : Int), 0 ≤ t' ∨ base.warm = true →
      (roomCfg { base with proc := some (fastProc q) } ext i par as).Recorded st0 m.name c t'
        (streamFrom (if base.warm then base.B else 1) (X n.name) c t') := by
  have hmi : (⟨m.name, m.num, .mic, m.dynamic⟩ : ArrInfo) ∈ infosOf as := mem_infosOf.2 ⟨m, hm, hmk, rfl, rfl, rfl⟩
  have hni : (⟨n.name, n.num, .free, n.dynamic⟩ : ArrInfo) ∈ infosOf as := mem_infosOf.2 ⟨n, hn, hnk, rfl, rfl, rfl⟩
  have inj : ∀ {a b : Arr (K × K × K)}, a ∈ as → b ∈ as → a.name = b.name → a = b := fun ha hb e =>
    List.inj_on_of_nodup_map h.plan.names ha hb e
  have hnum : n.num = m.num := by
    have := h.plan.types n hn m hm (.inl hnk) hmk hdir.1
    rw [hdir.2] at this
    rcases this with e | e | ⟨-, e⟩ | ⟨e, -⟩
    · exact absurd e (by decide)
    · exact absurd e (by decide)
    · exact e
    · exact absurd e (by decide)
  have hls : n.name ≠ "loudspeaker" := by
    obtain ⟨l, hl1, hl2, hl3, -⟩ := h.ls
    intro e
    rw [inj hn hl1 (e.trans hl2.symm), hl3] at hnk
    cases hnk
  have hpl := plain_paths h.plan hlow hn hm hmk hdir hnone hset hu
  have hB := h.buffer.1
  obtain ⟨hN, e0, he0, hI⟩ := fast_begin hrun.scene sp hrun.init
  obtain ⟨Y, -, hloop⟩ := h.loop hX hset hu hrun
  intro c hc t' ht hw
  by_cases h0 : 0 ≤ t'
  · unfold SimCfg.Recorded
    rw [if_pos h0]
    obtain ⟨k, rfl⟩ := Int.eq_ofNat_of_zero_le h0
    rw [Int.toNat_natCast]
    obtain ⟨ir, hir, hout⟩ := hloop _ hmi rfl k (by omega)
    have hval := (hout c hc).1
    rw [convSum_plain (s := ⟨n.name, n.num, .free, n.dynamic⟩) ((nodup_map_of h.infos_nodup).filter _)
      (List.mem_filter.2 ⟨hni, rfl⟩) (fun a => if a.name = n.name then "direct" else "none") (fun a => a.num) ?_ (if_pos rfl) ?_
      (by rw [hnum]; exact hc)] at hval
    · unfold SimCfg.playedWith SimCfg.played at hval
      rw [if_neg hls] at hval
      have hlt : -(((if base.warm then base.B else 1 : Nat)) : Int) < k := by split <;> omega
      rw [if_pos ⟨⟨_, hni, rfl, rfl⟩, hlt⟩] at hval
      unfold streamFrom
      rw [if_pos hlt]
      exact hval
    · intro a ha
      obtain ⟨ha1, ha2⟩ := List.mem_filter.1 ha
      have ha3 : a.kind ≠ .mic := by simpa using ha2
      refine ⟨m.num, (hpl a ha1 ha3).irAt h.plan hlow rfl rfl ?_ (hir a ha1 ha3)⟩
      split
      · exact .inr rfl
      · exact .inl rfl
    · intro a ha hne
      refine if_neg fun e => hne ?_
      exact hN.inj a (List.mem_filter.1 ha).1 _ hni e
  · have hwarm : base.warm = true := hw.resolve_left h0
    obtain ⟨st, hst⟩ := hrun.stepsTo (n := base.tot) (Nat.le_add_right _ _)
    obtain ⟨te, off, r, hT⟩ := GInv.steps (fast_sizes hrun.scene hN) hI base.tot hst
    have hd := fast_dims hrun.scene hN
    rw [fast_recorded_iff hrun.scene hN hI hst hT.tape (fast_before hrun.scene hN he0) (h.own m hm) (hN.arr _ hmi) hc ht]
    have hpast := gSteps_past (n := 0) (e := fastStart q sp base.B e0) rfl (fast_past hd hrun.scene.ub.1 (name := m.name) (h.own m hm)) base.tot
      (e' := te) (by rw [Nat.zero_add]; exact hT.tape) c (t' - 1) (by simp; omega)
    rw [hpast, fastStart_sig (h.own m hm)]
    unfold streamFrom
    rw [if_pos hwarm]
    by_cases hlt : -(base.B : Int) < t'
    · rw [if_pos hlt]
      obtain ⟨ir, g1, g2⟩ := prep_fir (roomCfg { base with proc := some (fastProc q) } ext i par as) hN h.filt
        (fun a ha => by obtain ⟨b, hb, -, -, e3, -⟩ := mem_infosOf.1 ha; rw [← e3]; exact h.plan.channels b hb)
        (h.plan.shape hset hu) (show 1 ≤ base.B by omega) (m := ⟨m.name, m.num, .mic, m.dynamic⟩)
        (by unfold micsOf; exact List.mem_filter.2 ⟨hmi, rfl⟩) he0
      obtain ⟨j, hj⟩ := Int.eq_ofNat_of_zero_le (show 0 ≤ t' - 1 + base.B by omega)
      have hjB : j < base.B := by omega
      have hval := g2 c j hc hjB
      rw [show ((j : Int) - ((roomCfg { base with proc := some (fastProc q) } ext i par as).B : Int)) = t' - 1 from by
        show ((j : Int) - (base.B : Int)) = t' - 1
        omega] at hval
      refine hval.trans ?_
      have hir : ∀ a ∈ sourcesOf (infosOf as), ir a.name = plainPath (if a.name = n.name then "direct" else "none") a.num m.num := by
        intro a ha
        obtain ⟨ha1, ha2⟩ := mem_sourcesOf ha
        have := (g1 a ha).1
        change Coll.path gc a.name m.name = .ok (ir a.name) at this
        unfold Coll.path at this
        rw [(hpl a ha1 ha2).path] at this
        exact (Except.ok.inj this).symm
      have hns : (⟨n.name, n.num, .free, n.dynamic⟩ : ArrInfo) ∈ sourcesOf (infosOf as) :=
        List.mem_filter.2 ⟨hni, rfl⟩
      have hnds : (sourcesOf (infosOf as)).Nodup := (nodup_map_of h.infos_nodup).filter _
      rw [show (roomCfg { base with proc := some (fastProc q) } ext i par as).arrays = infosOf as from rfl,
        sum_map_single hnds hns]
      · dsimp only
        rw [hir _ hns, if_pos rfl, firOut_direct (by rw [hnum]; exact hc)]
        have hpn : (roomCfg { base with proc := some (fastProc q) } ext i par as).prepNum = base.B := by
          show (if base.warm then base.B else 1) = _
          rw [if_pos hwarm]
        have hsrc := tInit_played hN he0 hX hns (i := c) (j := j) (by rw [← hnum] at hc; exact hc) (by rw [hpn]; exact hjB)
        rw [if_pos rfl, hpn] at hsrc
        dsimp only at hsrc
        rw [show (t' + (base.B : Int) - 1).toNat = j by omega, ← hsrc,
          show (roomCfg { base with proc := some (fastProc q) } ext i par as).warm = true from hwarm]
        simp only [if_true]
        have hcn : c < n.num := by rw [hnum]; exact hc
        rw [List.range_succ_eq_map, List.map_cons, List.getD_cons_zero]
        unfold colAt
        rw [List.getD_eq_getElem?_getD, List.getElem?_map, List.getElem?_range hcn]
        simp only [Option.map_some, Option.getD_some]
        exact congrArg (e0.sig n.name c) (by push_cast; omega)
      · intro b hb hne
        rw [hir b hb, if_neg (fun e => hne (hN.inj b (mem_sourcesOf hb).1 _ hni e)), firOut_none]
    · rw [if_neg hlt, tInit_before hN he0 _ _ _ (show 1 ≤ base.B by omega) (show t' - 1 < -(base.B : Int) by omega)]

end
section
variable {R S A P V : Type} [Field R] [DecidableEq R]
  {cfg : SimCfg R (IrMat R) (Fir R) S A P (DData R P V) (DOut R V)} {K : P → Prop} {info : DiagInfo}

theorem ancDiagnostics_fit_eval {Pt : Type} {arrays : List (Arr Pt)} (hproc : cfg.proc.isSome) (htot : info.tot = cfg.tot)
    (hpos : 0 < cfg.tot) (hf : 0 < info.exportFreq) (hsm : info.smoothing ≠ 0) {nl ne nr nv : Nat}
    (hl : numOfArray arrays "loudspeaker" = .ok nl) (he : numOfArray arrays "error" = .ok ne)
    (hr : numOfArray arrays "ref" = .ok nr) (hev : (arrays.any fun a => a.name == "eval") = true)
    (hnl : 0 < nl) (hne : 0 < ne) (hnr : 0 < nr) (hnv : 0 < nv) (sl : cfg.dims "loudspeaker" = some nl) (se : cfg.dims "error" = some ne)
    (sr : cfg.dims "ref" = some nr) (sp : cfg.dims "noise~error" = some ne) (ss : cfg.dims "loudspeaker~error" = some ne)
    (sv : cfg.dims "eval" = some nv) (sw : cfg.dims "noise~eval" = some nv)
    {get : P → Except PyErr V} (hget : ∀ p, K p → ∃ v, get p = .ok v) :
    ∃ ds, ancDiagnostics info arrays get = .ok ds ∧ (ds.map Diag.name).Nodup ∧
      (∀ d ∈ ds, d.Fits cfg K) ∧ (∀ d ∈ ds, ∀ name ∈ d.data.reads, name ≠ "xf") ∧
      ∀ x ∈ [("sig_ls", "loudspeaker", nl), ("sig_error", "error", ne), ("sig_ref", "ref", nr), ("sig_primary_noise", "noise~error", ne),
        ("sig_secondary_noise", "loudspeaker~error", ne)],
        ∃ d ∈ ds, mkRecordSignal info x.1 x.2.1 none none x.2.2 none = .ok d := by
  obtain ⟨ex, hex⟩ : ∃ ex, exportCounter info none = .ok ex := by
    unfold exportCounter
    show ∃ ex, IxCounter.ofFreq info.exportFreq info.tot = .ok ex
    unfold IxCounter.ofFreq
    rw [if_neg (by omega)]
    exact ⟨_, rfl⟩
  have hex' : IxCounter.ofFreq info.exportFreq info.tot = .ok ex := hex
  have hex0 : ∀ e ∈ ex.left, 0 ≤ e := by
    rw [(ofFreq_left hex').2]
    intro e he
    obtain ⟨j, -, rfl⟩ := List.mem_map.1 he
    exact Int.natCast_nonneg _
  obtain ⟨ic, nv, hsv⟩ : ∃ sv nv, IvCounter.fromFrequency info.exportFreq info.tot false = .ok (sv, nv) := by
    unfold IvCounter.fromFrequency
    rw [if_neg (by omega)]
    exact ⟨_, _, rfl⟩
  obtain ⟨-, hsv', -⟩ := fromFrequency_eq hsv
  simp only [Bool.false_eq_true, if_false] at hsv'
  have hrep : ∀ n, List.replicate n (List.replicate info.tot (none : Option R)) = matOf n cfg.tot fun _ _ => none := by
    intro n
    rw [htot]
    simp [matOf, List.map_const']
  have hrows : ∀ {n : Nat}, 0 < n → List.range n ≠ [] := by
    intro n hn e
    rw [List.range_eq_nil] at e
    omega
  have hiv : Increasing 0 [(0, (info.tot : Int))] := ⟨le_refl _, by rw [htot]; exact Int.natCast_pos.2 hpos, trivial⟩
  have hle : ∀ q ∈ [((0 : Int), (info.tot : Int))], q.2 ≤ cfg.tot := by
    intro q hq
    rw [List.mem_singleton] at hq
    rw [hq, htot]
  have frec : ∀ {name sig : String} {n : Nat}, cfg.dims sig = some n → 0 < n →
      (⟨name, IvCounter.init [(0, (info.tot : Int))], ex, .recSignal sig none (List.replicate n (List.replicate info.tot none))⟩ :
        Diag (DData R P V)).Fits cfg K := by
    intro name sig n hd hn
    have := DData.Fits.recSignal (cfg := cfg) (K := K) (ivs := [(0, (info.tot : Int))]) (chan := none) (rows := List.range n) hd rfl (hrows hn)
    rw [List.length_range] at this
    exact ⟨_, rfl, hiv, hle, hex0, by rw [hrep]; exact this⟩
  have fpow : ∀ {name sig : String} {n : Nat}, cfg.dims sig = some n → 0 < n →
      (⟨name, IvCounter.init [(0, (info.tot : Int))], ex, .power sig none (List.replicate info.tot none)⟩ :
        Diag (DData R P V)).Fits cfg K := fun hd hn =>
    ⟨_, rfl, hiv, hle, hex0, by rw [htot]; exact .power (rows := List.range _) hd rfl (hrows hn)⟩
  have frat : ∀ {name na nb : String} {n m : Nat}, cfg.dims na = some n → 0 < n → cfg.dims nb = some m → 0 < m →
      (⟨name, IvCounter.init [(0, (info.tot : Int))], ex, .ratio na none nb none info.smoothing (List.replicate info.tot none)⟩ :
        Diag (DData R P V)).Fits cfg K := fun hd hn hd' hm =>
    ⟨_, rfl, hiv, hle, hex0, by rw [htot]; exact .ratio (ra := List.range _) (rb := List.range _) hd rfl (hrows hn) hd' rfl (hrows hm) hsm⟩
  have ffil : (⟨"secondary_paths", ic, ex, .instant get none⟩ : Diag (DData R P V)).Fits cfg K :=
    ⟨_, hsv', freqIvs_increasing _ _ _ hf (by omega), by
      intro q hq
      rw [freqIvs_one _ _ hf] at hq
      obtain ⟨j, hj, rfl⟩ := List.mem_map.1 hq
      have h6 : (j + 1) * info.exportFreq ≤ info.tot :=
        le_trans (Nat.mul_le_mul_right _ (List.mem_range.1 hj)) (Nat.div_mul_le_self _ _)
      rw [← htot]
      exact Int.ofNat_le.2 h6, hex0, .instant hproc hget⟩
  refine ⟨_, by
    unfold ancDiagnostics mkSignalPowerRatio mkSignalPower mkRecordSignal mkRecordFilter signalSaveAt
    simp only [hex, hl, he, hr, hev, bind, Except.bind, Option.getD_none, hsv, Except.map, IdxSel.counter, hex',
      Option.any_none, Bool.false_eq_true, if_false, if_true]
    rfl, ?_, ?_, ?_, ?_⟩
  · simp
  · intro d hd
    simp only [List.cons_append, List.nil_append, List.mem_cons, List.not_mem_nil, or_false] at hd
    rcases hd with rfl | rfl | rfl | rfl | rfl | rfl | rfl | rfl | rfl | rfl | rfl | rfl | rfl
    · exact frat se hne sp hne
    · exact fpow sl hnl
    · exact fpow se hne
    · exact fpow sp hne
    · exact fpow ss hne
    · exact fpow sr hnr
    · exact frec sl hnl
    · exact frec se hne
    · exact frec sr hnr
    · exact frec sp hne
    · exact frec ss hne
    · exact ffil
    · exact frat sv hnv sw hnv
  · intro d hd
    simp only [List.cons_append, List.nil_append, List.mem_cons, List.not_mem_nil, or_false] at hd
    rcases hd with rfl | rfl | rfl | rfl | rfl | rfl | rfl | rfl | rfl | rfl | rfl | rfl | rfl <;> simp [DData.reads]
  · intro x hx
    refine ⟨⟨x.1, IvCounter.init [(0, (info.tot : Int))], ex,
      .recSignal x.2.1 none (List.replicate x.2.2 (List.replicate info.tot none))⟩, ?_, ?_⟩
    · simp only [List.mem_cons, List.not_mem_nil, or_false] at hx
      rcases hx with rfl | rfl | rfl | rfl | rfl <;> simp
    · unfold mkRecordSignal signalSaveAt
      simp only [hex, hex', IdxSel.counter, Option.any_none, Option.getD_none, bind, Except.bind, Except.map, Bool.false_eq_true, if_false]

end

section
variable {K R G : Type} [Field K] [LinearOrder K] [Field R] [DecidableEq R]
  {ext : RoomExt K R G} {i : RoomInfo K} {freq : Nat} {as : List (Arr (K × K × K))} {os : List (PathOp R)} {t : String}

omit [DecidableEq R] in
/-- A response given by the user is the one in use. -/
theorem RoomPlan.given (h : RoomPlan ext i freq as os t) {g : G} {par : K × Nat} {gc : G × Coll (K × K × K) (IrMat R)}
    (hset : roomSetup ext i g (planned freq as os t) = .ok (par, gc)) {s m : Arr (K × K × K)} (hs : s ∈ as)
    (hsk : s.kind = some .free ∨ s.kind = some .ctrl) (hm : m ∈ as) (hmk : m.kind = some .mic) {H : IrMat R}
    (hup : (userPaths s m os).getLast? = some H) : gc.2.paths s.name m.name = some H := by
  obtain ⟨c1, c2, c3, -⟩ := addAll_arrays as (Coll.empty_consistent (Pt := K × K × K) (H := IrMat R) freq) h.kinds
    (by simpa [Coll.empty] using h.names)
  have hc := (Coll.addAll_spec as (Coll.empty_consistent (Pt := K × K × K) (H := IrMat R) freq) h.kinds).1
  rw [show (Coll.empty freq : Coll (K × K × K) (IrMat R)).arrays = [] from rfl, List.nil_append] at c1
  have key := C40_user_paths hc (by rw [c1]; exact h.initial) os t (roomSetup_setupIr (gc := (gc.1, gc.2)) hset)
    (a := s) (b := m) (by rw [c1]; exact hs) (by rw [c1]; exact hm) hsk hmk (by rw [c2]; rfl) (by rw [c3]; rfl)
    (h.channels s hs) (h.channels m hm)
  rw [hup] at key
  exact key.1

end
end Verif

/-
C197: adaptive noise control is causal.
-/
import Verif.Props.LongerWith
import Verif.Props.AdaptiveScale
import Verif.Props.SamePlaceWith
namespace Verif

section
variable {R IR F S A P D O : Type} [Zero R] [Add R] {cfg : SimCfg R IR F S A P D O}
  {prep : P → Sigs R → Int → Except PyErr (P × Sigs R)} {srcs srcs' : String → S} {arr : A} {proc : P} {f0 : F}
  {x x' : String → Nat → Nat → R} {N : Nat}

/-- Runs with sources that begin alike and with any diagnostics have the same signals, as long as only the
common samples have been requested. -/
theorem later_signals (hx : ∀ a ∈ cfg.arrays, a.kind = .free → IsStream cfg.srcGet (srcs a.name) a.num (x a.name))
    (hx' : ∀ a ∈ cfg.arrays, a.kind = .free → IsStream cfg.srcGet (srcs' a.name) a.num (x' a.name))
    (hagree : ∀ a ∈ cfg.arrays, a.kind = .free → ∀ c < a.num, ∀ j < N, x a.name c j = x' a.name c j)
    {ds0 ds0' : List (Diag D)} {st0 st st0' st' : SimSt R F S A P D O} {k : Nat}
    (h : cfg.initWith prep srcs arr proc f0 ds0 = .ok st0) (hk : cfg.steps k st0 = .ok st)
    (h' : cfg.initWith prep srcs' arr proc f0 ds0' = .ok st0') (hk' : cfg.steps k st0' = .ok st')
    (hN : (if cfg.warm then cfg.B else 1) + k ≤ N) :
    (∀ t ≤ k, ∀ name c v, cfg.Produced st0' name c t v ↔ cfg.Produced st0 name c t v) ∧
      st'.eng.sig = st.eng.sig ∧ st'.eng.proc = st.eng.proc := by
  obtain ⟨s0, s1, g1, g2, g3, g4, g5, -⟩ := C13_prepared hx hx' hagree h hk hN
  obtain ⟨k1, k2⟩ := C120_prepared (cfg := cfg) (tot' := cfg.tot) g1 h' g2 hk'
  refine ⟨fun t ht name c v => (k1 t ht name c v).trans (g3 t ht name c v), ?_, ?_⟩
  · rw [k2, g4]
  · rw [k2, g5]

/-- If the sources agree in all samples that are requested, the whole run is the same. -/
theorem later_run (hx : ∀ a ∈ cfg.arrays, a.kind = .free → IsStream cfg.srcGet (srcs a.name) a.num (x a.name))
    (hx' : ∀ a ∈ cfg.arrays, a.kind = .free → IsStream cfg.srcGet (srcs' a.name) a.num (x' a.name))
    (hagree : ∀ a ∈ cfg.arrays, a.kind = .free → ∀ c < a.num, ∀ j < N, x a.name c j = x' a.name c j)
    {ds0 : List (Diag D)} {fin : SimSt R F S A P D O} (h : cfg.runWith prep srcs arr proc f0 ds0 = .ok fin)
    (hN : (if cfg.warm then cfg.B else 1) + (cfg.tot + cfg.mbs) ≤ N) :
    ∃ fin', cfg.runWith prep srcs' arr proc f0 ds0 = .ok fin' ∧ fin'.eng.sig = fin.eng.sig ∧ fin'.eng.proc = fin.eng.proc ∧
      fin'.diags = fin.diags ∧ fin'.log = fin.log := by
  unfold SimCfg.runWith at h ⊢
  cases hi : cfg.initWith prep srcs arr proc f0 ds0 with
  | error y => rw [hi] at h; cases h
  | ok st0 =>
    rw [hi] at h
    dsimp only at h
    cases hs : cfg.steps (cfg.tot + cfg.mbs) st0 with
    | error y => rw [hs] at h; cases h
    | ok st =>
      rw [hs] at h
      dsimp only at h
      obtain ⟨s0, s1, g1, g2, -, g4, g5, g6, g7⟩ := C13_prepared hx hx' hagree hi hs hN
      rw [g1]
      dsimp only
      rw [g2]
      dsimp only
      rw [g6, g7]
      cases hd : dispatch cfg.diag cfg.plotNone st.diags st.log with
      | error y => rw [hd] at h; cases h
      | ok r =>
        rw [hd] at h
        cases h
        exact ⟨_, rfl, g4, g5, rfl, rfl⟩

end

/-- Two recordings of signals that agree at the first times begin alike. -/
theorem Holding.agree {R : Type} {X X' : Nat → Nat → R → Prop} {numCh n M : Nat} {rows : List Nat} {ivs : List (Int × Int)}
    {s1 s2 : Mat (Option R)} (hlen : rows.length = numCh) (h1 : Holding X numCh n rows ivs s1)
    (h2 : Holding X' numCh n rows ivs s2) (hX : ∀ c, ∀ t < M, ∀ v, X' c t v ↔ X c t v)
    (hu : ∀ c t v v', X c t v → X c t v' → v = v') : s1.map (List.take M) = s2.map (List.take M) := by
  obtain ⟨g4, g5⟩ := h1
  obtain ⟨k4, k5⟩ := h2
  refine List.ext_getElem? fun j => ?_
  rw [List.getElem?_map, List.getElem?_map]
  by_cases hj : j < numCh
  · obtain ⟨c, hc⟩ : ∃ c, rows[j]? = some c := ⟨rows[j]'(by omega), List.getElem?_eq_getElem _⟩
    obtain ⟨r1, a1, a2, a3⟩ := g5 j c hc
    obtain ⟨r2, b1, b2, b3⟩ := k5 j c hc
    rw [a1, b1, Option.map_some, Option.map_some]
    congr 1
    refine List.ext_getElem? fun t => ?_
    rw [List.getElem?_take, List.getElem?_take]
    split
    · rename_i hM
      by_cases ht : t < n
      · by_cases hc : Covered ivs t
        · obtain ⟨v, p1, p2⟩ := (a3 t ht).1 hc
          obtain ⟨v', q1, q2⟩ := (b3 t ht).1 hc
          rw [p2, q2, hu _ _ _ _ p1 ((hX c t hM v').1 q1)]
        · rw [(a3 t ht).2 hc, (b3 t ht).2 hc]
      · rw [List.getElem?_eq_none (by omega), List.getElem?_eq_none (by omega)]
    · rfl
  · rw [List.getElem?_eq_none (by omega), List.getElem?_eq_none (l := s2) (by omega)]

section
variable {R IR F S A V : Type} [Field R] [DecidableEq R] {q : FxPar R} {Sp : IrMat R}
  {cfg : SimCfg R IR F S A (FxSt R) (DData R (FxSt R) V) (DOut R V)}
  {srcs srcs' : String → S} {arr : A} {f0 : F} {ds0 ds0' : List (Diag (DData R (FxSt R) V))}
  {st0 st0' fin fin' : SimSt R F S A (FxSt R) (DData R (FxSt R) V) (DOut R V)} {x x' : String → Nat → Nat → R} {N M : Nat}

/-- **C197, FxLMS**: if the sources of two completed simulations deliver the same first `N` samples, then a `RecordSignal` diagnostic
holds the same in the first `N` samples (`N + 1 - B` if the sources are started before 0), whatever
the sources deliver later and which other diagnostics there are. -/
theorem C197_recordings_fxlms (h : FxRun cfg q Sp srcs arr f0 ds0 st0 fin) (h' : FxRun cfg q Sp srcs' arr f0 ds0' st0' fin')
    (hx : ∀ a ∈ cfg.arrays, a.kind = .free → IsStream cfg.srcGet (srcs a.name) a.num (x a.name))
    (hx' : ∀ a ∈ cfg.arrays, a.kind = .free → IsStream cfg.srcGet (srcs' a.name) a.num (x' a.name))
    (hagree : ∀ a ∈ cfg.arrays, a.kind = .free → ∀ c < a.num, ∀ j < N, x a.name c j = x' a.name c j)
    (hN : (if cfg.warm then cfg.B else 1) + M ≤ N + 1) (hM : M ≤ cfg.tot)
    {info info' : DiagInfo} {name sig : String} {ex ex' : Option IdxSel} {sv : Option (List (Int × Int))}
    {numCh num : Nat} {chan : Option (List Int)} {rows : List Nat} {d d' : Diag (DData R (FxSt R) V)}
    (hd : mkRecordSignal info name sig ex sv numCh chan = .ok d) (hmem : d ∈ ds0) (htot : info.tot = cfg.tot)
    (hd' : mkRecordSignal info' name sig ex' sv numCh chan = .ok d') (hmem' : d' ∈ ds0') (htot' : info'.tot = cfg.tot)
    (hinc : Increasing 0 (savedIvs cfg.tot sv)) (hend : ∀ q ∈ savedIvs cfg.tot sv, q.2 ≤ cfg.tot)
    (hsig : cfg.dims sig = some num) (hown : sig ≠ "xf") (hrows : chanRows num chan = some rows)
    (hlen : rows.length = numCh) :
    ∃ d1 ∈ fin.diags, d1.name = name ∧ ∃ d2 ∈ fin'.diags, d2.name = name ∧ ∃ s1 s2 : Mat (Option R),
      d1.data = .recSignal sig chan s1 ∧ d2.data = .recSignal sig chan s2 ∧ s1.length = numCh ∧ s2.length = numCh ∧
      s1.map (List.take M) = s2.map (List.take M) := by
  obtain ⟨d1, g1, g2, s1, g3, g4⟩ := C151_recording h hd hmem htot rfl hinc hend hsig hown hrows hlen
  obtain ⟨d2, k1, k2, s2, k3, k4⟩ := C151_recording h' hd' hmem' htot' rfl hinc hend hsig hown hrows hlen
  refine ⟨d1, g1, g2, d2, k1, k2, s1, s2, g3, k3, g4.1, k4.1, Holding.agree (X := fun c t v => cfg.Produced st0 sig c t v)
    (X' := fun c t v => cfg.Produced st0' sig c t v) hlen g4 k4 (fun c t ht v => ?_) fun _ _ _ _ a b => a.unique b⟩
  obtain ⟨s, hs⟩ := h.stepsTo (n := t) (by omega)
  obtain ⟨s', hs'⟩ := h'.stepsTo (n := t) (by omega)
  exact (later_signals hx hx' hagree h.init hs h'.init hs' (by omega)).1 t (le_refl _) sig c v

/-- **C197, FxLMS**: after the first steps the control filter is the same, too. -/
theorem C197_filter_fxlms (h : FxRun cfg q Sp srcs arr f0 ds0 st0 fin) (h' : FxRun cfg q Sp srcs' arr f0 ds0' st0' fin')
    (hx : ∀ a ∈ cfg.arrays, a.kind = .free → IsStream cfg.srcGet (srcs a.name) a.num (x a.name))
    (hx' : ∀ a ∈ cfg.arrays, a.kind = .free → IsStream cfg.srcGet (srcs' a.name) a.num (x' a.name))
    (hagree : ∀ a ∈ cfg.arrays, a.kind = .free → ∀ c < a.num, ∀ j < N, x a.name c j = x' a.name c j)
    {k : Nat} (hN : (if cfg.warm then cfg.B else 1) + k ≤ N) (hM : k ≤ cfg.tot) :
    ∃ st st', cfg.steps k st0 = .ok st ∧ cfg.steps k st0' = .ok st' ∧ st'.eng.sig = st.eng.sig ∧ st'.eng.proc = st.eng.proc := by
  obtain ⟨s, hs⟩ := h.stepsTo (n := k) (by omega)
  obtain ⟨s', hs'⟩ := h'.stepsTo (n := k) (by omega)
  exact ⟨s, s', hs, hs', (later_signals hx hx' hagree h.init hs h'.init hs' hN).2⟩

end

section
variable {R IR F S A V : Type} [Field R] [DecidableEq R] {q : FxPar R} {Sp : IrMat R}
  {cfg : SimCfg R IR F S A (FastSt R) (DData R (FastSt R) V) (DOut R V)}
  {srcs srcs' : String → S} {arr : A} {f0 : F} {ds0 ds0' : List (Diag (DData R (FastSt R) V))}
  {st0 st0' fin fin' : SimSt R F S A (FastSt R) (DData R (FastSt R) V) (DOut R V)} {x x' : String → Nat → Nat → R} {N M : Nat}

/-- **C197, FastBlockFxLMS**: the same. -/
theorem C197_recordings_fast (h : FastRun cfg q Sp srcs arr f0 ds0 st0 fin) (h' : FastRun cfg q Sp srcs' arr f0 ds0' st0' fin')
    (hx : ∀ a ∈ cfg.arrays, a.kind = .free → IsStream cfg.srcGet (srcs a.name) a.num (x a.name))
    (hx' : ∀ a ∈ cfg.arrays, a.kind = .free → IsStream cfg.srcGet (srcs' a.name) a.num (x' a.name))
    (hagree : ∀ a ∈ cfg.arrays, a.kind = .free → ∀ c < a.num, ∀ j < N, x a.name c j = x' a.name c j)
    (hN : (if cfg.warm then cfg.B else 1) + M ≤ N + 1) (hM : M ≤ cfg.tot)
    {info info' : DiagInfo} {name sig : String} {ex ex' : Option IdxSel} {sv : Option (List (Int × Int))}
    {numCh num : Nat} {chan : Option (List Int)} {rows : List Nat} {d d' : Diag (DData R (FastSt R) V)}
    (hd : mkRecordSignal info name sig ex sv numCh chan = .ok d) (hmem : d ∈ ds0) (htot : info.tot = cfg.tot)
    (hd' : mkRecordSignal info' name sig ex' sv numCh chan = .ok d') (hmem' : d' ∈ ds0') (htot' : info'.tot = cfg.tot)
    (hinc : Increasing 0 (savedIvs cfg.tot sv)) (hend : ∀ q ∈ savedIvs cfg.tot sv, q.2 ≤ cfg.tot)
    (hsig : cfg.dims sig = some num) (hown : sig ≠ "xf") (hrows : chanRows num chan = some rows)
    (hlen : rows.length = numCh) :
    ∃ d1 ∈ fin.diags, d1.name = name ∧ ∃ d2 ∈ fin'.diags, d2.name = name ∧ ∃ s1 s2 : Mat (Option R),
      d1.data = .recSignal sig chan s1 ∧ d2.data = .recSignal sig chan s2 ∧ s1.length = numCh ∧ s2.length = numCh ∧
      s1.map (List.take M) = s2.map (List.take M) := by
  obtain ⟨d1, g1, g2, s1, g3, g4⟩ := C183_recording h hd hmem htot rfl hinc hend hsig hown hrows hlen
  obtain ⟨d2, k1, k2, s2, k3, k4⟩ := C183_recording h' hd' hmem' htot' rfl hinc hend hsig hown hrows hlen
  refine ⟨d1, g1, g2, d2, k1, k2, s1, s2, g3, k3, g4.1, k4.1, Holding.agree (X := fun c t v => cfg.Produced st0 sig c t v)
    (X' := fun c t v => cfg.Produced st0' sig c t v) hlen g4 k4 (fun c t ht v => ?_) fun _ _ _ _ a b => a.unique b⟩
  obtain ⟨s, hs⟩ := h.stepsTo (n := t) (by omega)
  obtain ⟨s', hs'⟩ := h'.stepsTo (n := t) (by omega)
  exact (later_signals hx hx' hagree h.init hs h'.init hs' (by omega)).1 t (le_refl _) sig c v

/-- **C197, FastBlockFxLMS**: after the first steps the control filter is the same, too. -/
theorem C197_filter_fast (h : FastRun cfg q Sp srcs arr f0 ds0 st0 fin) (h' : FastRun cfg q Sp srcs' arr f0 ds0' st0' fin')
    (hx : ∀ a ∈ cfg.arrays, a.kind = .free → IsStream cfg.srcGet (srcs a.name) a.num (x a.name))
    (hx' : ∀ a ∈ cfg.arrays, a.kind = .free → IsStream cfg.srcGet (srcs' a.name) a.num (x' a.name))
    (hagree : ∀ a ∈ cfg.arrays, a.kind = .free → ∀ c < a.num, ∀ j < N, x a.name c j = x' a.name c j)
    {k : Nat} (hN : (if cfg.warm then cfg.B else 1) + k ≤ N) (hM : k ≤ cfg.tot) :
    ∃ st st', cfg.steps k st0 = .ok st ∧ cfg.steps k st0' = .ok st' ∧ st'.eng.sig = st.eng.sig ∧ st'.eng.proc = st.eng.proc := by
  obtain ⟨s, hs⟩ := h.stepsTo (n := k) (by omega)
  obtain ⟨s', hs'⟩ := h'.stepsTo (n := k) (by omega)
  exact ⟨s, s', hs, hs', (later_signals hx hx' hagree h.init hs h'.init hs' hN).2⟩

end

section
variable {K R S G V : Type} [Field K] [LinearOrder K] [Field R] [DecidableEq R] {ext : RoomExt K R G} {i : RoomInfo K} {freq : Nat}
  {as : List (Arr (K × K × K))} {os : List (PathOp R)} {t : String} {srcs srcs' : String → S} {q : FxPar R} {g : G} {f0 : Fir R}
  {info : DiagInfo} {name : String} {ex : Option IdxSel} {x x' : String → Nat → Nat → R} {N M : Nat}

/-- **C197, FxLMS**, in rooms: if the sources of two completed simulations deliver the same first `N` samples, then the recordings
of every array have the same first `N` samples (`N + 1 - B` if the sources are started before 0). -/
theorem C197_fxlms {base : SimCfg R (IrMat R) (Fir R) S (G × Coll (K × K × K) (IrMat R)) (FxSt R) (DData R (FxSt R) V) (DOut R V)}
    (h : AncScene base ext i freq as os t srcs q) (h' : AncScene base ext i freq as os t srcs' q)
    (hx : ∀ a ∈ as, a.kind = some .free → IsStream base.srcGet (srcs a.name) a.num (x a.name))
    (hx' : ∀ a ∈ as, a.kind = some .free → IsStream base.srcGet (srcs' a.name) a.num (x' a.name))
    (hagree : ∀ a ∈ as, a.kind = some .free → ∀ c < a.num, ∀ j < N, x a.name c j = x' a.name c j)
    (hN : (if base.warm then base.B else 1) + M ≤ N + 1) (hM : M ≤ base.tot)
    {diags : Coll (K × K × K) (IrMat R) → Except PyErr (List (Diag (DData R (FxSt R) V)))}
    {fin fin' : SimSt R (Fir R) S (G × Coll (K × K × K) (IrMat R)) (FxSt R) (DData R (FxSt R) V) (DOut R V)}
    (hfin : ancSimulate base ext i g (planned freq as os t) srcs q.bs q.ub q.L q.mu q.beta q.norm f0 diags = .ok fin)
    (hfin' : ancSimulate base ext i g (planned freq as os t) srcs' q.bs q.ub q.L q.mu q.beta q.norm f0 diags = .ok fin')
    (hnd : ∀ c ds, c.arrays = as → diags c = .ok ds → (ds.map Diag.name).Nodup)
    (htot : info.tot = base.tot) (hpos : 0 < base.tot) {m : Arr (K × K × K)} (hm : m ∈ as)
    (hds : ∀ c ds, c.arrays = as → diags c = .ok ds → ∃ d ∈ ds, mkRecordSignal info name m.name ex none m.num none = .ok d) :
    ∃ d1 ∈ fin.diags, d1.name = name ∧ ∃ d2 ∈ fin'.diags, d2.name = name ∧ ∃ s1 s2 : Mat (Option R),
      d1.data = .recSignal m.name none s1 ∧ d2.data = .recSignal m.name none s2 ∧ s1.length = m.num ∧ s2.length = m.num ∧
      s1.map (List.take M) = s2.map (List.take M) := by
  obtain ⟨par, gc, sp, ds, st0, hset, harr, -, hsp, hds1, hrun⟩ := h.ran hfin hnd
  obtain ⟨par', gc', sp', ds', st0', hset', -, -, hsp', hds2, hrun'⟩ := h'.ran hfin' hnd
  rw [hset] at hset'
  cases hset'
  rw [hsp] at hsp'
  cases hsp'
  rw [hds1] at hds2
  cases hds2
  obtain ⟨d, hd1, hd2⟩ := hds gc.2 ds harr hds1
  obtain ⟨km, hkm⟩ := Option.ne_none_iff_exists'.1 (h.plan.kinds m hm)
  have hmi : (⟨m.name, m.num, km, m.dynamic⟩ : ArrInfo) ∈ infosOf as := mem_infosOf.2 ⟨m, hm, hkm, rfl, rfl, rfl⟩
  have hN' := (fx_init hrun.scene sp hrun.init).1
  refine C197_recordings_fxlms (x := x) (x' := x') (N := N) hrun hrun' ?_ ?_ ?_ hN hM hd2 hd1 htot hd2 hd1 htot ⟨le_refl _, by
      show (0 : Int) < (base.tot : Int); omega, trivial⟩ (by simp [savedIvs]) (hN'.arr _ hmi) (h.own m hm) (rows := List.range m.num) rfl (by simp)
  · intro a ha hk
    obtain ⟨b, hb, e1, e2, e3, -⟩ := mem_infosOf.1 ha
    rw [hk] at e1
    rw [← e2, ← e3]
    exact hx b hb e1
  · intro a ha hk
    obtain ⟨b, hb, e1, e2, e3, -⟩ := mem_infosOf.1 ha
    rw [hk] at e1
    rw [← e2, ← e3]
    exact hx' b hb e1
  · intro a ha hk
    obtain ⟨b, hb, e1, e2, e3, -⟩ := mem_infosOf.1 ha
    rw [hk] at e1
    rw [← e2, ← e3]
    exact hagree b hb e1

/-- **C197, FastBlockFxLMS**, in rooms: if the sources of two completed simulations deliver the same first `N` samples, then the recordings
of every array have the same first `N` samples (`N + 1 - B` if the sources are started before 0). -/
theorem C197_fast {base : SimCfg R (IrMat R) (Fir R) S (G × Coll (K × K × K) (IrMat R)) (FastSt R) (DData R (FastSt R) V) (DOut R V)}
    (h : RealScene base ext i freq as os t srcs q) (h' : RealScene base ext i freq as os t srcs' q)
    (hx : ∀ a ∈ as, a.kind = some .free → IsStream base.srcGet (srcs a.name) a.num (x a.name))
    (hx' : ∀ a ∈ as, a.kind = some .free → IsStream base.srcGet (srcs' a.name) a.num (x' a.name))
    (hagree : ∀ a ∈ as, a.kind = some .free → ∀ c < a.num, ∀ j < N, x a.name c j = x' a.name c j)
    (hN : (if base.warm then base.B else 1) + M ≤ N + 1) (hM : M ≤ base.tot)
    {diags : Coll (K × K × K) (IrMat R) → Except PyErr (List (Diag (DData R (FastSt R) V)))}
    {fin fin' : SimSt R (Fir R) S (G × Coll (K × K × K) (IrMat R)) (FastSt R) (DData R (FastSt R) V) (DOut R V)}
    (hfin : realSimulate base ext i g (planned freq as os t) srcs q.bs q.L q.mu q.beta f0 diags = .ok fin)
    (hfin' : realSimulate base ext i g (planned freq as os t) srcs' q.bs q.L q.mu q.beta f0 diags = .ok fin')
    (hnd : ∀ c ds, c.arrays = as → diags c = .ok ds → (ds.map Diag.name).Nodup)
    (htot : info.tot = base.tot) (hpos : 0 < base.tot) {m : Arr (K × K × K)} (hm : m ∈ as)
    (hds : ∀ c ds, c.arrays = as → diags c = .ok ds → ∃ d ∈ ds, mkRecordSignal info name m.name ex none m.num none = .ok d) :
    ∃ d1 ∈ fin.diags, d1.name = name ∧ ∃ d2 ∈ fin'.diags, d2.name = name ∧ ∃ s1 s2 : Mat (Option R),
      d1.data = .recSignal m.name none s1 ∧ d2.data = .recSignal m.name none s2 ∧ s1.length = m.num ∧ s2.length = m.num ∧
      s1.map (List.take M) = s2.map (List.take M) := by
  obtain ⟨par, gc, sp, ds, st0, hset, harr, -, hsp, hds1, hrun⟩ := h.ran hfin hnd
  obtain ⟨par', gc', sp', ds', st0', hset', -, -, hsp', hds2, hrun'⟩ := h'.ran hfin' hnd
  rw [hset] at hset'
  cases hset'
  rw [hsp] at hsp'
  cases hsp'
  rw [hds1] at hds2
  cases hds2
  obtain ⟨d, hd1, hd2⟩ := hds gc.2 ds harr hds1
  obtain ⟨km, hkm⟩ := Option.ne_none_iff_exists'.1 (h.plan.kinds m hm)
  have hmi : (⟨m.name, m.num, km, m.dynamic⟩ : ArrInfo) ∈ infosOf as := mem_infosOf.2 ⟨m, hm, hkm, rfl, rfl, rfl⟩
  have hN' := (fast_begin hrun.scene sp hrun.init).1
  refine C197_recordings_fast (x := x) (x' := x') (N := N) hrun hrun' ?_ ?_ ?_ hN hM hd2 hd1 htot hd2 hd1 htot ⟨le_refl _, by
      show (0 : Int) < (base.tot : Int); omega, trivial⟩ (by simp [savedIvs]) (hN'.arr _ hmi) (h.own m hm) (rows := List.range m.num) rfl (by simp)
  · intro a ha hk
    obtain ⟨b, hb, e1, e2, e3, -⟩ := mem_infosOf.1 ha
    rw [hk] at e1
    rw [← e2, ← e3]
    exact hx b hb e1
  · intro a ha hk
    obtain ⟨b, hb, e1, e2, e3, -⟩ := mem_infosOf.1 ha
    rw [hk] at e1
    rw [← e2, ← e3]
    exact hx' b hb e1
  · intro a ha hk
    obtain ⟨b, hb, e1, e2, e3, -⟩ := mem_infosOf.1 ha
    rw [hk] at e1
    rw [← e2, ← e3]
    exact hagree b hb e1

end

section
variable {F K R S D O G : Type} [Field K] [LinearOrder K] [Field R] {srcs srcs' : String → S} {x x' : String → Nat → Nat → R} {N : Nat}

/-- **C197, FxLMS**: if the sources agree in all samples that are requested, the
whole outcome is the same: the simulation completes, too, with the same signals, control filter, diagnostics and exports. -/
theorem C197_all_fxlms (base : SimCfg R (IrMat R) F S (G × Coll (K × K × K) (IrMat R)) (FxSt R) D O) (ext : RoomExt K R G)
    (i : RoomInfo K) (g : G) (c : Coll (K × K × K) (IrMat R)) (bs ub L : Nat) (mu beta : R) (norm : FxNorm) (f0 : F)
    (diags : Coll (K × K × K) (IrMat R) → Except PyErr (List (Diag D)))
    (hx : ∀ a ∈ c.infos, a.kind = .free → IsStream base.srcGet (srcs a.name) a.num (x a.name))
    (hx' : ∀ a ∈ c.infos, a.kind = .free → IsStream base.srcGet (srcs' a.name) a.num (x' a.name))
    (hagree : ∀ a ∈ c.infos, a.kind = .free → ∀ ch < a.num, ∀ j < N, x a.name ch j = x' a.name ch j)
    (hN : (if base.warm then base.B else 1) + (base.tot + bs) ≤ N)
    {fin : SimSt R F S (G × Coll (K × K × K) (IrMat R)) (FxSt R) D O}
    (h : ancSimulate base ext i g c srcs bs ub L mu beta norm f0 diags = .ok fin) :
    ∃ fin', ancSimulate base ext i g c srcs' bs ub L mu beta norm f0 diags = .ok fin' ∧ fin'.eng.sig = fin.eng.sig ∧ fin'.eng.proc = fin.eng.proc ∧
      fin'.diags = fin.diags ∧ fin'.log = fin.log := by
  unfold ancSimulate at h ⊢
  cases hs : roomSetup ext i g c with
  | error y => rw [hs] at h; cases h
  | ok r =>
    obtain ⟨par, gc⟩ := r
    rw [hs] at h
    dsimp only at h ⊢
    cases hp : Coll.path gc "loudspeaker" "error" with
    | error y => rw [hp] at h; cases h
    | ok sp =>
      rw [hp] at h
      dsimp only at h ⊢
      cases hq : fxCreate gc.2.arrays bs ub L mu beta norm with
      | error y => rw [hq] at h; cases h
      | ok q =>
        rw [hq] at h
        dsimp only at h ⊢
        cases hd : diags gc.2 with
        | error y => rw [hd] at h; cases h
        | ok ds =>
          rw [hd] at h
          dsimp only at h ⊢
          refine later_run (x := x) (x' := x') (N := N) hx hx' hagree h ?_
          have : q.bs = bs := by
            have := hq
            unfold fxCreate at this
            repeat' split at this
            all_goals first
              | cases this; rfl
              | cases this
          show (if base.warm then base.B else 1) + (base.tot + (fxProc q).bs) ≤ N
          rw [show (fxProc q).bs = q.bs from rfl, this]
          exact hN

/-- **C197, FastBlockFxLMS**: the same. -/
theorem C197_all_fast (base : SimCfg R (IrMat R) F S (G × Coll (K × K × K) (IrMat R)) (FastSt R) D O) (ext : RoomExt K R G)
    (i : RoomInfo K) (g : G) (c : Coll (K × K × K) (IrMat R)) (bs L : Nat) (mu beta : R) (f0 : F)
    (diags : Coll (K × K × K) (IrMat R) → Except PyErr (List (Diag D)))
    (hx : ∀ a ∈ c.infos, a.kind = .free → IsStream base.srcGet (srcs a.name) a.num (x a.name))
    (hx' : ∀ a ∈ c.infos, a.kind = .free → IsStream base.srcGet (srcs' a.name) a.num (x' a.name))
    (hagree : ∀ a ∈ c.infos, a.kind = .free → ∀ ch < a.num, ∀ j < N, x a.name ch j = x' a.name ch j)
    (hN : (if base.warm then base.B else 1) + (base.tot + bs) ≤ N)
    {fin : SimSt R F S (G × Coll (K × K × K) (IrMat R)) (FastSt R) D O}
    (h : realSimulate base ext i g c srcs bs L mu beta f0 diags = .ok fin) :
    ∃ fin', realSimulate base ext i g c srcs' bs L mu beta f0 diags = .ok fin' ∧ fin'.eng.sig = fin.eng.sig ∧ fin'.eng.proc = fin.eng.proc ∧
      fin'.diags = fin.diags ∧ fin'.log = fin.log := by
  unfold realSimulate at h ⊢
  cases hs : roomSetup ext i g c with
  | error y => rw [hs] at h; cases h
  | ok r =>
    obtain ⟨par, gc⟩ := r
    rw [hs] at h
    dsimp only at h ⊢
    cases hp : Coll.path gc "loudspeaker" "error" with
    | error y => rw [hp] at h; cases h
    | ok sp =>
      rw [hp] at h
      dsimp only at h ⊢
      cases hq : fastCreate gc.2.arrays bs L mu beta with
      | error y => rw [hq] at h; cases h
      | ok q =>
        rw [hq] at h
        dsimp only at h ⊢
        cases hd : diags gc.2 with
        | error y => rw [hd] at h; cases h
        | ok ds =>
          rw [hd] at h
          dsimp only at h ⊢
          refine later_run (x := x) (x' := x') (N := N) hx hx' hagree h ?_
          have : q.bs = bs := by
            have := hq
            unfold fastCreate fxCreate at this
            repeat' split at this
            all_goals first
              | cases this; rfl
              | cases this
          show (if base.warm then base.B else 1) + (base.tot + (fastProc q).bs) ≤ N
          rw [show (fastProc q).bs = q.bs from rfl, this]
          exact hN

end

/-! ### examples -/

def turnDiags {P : Type} : Except PyErr (List (Diag (DData ℚ P ℚ))) :=
  (mkRecordSignal ⟨7, 2, 4⟩ "rec" "error" none none 1 none).map fun a => [a]

theorem turnDiags_ok {P : Type} {ds : List (Diag (DData ℚ P ℚ))} (h : turnDiags = .ok ds) : (ds.map Diag.name).Nodup ∧
    ∃ d ∈ ds, mkRecordSignal ⟨7, 2, 4⟩ "rec" "error" none none 1 none = .ok d := by
  unfold turnDiags at h
  rw [show ∀ x : Except PyErr (Diag (DData ℚ P ℚ)), x.map (fun b => [b]) = x >>= fun b => .ok [b] from fun x => by cases x <;> rfl] at h
  obtain ⟨a, ha, h⟩ := bind_ok h
  cases h
  exact ⟨by simp, a, by simp, ha⟩

def turnFxBase := { ancBase with B := 6, C := 4, tot := 7, srcGet := twoCfg.srcGet }

def turnFastBase := { realBase 7 with B := 6, C := 4, warm := false, srcGet := twoCfg.srcGet }

/-- The noise counts for ever (`k = 0`) or up to 5 (`k = 1`). -/
def turnFx (k : Nat) := ancSimulate turnFxBase boxExt boxInfo 0 (planned 2 twinArrays exampleTypes "ism")
  (fun _ => k) 1 2 2 (1 / 100) (1 / 1000) .block demoFilt fun _ => turnDiags

def turnFast (k : Nat) := realSimulate turnFastBase boxExt boxInfo 0 (planned 2 twinArrays exampleTypes "ism")
  (fun _ => k) 1 2 (1 / 100) (1 / 1000) demoFilt fun _ => turnDiags

def turnPlay (k : Nat) : String → Nat → Nat → ℚ := fun _ _ j => if k = 1 ∧ 5 ≤ j then 0 else ((j + 1 : Nat) : ℚ)

theorem turn_streams {k : Nat} (hk : k < 2) : ∀ a ∈ twinArrays, a.kind = some .free →
    IsStream twoCfg.srcGet ((fun _ => k : String → Nat) a.name) a.num (turnPlay k a.name) := by
  intro a ha hkind
  simp only [twinArrays, List.mem_cons, List.not_mem_nil, or_false] at ha
  rcases ha with rfl | rfl | rfl | rfl | rfl
  · cases hkind
  · cases hkind
  · cases hkind
  · exact two_stream k hk
  · cases hkind

theorem turn_agree : ∀ a ∈ twinArrays, a.kind = some .free → ∀ c < a.num, ∀ j < 5, turnPlay 0 a.name c j = turnPlay 1 a.name c j := by
  intro a _ _ c _ j hj
  unfold turnPlay
  rw [if_neg (by omega), if_neg (by omega)]

theorem turn_fx_scene {k : Nat} (hk : k < 2) : AncScene turnFxBase boxExt boxInfo 2 twinArrays exampleTypes "ism" (fun _ => k) twinPar :=
  ⟨twin_plan, rfl, rfl, ⟨stillArr "ref" .mic [(3, 1, 3)], by simp [twinArrays], rfl, rfl, rfl⟩,
    ⟨stillArr "error" .mic [(0, 1, 3)], by simp [twinArrays], rfl, rfl, rfl⟩,
    ⟨stillArr "loudspeaker" .ctrl [(1, 1, 3)], by simp [twinArrays], rfl, rfl, rfl⟩, twin_own, by decide,
    fun a ha h => ⟨_, turn_streams hk a ha h⟩, by decide, by decide,
    ⟨by decide, by decide⟩, ⟨by decide, .inl (by decide)⟩, ⟨by decide, by decide⟩, .inr (regular_pos (by norm_num [twinPar]))⟩

theorem turn_fast_scene {k : Nat} (hk : k < 2) : RealScene turnFastBase boxExt boxInfo 2 twinArrays exampleTypes "ism" (fun _ => k) twinPar :=
  ⟨twin_plan, rfl, rfl, ⟨stillArr "ref" .mic [(3, 1, 3)], by simp [twinArrays], rfl, rfl, rfl⟩,
    ⟨stillArr "error" .mic [(0, 1, 3)], by simp [twinArrays], rfl, rfl, rfl⟩,
    ⟨stillArr "loudspeaker" .ctrl [(1, 1, 3)], by simp [twinArrays], rfl, rfl, rfl⟩, twin_own, by decide,
    fun a ha h => ⟨_, turn_streams hk a ha h⟩, by decide, by decide,
    ⟨rfl, by decide⟩, rfl, ⟨by decide, .inl (by decide)⟩, ⟨by decide, by decide⟩, regular_pos (by norm_num [twinPar])⟩

/-- The noise changes at sample 5, the recording of the error microphone is the same until then, and not the same later. -/
example : errBuffer ((turnFx 0).map observe) ≠ errBuffer ((turnFx 1).map observe) ∧
    ∃ fin fin', turnFx 0 = .ok fin ∧ turnFx 1 = .ok fin' ∧
      ∃ d1 ∈ fin.diags, d1.name = "rec" ∧ ∃ d2 ∈ fin'.diags, d2.name = "rec" ∧ ∃ s1 s2 : Mat (Option ℚ),
        d1.data = .recSignal "error" none s1 ∧ d2.data = .recSignal "error" none s2 ∧ s1.length = 1 ∧ s2.length = 1 ∧
        s1.map (List.take 5) = s2.map (List.take 5) := by
  refine ⟨by decide +kernel, ?_⟩
  have hok : (turnFx 0).isOk = true := by decide +kernel
  have hok' : (turnFx 1).isOk = true := by decide +kernel
  cases h : turnFx 0 with
  | error x => rw [h] at hok; cases hok
  | ok fin =>
    cases h' : turnFx 1 with
    | error x => rw [h'] at hok'; cases hok'
    | ok fin' =>
      exact ⟨fin, fin', rfl, rfl, C197_fxlms (info := ⟨7, 2, 4⟩) (ex := none) (N := 5) (turn_fx_scene (k := 0) (by decide)) (turn_fx_scene (k := 1) (by decide))
        (turn_streams (by decide)) (turn_streams (by decide)) turn_agree (by decide) (by decide) h h' (fun c ds _ hd => (turnDiags_ok hd).1) rfl (by decide)
        (m := stillArr "error" .mic [(0, 1, 3)]) (by simp [twinArrays]) fun c ds _ hd => (turnDiags_ok hd).2⟩

example : errBuffer ((turnFast 0).map observe) ≠ errBuffer ((turnFast 1).map observe) ∧
    ∃ fin fin', turnFast 0 = .ok fin ∧ turnFast 1 = .ok fin' ∧
      ∃ d1 ∈ fin.diags, d1.name = "rec" ∧ ∃ d2 ∈ fin'.diags, d2.name = "rec" ∧ ∃ s1 s2 : Mat (Option ℚ),
        d1.data = .recSignal "error" none s1 ∧ d2.data = .recSignal "error" none s2 ∧ s1.length = 1 ∧ s2.length = 1 ∧
        s1.map (List.take 5) = s2.map (List.take 5) := by
  refine ⟨by decide +kernel, ?_⟩
  have hok : (turnFast 0).isOk = true := by decide +kernel
  have hok' : (turnFast 1).isOk = true := by decide +kernel
  cases h : turnFast 0 with
  | error x => rw [h] at hok; cases hok
  | ok fin =>
    cases h' : turnFast 1 with
    | error x => rw [h'] at hok'; cases hok'
    | ok fin' =>
      exact ⟨fin, fin', rfl, rfl, C197_fast (info := ⟨7, 2, 4⟩) (ex := none) (N := 5) (turn_fast_scene (k := 0) (by decide)) (turn_fast_scene (k := 1) (by decide))
        (turn_streams (by decide)) (turn_streams (by decide)) turn_agree (by decide) (by decide) h h' (fun c ds _ hd => (turnDiags_ok hd).1) rfl (by decide)
        (m := stillArr "error" .mic [(0, 1, 3)]) (by simp [twinArrays]) fun c ds _ hd => (turnDiags_ok hd).2⟩

/-- The first three samples: the sources have been asked for five samples each, which are the same. -/
def briefFx (k : Nat) := ancSimulate { turnFxBase with tot := 3 } boxExt boxInfo 0 (planned 2 twinArrays exampleTypes "ism")
  (fun _ => k) 1 2 2 (1 / 100) (1 / 1000) .block demoFilt fun _ => turnDiags

def briefFast (k : Nat) := realSimulate { turnFastBase with tot := 3 } boxExt boxInfo 0 (planned 2 twinArrays exampleTypes "ism")
  (fun _ => k) 1 2 (1 / 100) (1 / 1000) demoFilt fun _ => turnDiags

theorem turn_infos : ∀ a ∈ (planned 2 twinArrays (exampleTypes (R := ℚ)) "ism").infos, a.kind = .free → a.num = 1 := by decide

example : ∃ fin fin', briefFx 0 = .ok fin ∧ briefFx 1 = .ok fin' ∧ fin'.eng.sig = fin.eng.sig ∧ fin'.eng.proc = fin.eng.proc ∧
    fin'.diags = fin.diags ∧ fin'.log = fin.log := by
  have hok : (briefFx 0).isOk = true := by decide +kernel
  cases h : briefFx 0 with
  | error x => rw [h] at hok; cases hok
  | ok fin =>
    obtain ⟨fin', h1, h2⟩ := C197_all_fxlms (x := turnPlay 0) (x' := turnPlay 1) (N := 5) (srcs' := fun _ => 1) _ boxExt boxInfo 0 _ 1 2 2 (1 / 100) (1 / 1000) .block demoFilt _
      (fun a ha hk => by rw [turn_infos a ha hk]; exact two_stream 0 (by decide))
      (fun a ha hk => by rw [turn_infos a ha hk]; exact two_stream 1 (by decide))
      (fun a _ _ c _ j hj => by unfold turnPlay; rw [if_neg (by omega), if_neg (by omega)]) (by decide) h
    exact ⟨fin, fin', rfl, h1, h2⟩

example : ∃ fin fin', briefFast 0 = .ok fin ∧ briefFast 1 = .ok fin' ∧ fin'.eng.sig = fin.eng.sig ∧ fin'.eng.proc = fin.eng.proc ∧
    fin'.diags = fin.diags ∧ fin'.log = fin.log := by
  have hok : (briefFast 0).isOk = true := by decide +kernel
  cases h : briefFast 0 with
  | error x => rw [h] at hok; cases hok
  | ok fin =>
    obtain ⟨fin', h1, h2⟩ := C197_all_fast (x := turnPlay 0) (x' := turnPlay 1) (N := 5) (srcs' := fun _ => 1) _ boxExt boxInfo 0 _ 1 2 (1 / 100) (1 / 1000) demoFilt _
      (fun a ha hk => by rw [turn_infos a ha hk]; exact two_stream 0 (by decide))
      (fun a ha hk => by rw [turn_infos a ha hk]; exact two_stream 1 (by decide))
      (fun a _ _ c _ j hj => by unfold turnPlay; rw [if_neg (by omega), if_neg (by omega)]) (by decide) h
    exact ⟨fin, fin', rfl, h1, h2⟩

end Verif

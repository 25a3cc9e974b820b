/-
C13 for processors with a `prepare` method, and C152: louder and softer sources with the
adaptive filter `FxLMS`.
-/
import Verif.Lemmas.AdaptiveScale
import Verif.Props.AdaptiveScene
import Verif.Props.Causality
namespace Verif

section
variable {R IR F S A P D O : Type} [Zero R] [Add R] {cfg : SimCfg R IR F S A P D O}
  {srcs srcs' : String → S} {arr : A} {proc : P} {f0 : F} {ds0 : List (Diag D)}
  {st0 st : SimSt R F S A P D O} {k N : Nat}

/-- C13 for processors whose `prepare` uses the signals before the first step, whatever it
does with them. -/
theorem C13_prepared {prep : P → Sigs R → Int → Except PyErr (P × Sigs R)} {x x' : String → Nat → Nat → R}
    (hx : ∀ a ∈ cfg.arrays, a.kind = .free → IsStream cfg.srcGet (srcs a.name) a.num (x a.name))
    (hx' : ∀ a ∈ cfg.arrays, a.kind = .free → IsStream cfg.srcGet (srcs' a.name) a.num (x' a.name))
    (hagree : ∀ a ∈ cfg.arrays, a.kind = .free → ∀ c < a.num, ∀ j < N, x a.name c j = x' a.name c j)
    (h : cfg.initWith prep srcs arr proc f0 ds0 = .ok st0) (hk : cfg.steps k st0 = .ok st)
    (hN : (if cfg.warm then cfg.B else 1) + k ≤ N) :
    ∃ st0' st', cfg.initWith prep srcs' arr proc f0 ds0 = .ok st0' ∧ cfg.steps k st0' = .ok st' ∧
      (∀ t ≤ k, ∀ name c v, cfg.Produced st0' name c t v ↔ cfg.Produced st0 name c t v) ∧
      st'.eng.sig = st.eng.sig ∧ st'.eng.proc = st.eng.proc ∧ st'.diags = st.diags ∧ st'.log = st.log := by
  unfold SimCfg.initWith at h
  split at h
  · cases h
  · rename_i st1 h1
    split at h
    · cases h
    · rename_i p sig h2
      cases h
      have hnm : Names cfg := names_of cfg (init_nodup cfg h1)
      have hmem : ∀ a ∈ freeOf cfg.arrays, a ∈ cfg.arrays ∧ a.kind = .free := by
        intro a ha
        unfold freeOf at ha
        rw [List.mem_filter] at ha
        exact ⟨ha.1, by simpa using ha.2⟩
      have hag : ∀ m ≤ N, ∀ a ∈ freeOf cfg.arrays, ∀ c < a.num, ∀ j < m, x a.name c j = x' a.name c j :=
        fun m hm a ha c hc j hj => hagree a (hmem a ha).1 (hmem a ha).2 c hc j (by omega)
      have hN' : cfg.prepNum + k ≤ N := hN
      obtain ⟨s, i1, i2⟩ := init_causal (hag _ (by omega)) (fun a ha => hx a (hmem a ha).1 (hmem a ha).2)
        (fun a ha => hx' a (hmem a ha).1 (hmem a ha).2) hnm h1
      obtain ⟨st', g⟩ := causal_steps (st0 := { st1 with eng := { st1.eng with proc := p, sig := sig } }) (s := s) hnm i2
        (fun m hm => hag m (by omega)) hk
      refine ⟨_, st', ?_, g⟩
      unfold SimCfg.initWith
      rw [i1]
      dsimp only
      rw [show prep (st1.withSrcs s).eng.proc (st1.withSrcs s).eng.sig (st1.withSrcs s).idx = .ok (p, sig) from h2]
      rfl

end

section
variable {R : Type} [Field R] {a : R} {q : FxPar R}

theorem louder_bs : (q.louder a).bs = q.bs := by unfold FxPar.louder; split <;> rfl
theorem louder_ub : (q.louder a).ub = q.ub := by unfold FxPar.louder; split <;> rfl
theorem louder_L : (q.louder a).L = q.L := by unfold FxPar.louder; split <;> rfl
theorem louder_nr : (q.louder a).nr = q.nr := by unfold FxPar.louder; split <;> rfl
theorem louder_nl : (q.louder a).nl = q.nl := by unfold FxPar.louder; split <;> rfl
theorem louder_ne : (q.louder a).ne = q.ne := by unfold FxPar.louder; split <;> rfl
theorem louder_norm : (q.louder a).norm = q.norm := by unfold FxPar.louder; split <;> rfl

theorem louder_scene {IR F S A D O D' O' : Type} {cfg : SimCfg R IR F S A (FxSt R) D O} {diag : DiagOps R (FxSt R) D' O'}
    (ha : a ≠ 0) (h : FxScene cfg q) : FxScene (cfg.withProc (some (fxProc (q.louder a))) diag) (q.louder a) where
  proc := rfl
  ref := by rw [louder_nr]; exact h.ref
  err := by rw [louder_ne]; exact h.err
  ls := by rw [louder_nl]; exact h.ls
  own := h.own
  nr := by rw [louder_nr]; exact h.nr
  nl := by rw [louder_nl]; exact h.nl
  ne := by rw [louder_ne]; exact h.ne
  L := by rw [louder_L]; exact h.L
  bs := by rw [louder_bs]; exact h.bs
  ub := by rw [louder_ub, louder_bs]; exact h.ub
  chunk := by rw [louder_bs]; exact h.chunk
  buffer := by rw [louder_bs, louder_L]; exact h.buffer
  regular := by
    rw [louder_norm]
    refine h.regular.elim Or.inl fun hr => ?_
    by_cases hn : q.norm = .none
    · exact Or.inl hn
    refine Or.inr fun l h0 => hr (l.map fun x => x / a) ?_
    have hb : (q.louder a).beta = a ^ 2 * q.beta := by
      unfold FxPar.louder
      split
      · exact absurd ‹_› hn
      · rfl
    have hs : ∀ l : List R, ((l.map fun x => x / a).map fun x => x * x).sum = (l.map fun x => x * x).sum / a ^ 2 := by
      intro l
      induction l with
      | nil => simp
      | cons x l ih =>
        simp only [List.map_cons, List.sum_cons, ih]
        field_simp
    rw [hs, div_add' _ _ _ (pow_ne_zero 2 ha), mul_comm, ← hb, h0, zero_div]

theorem withProc_after {IR F S A P D O P' D' O' : Type} {cfg : SimCfg R IR F S A P D O} {p : Option (Proc R P')}
    {diag : DiagOps R P' D' O'} {arr : A} : ∀ n, (cfg.withProc p diag).arrAfter arr n = cfg.arrAfter arr n
  | 0 => rfl
  | n + 1 => by
    simp only [SimCfg.arrAfter]
    rw [withProc_after n]
    rfl

end

section
variable {R S A D O D' O' : Type} [Field R] {cfg : SimCfg R (IrMat R) (Fir R) S A (FxSt R) D O} {q : FxPar R} {Sp : IrMat R}
  {srcs srcs' : String → S} {arr : A} {f0 : Fir R} {ds : List (Diag D)} {ds' : List (Diag D')}
  {diag : DiagOps R (FxSt R) D' O'} {st0 st : SimSt R (Fir R) S A (FxSt R) D O}
  {st0' st' : SimSt R (Fir R) S A (FxSt R) D' O'} {k : Nat} {a : R}

theorem withProc_irAt {P' : Type} {p : Option (Proc R P')} {diag : DiagOps R P' D' O'} {s m : ArrInfo} {t : Nat} {ir : IrMat R} :
    (cfg.withProc p diag).IrAt arr s m t ir ↔ cfg.IrAt arr s m t ir := by
  cases t with
  | zero => exact Iff.rfl
  | succ t =>
    simp only [SimCfg.IrAt, withProc_after]
    exact Iff.rfl

/-- What the sources other than the loudspeakers of the processor play. -/
theorem fx_source (h : FxScene cfg q) (hi : cfg.initWith fxPrepare srcs arr (fxInit q Sp) f0 ds = .ok st0)
    (hk : cfg.steps k st0 = .ok st) {x : String → Nat → Nat → R}
    (hx : ∀ b ∈ cfg.arrays, b.kind = .free → IsStream cfg.srcGet (srcs b.name) b.num (x b.name))
    {s : ArrInfo} (hs : s ∈ sourcesOf cfg.arrays) (hn : s.name ≠ "loudspeaker") {c t : Nat} (hc : c < s.num) (ht : t ≤ k) :
    cfg.Produced st0 s.name c t (cfg.played x s.name c t) := by
  obtain ⟨hN, e0, he0, hI⟩ := fx_init h Sp hi
  obtain ⟨te, off, r, hT⟩ := GInv.steps (fx_sizes h hN) hI k hk
  have hB := h.buffer.1
  have hpn : 1 ≤ cfg.prepNum := by unfold SimCfg.prepNum; split <;> omega
  have hsa := (mem_sourcesOf hs).1
  rw [gProduced_iff (fx_sizes h hN) hI hk hT.tape ht (fx_past _ (h.own s hsa))]
  refine ⟨s.num, hN.arr s hsa, hc, ?_⟩
  have := fx_played h hN hx he0 hT.tape hs hn hc (t := (t : Int)) (by omega)
  rwa [if_pos (by omega)] at this

/-- The microphones before the first step. -/
theorem fx_past_scale (ha : a ≠ 0) (h : FxScene cfg q) (hi : cfg.initWith fxPrepare srcs arr (fxInit q Sp) f0 ds = .ok st0)
    (hi' : (cfg.withProc (some (fxProc (q.louder a))) diag).initWith fxPrepare srcs' arr (fxInit (q.louder a) Sp) f0 ds' = .ok st0')
    (hk : cfg.steps k st0 = .ok st) (hk' : (cfg.withProc (some (fxProc (q.louder a))) diag).steps k st0' = .ok st')
    (hfilt : cfg.filt = firOps R) (hpos : ∀ a ∈ cfg.arrays, 0 < a.num) (hsh : cfg.PathShape arr) {x : String → Nat → Nat → R}
    (hx : ∀ b ∈ cfg.arrays, b.kind = .free → IsStream cfg.srcGet (srcs b.name) b.num (x b.name))
    (hx' : ∀ b ∈ cfg.arrays, b.kind = .free → IsStream cfg.srcGet (srcs' b.name) b.num fun c j => a * x b.name c j)
    {m : ArrInfo} (hm : m ∈ cfg.arrays) (hmic : m.kind = .mic) {c : Nat} (hc : c < m.num) {t : Int} (ht : t < 0) {v w : R}
    (hv : cfg.Recorded st0 m.name c t v)
    (hw : (cfg.withProc (some (fxProc (q.louder a))) diag).Recorded st0' m.name c t w) : w = a * v := by
  have h' : FxScene (cfg.withProc (some (fxProc (q.louder a))) diag) (q.louder a) := louder_scene ha h
  obtain ⟨hN, e, he, hI⟩ := fx_init h Sp hi
  obtain ⟨hN', e', he', hI'⟩ := fx_init h' Sp hi'
  obtain ⟨te, off, r, hT⟩ := GInv.steps (fx_sizes h hN) hI k hk
  obtain ⟨te', off', r', hT'⟩ := GInv.steps (fx_sizes h' hN') hI' k hk'
  have hB := h.buffer.1
  have hmm : m ∈ micsOf cfg.arrays := by
    unfold micsOf; rw [List.mem_filter]; exact ⟨hm, by simpa using hmic⟩
  have hz : ∀ nm, nm ≠ "xf" → ∀ c t, t < -(cfg.B : Int) → (fxStart q cfg.B e).sig nm c t = 0 := by
    intro nm hn c t ht
    rw [fxStart_sig hn, tInit_before hN he _ _ _ (by omega) ht]
  have hz' : ∀ nm, nm ≠ "xf" → ∀ c t, t < -(cfg.B : Int) → (fxStart (q.louder a) cfg.B e').sig nm c t = 0 := by
    intro nm hn c t ht
    rw [fxStart_sig hn, tInit_before hN' he' _ _ _ (show 1 ≤ cfg.B by omega) ht]
  rw [recorded_iff h hN hI hk hT.tape hz (h.own m hm) (hN.arr m hm) hc (by omega)] at hv
  rw [recorded_iff h' hN' hI' hk' hT'.tape hz' (h.own m hm) (hN'.arr m hm) hc (by omega)] at hw
  rw [gSteps_past (n := 0) (e := fxStart q cfg.B e) rfl (fx_past (fx_dims h hN) (h.own m hm)) k (e' := te)
    (by rw [Nat.zero_add]; exact hT.tape) c (t - 1) (by simp; omega), fxStart_sig (h.own m hm)] at hv
  have hp' := gSteps_past (n := 0) (e := fxStart (q.louder a) cfg.B e') rfl (fx_past (fx_dims h' hN') (h.own m hm)) k (e' := te')
    (by rw [Nat.zero_add]; exact hT'.tape) c (t - 1) (by simp; omega)
  rw [fxStart_sig (h.own m hm)] at hp'
  rw [hp'] at hw
  rw [← hv, ← hw]
  by_cases hb : -(cfg.B : Int) ≤ t - 1
  · have hsh' : (cfg.withProc (some (fxProc (q.louder a))) diag).PathShape arr := by
      intro n y hy
      rw [withProc_after] at hy
      exact hsh n y hy
    have := tInit_scale (a := a) (x' := fun s c j => a * x s c j) hN hN' hfilt hpos hsh hsh' (by omega) he he' hx hx'
      (fun _ _ _ _ _ _ => rfl) hmm hc (i := (t - 1 + cfg.B).toNat) (by omega)
    rwa [show (((t - 1 + cfg.B).toNat : Nat) : Int) - cfg.B = t - 1 by omega] at this
  · rw [tInit_before hN he _ _ _ (by omega) (by omega),
      tInit_before hN' he' _ _ _ (show 1 ≤ cfg.B by omega) (show t - 1 < -(cfg.B : Int) by omega), mul_zero]

/-- C152. Two simulations with `FxLMS`: in the second the sources play `a` times what they
play in the first, and the step size (without normalization) or `beta` (with) is
adapted to that.  Then every sample of every array signal and every contribution is `a`
times that of the first simulation, and the control filters have the same taps. -/
theorem C152_louder (ha : a ≠ 0) (h : FxScene cfg q)
    (hi : cfg.initWith fxPrepare srcs arr (fxInit q Sp) f0 ds = .ok st0)
    (hi' : (cfg.withProc (some (fxProc (q.louder a))) diag).initWith fxPrepare srcs' arr (fxInit (q.louder a) Sp) f0 ds' = .ok st0')
    (hk : cfg.steps k st0 = .ok st) (hk' : (cfg.withProc (some (fxProc (q.louder a))) diag).steps k st0' = .ok st')
    (hfilt : cfg.filt = firOps R) (hpos : ∀ a ∈ cfg.arrays, 0 < a.num) (hsh : cfg.PathShape arr) {x : String → Nat → Nat → R}
    (hx : ∀ b ∈ cfg.arrays, b.kind = .free → IsStream cfg.srcGet (srcs b.name) b.num (x b.name))
    (hx' : ∀ b ∈ cfg.arrays, b.kind = .free → IsStream cfg.srcGet (srcs' b.name) b.num fun c j => a * x b.name c j) :
    (∀ t ≤ k, ∀ b ∈ cfg.arrays, ∀ c < b.num, ∃ v, cfg.Produced st0 b.name c t v ∧
      (cfg.withProc (some (fxProc (q.louder a))) diag).Produced st0' b.name c t (a * v)) ∧
    (cfg.contrib = true → ∀ t ≤ k, ∀ s ∈ cfg.arrays, ∀ m ∈ cfg.arrays, s.kind ≠ .mic → m.kind = .mic →
      ∀ c < m.num, ∃ v, cfg.Produced st0 (s.name ++ "~" ++ m.name) c t v ∧
        (cfg.withProc (some (fxProc (q.louder a))) diag).Produced st0' (s.name ++ "~" ++ m.name) c t (a * v)) ∧
    ∀ r < q.nr, ∀ l < q.nl, st'.eng.proc.ctrl.mat.ir r l = st.eng.proc.ctrl.mat.ir r l := by
  have h' : FxScene (cfg.withProc (some (fxProc (q.louder a))) diag) (q.louder a) := louder_scene ha h
  obtain ⟨ρ, e, hρ, he⟩ := fx_recorded h hi hk
  obtain ⟨ρ', e', hρ', he'⟩ := fx_recorded h' hi' hk'
  have hsh' : (cfg.withProc (some (fxProc (q.louder a))) diag).PathShape arr := by
    intro n y hy
    rw [withProc_after] at hy
    exact hsh n y hy
  have hbs := h.bs
  obtain ⟨hls, htaps⟩ := C143_stored h hi hk hρ he
  obtain ⟨hls', htaps'⟩ := C143_stored h' hi' hk' hρ' he'
  have hloop := fun {m : ArrInfo} (hm : m ∈ cfg.arrays) (hmic : m.kind = .mic) =>
    C148_closed_loop h hi hk hfilt hpos hsh hx hρ he hm hmic
  have hloop' := fun {m : ArrInfo} (hm : m ∈ cfg.arrays) (hmic : m.kind = .mic) =>
    C148_closed_loop h' hi' hk' hfilt hpos hsh' (x := fun s c j => a * x s c j) hx' hρ' he' hm hmic
  obtain ⟨hN, -⟩ := fx_init h Sp hi
  simp only [louder_bs, louder_ub, louder_L, louder_nr, louder_nl, louder_ne, louder_norm] at hls' htaps' hρ' he' hloop'
  generalize hY : adaptiveOut q.bs q.ub q.nr q.L
    (lmsTaps q.norm q.beta q.mu q.nr q.nl q.ne q.L q.ub q.bs (storedRef Sp q.bs ρ) e) ρ = Y at hls hloop
  generalize hY' : adaptiveOut q.bs q.ub q.nr q.L
    (lmsTaps q.norm (q.louder a).beta (q.louder a).mu q.nr q.nl q.ne q.L q.ub q.bs (storedRef Sp q.bs ρ') e') ρ' = Y' at hls' hloop'
  have hrec : ∀ {name : String} {c t : Nat} {v : R}, cfg.Recorded st0 name c t v → cfg.Produced st0 name c t v := by
    intro name c t v hv
    unfold SimCfg.Recorded at hv
    rwa [if_pos (by omega), Int.toNat_natCast] at hv
  have hrec' : ∀ {name : String} {c t : Nat} {v : R},
      (cfg.withProc (some (fxProc (q.louder a))) diag).Recorded st0' name c t v →
      (cfg.withProc (some (fxProc (q.louder a))) diag).Produced st0' name c t v := by
    intro name c t v hv
    unfold SimCfg.Recorded at hv
    rwa [if_pos (by omega), Int.toNat_natCast] at hv
  -- the sources up to time `t` from what was recorded before
  have hplay : ∀ t : Nat, (∀ c < q.nr, ∀ t' < (t : Int), ρ' c t' = a * ρ c t') →
      (∀ c < q.ne, ∀ t' < (t : Int), e' c t' = a * e c t') → ∀ s ∈ cfg.arrays, ∀ i < s.num, ∀ r ≤ (t : Int),
      (cfg.withProc (some (fxProc (q.louder a))) diag).playedWith (fun s c j => a * x s c j) Y' s.name i r =
        a * cfg.playedWith x Y s.name i r := by
    intro t h1 h2 s hs i hi r hr
    unfold SimCfg.playedWith
    by_cases hn : s.name = "loudspeaker"
    · rw [if_pos hn, if_pos hn]
      obtain ⟨l, hl, hln, -, hnum⟩ := h.ls
      rw [hN.inj s hs l hl (by rw [hn, hln]), hnum] at hi
      split
      · rw [mul_zero]
      · rw [← hY, ← hY']
        exact adaptiveOut_scale ha q hbs Sp (fun c hc t' ht' => h1 c hc t' (by omega)) (fun c hc t' ht' => h2 c hc t' (by omega)) hi
    · rw [if_neg hn, if_neg hn]
      unfold SimCfg.played
      show (if (∃ a ∈ cfg.arrays, a.name = s.name ∧ a.kind = .free) ∧ -((if cfg.warm then cfg.B else 1 : Nat) : Int) < r then
        a * x s.name i (r + (if cfg.warm then cfg.B else 1 : Nat) - 1).toNat else 0) = _
      rw [mul_ite, mul_zero]
  have hmem : ∀ s ∈ cfg.arrays.filter (fun s => s.kind != .mic), s ∈ cfg.arrays ∧ s.kind ≠ .mic := by
    intro s hs
    rw [List.mem_filter] at hs
    exact ⟨hs.1, by simpa using hs.2⟩
  have hmic : ∀ t ≤ k, (∀ c < q.nr, ∀ t' < (t : Int), ρ' c t' = a * ρ c t') →
      (∀ c < q.ne, ∀ t' < (t : Int), e' c t' = a * e c t') → ∀ m ∈ cfg.arrays, m.kind = .mic → ∀ c < m.num,
      (∃ v, cfg.Produced st0 m.name c t v ∧
        (cfg.withProc (some (fxProc (q.louder a))) diag).Produced st0' m.name c t (a * v)) ∧
      (cfg.contrib = true → ∀ s ∈ cfg.arrays, s.kind ≠ .mic →
        ∃ v, cfg.Produced st0 (s.name ++ "~" ++ m.name) c t v ∧
        (cfg.withProc (some (fxProc (q.louder a))) diag).Produced st0' (s.name ++ "~" ++ m.name) c t (a * v)) := by
    intro t ht h1 h2 m hm hmm c hc
    obtain ⟨ir, g1, g2⟩ := hloop hm hmm t ht
    obtain ⟨ir', g1', g2'⟩ := hloop' hm hmm t ht
    have hir : ∀ s ∈ cfg.arrays, s.kind ≠ .mic → ir' s.name = ir s.name := by
      intro s hs hsk
      exact IrAt.unique (withProc_irAt.1 (g1' s hs hsk)) (g1 s hs hsk)
    obtain ⟨p1, p2⟩ := g2 c hc
    obtain ⟨p1', p2'⟩ := g2' c hc
    refine ⟨⟨_, p1, ?_⟩, ?_⟩
    · rw [← convSum_scale (fun s hs => hir s (hmem s hs).1 (hmem s hs).2)
        (fun s hs i hi r hr => hplay t h1 h2 s (hmem s hs).1 i hi r hr)]
      exact p1'
    · intro hcon s hs hsk
      refine ⟨_, p2 hcon s hs hsk, ?_⟩
      rw [← convSum_scale (ir' := ir') (fun s' hs' => ?_) (fun s' hs' i hi r hr => ?_)]
      · exact p2' hcon s hs hsk
      · rw [List.mem_singleton.1 hs']; exact hir s hs hsk
      · rw [List.mem_singleton.1 hs'] at hi ⊢
        exact hplay t h1 h2 s hs i hi r hr
  -- what was recorded
  have hall : ∀ t : Nat, t ≤ k + 1 → (∀ c < q.nr, ∀ t' < (t : Int), ρ' c t' = a * ρ c t') ∧
      ∀ c < q.ne, ∀ t' < (t : Int), e' c t' = a * e c t' := by
    intro t
    obtain ⟨b, hb, hbn, hbk, hbnum⟩ := h.ref
    obtain ⟨d, hd, hdn, hdk, hdnum⟩ := h.err
    induction t with
    | zero =>
      intro _
      refine ⟨fun c hc t' ht' => ?_, fun c hc t' ht' => ?_⟩
      · have p := hρ c hc t' (by omega)
        have p' := hρ' c hc t' (by omega)
        rw [← hbn] at p p'
        exact fx_past_scale ha h hi hi' hk hk' hfilt hpos hsh hx hx' hb hbk (by omega) (by simpa using ht') p p'
      · have p := he c hc t' (by omega)
        have p' := he' c hc t' (by omega)
        rw [← hdn] at p p'
        exact fx_past_scale ha h hi hi' hk hk' hfilt hpos hsh hx hx' hd hdk (by omega) (by simpa using ht') p p'
    | succ t ih =>
      intro ht
      obtain ⟨i1, i2⟩ := ih (by omega)
      refine ⟨fun c hc t' ht' => ?_, fun c hc t' ht' => ?_⟩
      · by_cases hlt : t' < t
        · exact i1 c hc t' hlt
        · obtain rfl : t' = t := by omega
          obtain ⟨⟨v, g, g'⟩, -⟩ := hmic t (by omega) i1 i2 b hb hbk c (by omega)
          rw [hbn] at g g'
          rw [fx_unique h hi hk (by decide) (by omega) (hrec (hρ c hc t (by omega))) g,
            fx_unique h' hi' hk' (by decide) (by omega) (hrec' (hρ' c hc t (by omega))) g']
      · by_cases hlt : t' < t
        · exact i2 c hc t' hlt
        · obtain rfl : t' = t := by omega
          obtain ⟨⟨v, g, g'⟩, -⟩ := hmic t (by omega) i1 i2 d hd hdk c (by omega)
          rw [hdn] at g g'
          rw [fx_unique h hi hk (by decide) (by omega) (hrec (he c hc t (by omega))) g,
            fx_unique h' hi' hk' (by decide) (by omega) (hrec' (he' c hc t (by omega))) g']
  refine ⟨?_, ?_, ?_⟩
  · intro t ht b hb c hc
    obtain ⟨i1, i2⟩ := hall t (by omega)
    by_cases hbk : b.kind = .mic
    · exact (hmic t ht i1 i2 b hb hbk c hc).1
    · have hbs' : b ∈ sourcesOf cfg.arrays := by
        unfold sourcesOf; rw [List.mem_filter]; exact ⟨hb, by simpa using hbk⟩
      have hp := hplay t i1 i2 b hb c hc t (le_refl _)
      by_cases hn : b.name = "loudspeaker"
      · obtain ⟨l, hl, hln, -, hnum⟩ := h.ls
        have hc' : c < q.nl := by rw [hN.inj b hb l hl (by rw [hn, hln]), hnum] at hc; exact hc
        refine ⟨Y c t, by rw [hn]; exact hls c hc' t ht, ?_⟩
        have := hls' c hc' t ht
        unfold SimCfg.playedWith at hp
        rw [if_pos hn, if_pos hn, if_neg (by omega), if_neg (by omega), Int.toNat_natCast] at hp
        rw [hn, ← hp]
        exact this
      · unfold SimCfg.playedWith at hp
        rw [if_neg hn, if_neg hn] at hp
        refine ⟨cfg.played x b.name c t, ?_, ?_⟩
        · exact fx_source h hi hk hx hbs' hn hc ht
        · rw [← hp]
          exact fx_source h' hi' hk' (x := fun s c j => a * x s c j) hx' hbs' hn hc ht
  · intro hcon t ht s hs m hm hsk hmk c hc
    obtain ⟨i1, i2⟩ := hall t (by omega)
    exact (hmic t ht i1 i2 m hm hmk c hc).2 hcon s hs hsk
  · intro r hr l hl
    rw [htaps r hr l hl, htaps' r hr l hl]
    obtain ⟨i1, i2⟩ := hall (k + 1) (le_refl _)
    refine List.map_congr_left fun y _ => ?_
    refine lmsTaps_scale ha q (T := ((k + 1 : Nat) : Int))
      (fun r hr l _ m _ t' ht' => storedRef_scale hbs (fun u hu => i1 r hr u (by omega)) l m) i2 hr hl y _ ?_
    by_cases hj : 1 ≤ k / q.bs
    · right
      have a1 := Nat.div_mul_le_self ((k / q.bs - 1) * q.bs) q.ub
      have a2 := Nat.div_mul_le_self k q.bs
      have a4 : (k / q.bs - 1) * q.bs + q.bs = k / q.bs * q.bs := by
        rw [Nat.sub_mul, Nat.one_mul]
        have := Nat.mul_le_mul_right q.bs hj
        omega
      omega
    · left
      rw [show k / q.bs - 1 = 0 by omega, Nat.zero_mul, Nat.zero_div]

end

section
/-- The scene of the examples with a source whose state tells how loud it is: it counts
in ones or in steps of -3. -/
def gainCfg : SimCfg ℚ (IrMat ℚ) (Fir ℚ) Nat Unit (FxSt ℚ) (DData ℚ (FxSt ℚ) ℚ) (DOut ℚ ℚ) :=
  { fxCfg 5 3 (fxDemo 1 2 2 .sample) [1, 2] [0, 1] [1, -1] with
    contrib := true
    srcGet := fun p n => .ok (p + 2 * n,
      [(List.range n).map fun k => (if p % 2 = 0 then 1 else -3) * ((p / 2 + k + 1 : Nat) : ℚ)]) }

theorem gain_scene : FxScene gainCfg (fxDemo 1 2 2 .sample) := by
  have h : FxScene (fxCfg 5 3 (fxDemo 1 2 2 .sample) [1, 2] [0, 1] [1, -1]) (fxDemo 1 2 2 .sample) :=
    fxCfg_scene (by decide) (by decide) (by decide) (by decide) (by decide)
  exact ⟨rfl, h.ref, h.err, h.ls, h.own, h.nr, h.nl, h.ne, h.L, h.bs, h.ub, h.chunk, h.buffer, h.regular⟩

theorem gain_stream (p0 : Nat) : IsStream gainCfg.srcGet p0 1
    fun _ t => (if p0 % 2 = 0 then 1 else -3) * ((p0 / 2 + t + 1 : Nat) : ℚ) := by
  refine isStream_of_inv (fun off s => s = p0 + 2 * off) rfl ?_
  rintro off s n rfl
  refine ⟨p0 + 2 * (off + n), ?_, rfl⟩
  simp only [gainCfg, blockOf, List.range_one, List.map_cons, List.map_nil]
  rw [show (p0 + 2 * off) % 2 = p0 % 2 by omega, show (p0 + 2 * off) / 2 = p0 / 2 + off by omega]
  simp only [Nat.mul_add, Nat.add_assoc]

/-- The scene of the examples with the two sources of the example of C13. -/
def turnCfg : SimCfg ℚ (IrMat ℚ) (Fir ℚ) Nat Unit (FxSt ℚ) (DData ℚ (FxSt ℚ) ℚ) (DOut ℚ ℚ) :=
  { gainCfg with srcGet := twoCfg.srcGet }

/-- The second run of the example. -/
def gainRun : Except PyErr (SimSt ℚ (Fir ℚ) Nat Unit (FxSt ℚ) (DData ℚ (FxSt ℚ) ℚ) (DOut ℚ ℚ)) :=
  (gainCfg.withProc (some (fxProc ((fxDemo 1 2 2 .sample).louder (-3)))) gainCfg.diag).initWith fxPrepare (fun _ => 1) ()
    (fxInit ((fxDemo 1 2 2 .sample).louder (-3)) (fxSec [1, -1])) demoFilt []

def gainEnds : Bool :=
  match gainRun with
  | .error _ => false
  | .ok st0 =>
    match (gainCfg.withProc (some (fxProc ((fxDemo 1 2 2 .sample).louder (-3)))) gainCfg.diag).steps 6 st0 with
    | .error _ => false
    | .ok _ => true

theorem gain_second : ∃ st0 st, gainRun = .ok st0 ∧
    (gainCfg.withProc (some (fxProc ((fxDemo 1 2 2 .sample).louder (-3)))) gainCfg.diag).steps 6 st0 = .ok st := by
  have h : gainEnds = true := by decide +kernel
  unfold gainEnds at h
  split at h
  · cases h
  · rename_i st0 h0
    split at h
    · cases h
    · rename_i st hk
      exact ⟨st0, st, h0, hk⟩

theorem gain_free {b : ArrInfo} (hb : b ∈ gainCfg.arrays) (hk : b.kind = .free) : b.num = 1 := by
  simp only [gainCfg, fxCfg, List.mem_cons, List.not_mem_nil, or_false] at hb
  rcases hb with rfl | rfl | rfl | rfl
  · cases hk
  · cases hk
  · rfl
  · cases hk

/-- A source three times as loud and turned upside down, with `beta` nine times as large:
the error microphone records -3 times as much. -/
example : ∃ (st0 st0' : SimSt ℚ (Fir ℚ) Nat Unit (FxSt ℚ) (DData ℚ (FxSt ℚ) ℚ) (DOut ℚ ℚ)),
    gainCfg.Produced st0 "error" 0 6 (-771/190) ∧ ((fxDemo 1 2 2 .sample).louder (-3)).beta = 9 ∧
    (gainCfg.withProc (some (fxProc ((fxDemo 1 2 2 .sample).louder (-3)))) gainCfg.diag).Produced st0' "error" 0 6
      (2313/190) := by
  have h1 : fxSample gainCfg (fxDemo 1 2 2 .sample) [1, -1] "error" 7 = some (799/190) := by decide +kernel
  have h2 : fxSample gainCfg (fxDemo 1 2 2 .sample) [1, -1] "error" 6 = some (-771/190) := by decide +kernel
  obtain ⟨st0, st, h0, hk⟩ := fxRun_steps h1
  obtain ⟨st0', st', h0', hk'⟩ := gain_second
  have hx : ∀ b ∈ gainCfg.arrays, b.kind = .free → IsStream gainCfg.srcGet ((fun _ => 0 : String → Nat) b.name) b.num
      ((fun _ _ t => ((t + 1 : Nat) : ℚ) : String → Nat → Nat → ℚ) b.name) := by
    intro b hb hbk
    rw [gain_free hb hbk]
    have := gain_stream 0
    simpa using this
  have hx' : ∀ b ∈ gainCfg.arrays, b.kind = .free → IsStream gainCfg.srcGet ((fun _ => 1 : String → Nat) b.name) b.num
      fun c j => (-3) * (fun _ _ t => ((t + 1 : Nat) : ℚ) : String → Nat → Nat → ℚ) b.name c j := by
    intro b hb hbk
    rw [gain_free hb hbk]
    have := gain_stream 1
    simpa using this
  have hsh : gainCfg.PathShape () := by
    intro n a _ s m h hs hm hp
    cases hp
    simp only [gainCfg, fxCfg, List.mem_cons, List.not_mem_nil, or_false] at hm
    rcases hm with rfl | rfl | rfl | rfl <;> rfl
  have hpos : ∀ a ∈ gainCfg.arrays, 0 < a.num := by
    intro a ha
    simp only [gainCfg, fxCfg, List.mem_cons, List.not_mem_nil, or_false] at ha
    rcases ha with rfl | rfl | rfl | rfl <;> decide
  have p1 := fxSample_produced h0 h2
  obtain ⟨g, -, -⟩ := C152_louder (a := -3) (x := fun _ _ t => ((t + 1 : Nat) : ℚ)) (by decide) gain_scene h0 h0' hk hk' rfl hpos hsh hx hx'
  obtain ⟨v, g1, g2⟩ := g 6 (by decide) ⟨"error", 1, .mic, false⟩ (by simp [gainCfg, fxCfg]) 0 (by decide)
  have hv := fx_unique gain_scene h0 hk (by decide) (by decide) g1 p1
  refine ⟨st0, st0', p1, by decide +kernel, ?_⟩
  rw [hv] at g2
  rwa [show (-3 : ℚ) * (-771/190) = 2313/190 by norm_num] at g2

/-- `FxLMS` uses what the sources play up to the present only: with a source that falls
silent later the error microphone records the same until then. -/
example : ∃ (st0' st' : SimSt ℚ (Fir ℚ) Nat Unit (FxSt ℚ) (DData ℚ (FxSt ℚ) ℚ) (DOut ℚ ℚ)),
    turnCfg.initWith fxPrepare (fun _ => 1) () (fxInit (fxDemo 1 2 2 .sample) (fxSec [1, -1])) demoFilt [] = .ok st0' ∧
    turnCfg.steps 4 st0' = .ok st' ∧ turnCfg.Produced st0' "error" 0 4 1 := by
  have h1 : fxSample turnCfg (fxDemo 1 2 2 .sample) [1, -1] "error" 5 = some (41/10) := by decide +kernel
  have h2 : fxSample turnCfg (fxDemo 1 2 2 .sample) [1, -1] "error" 4 = some 1 := by decide +kernel
  obtain ⟨st0, st, h0, hk⟩ := fxRun_steps h1
  have hfree : ∀ {b : ArrInfo}, b ∈ turnCfg.arrays → b.kind = .free → b.num = 1 := gain_free
  obtain ⟨st0', st', g1, g2, g3, -⟩ := C13_prepared (k := 4) (N := 5)
    (x := fun _ _ j => if 0 = 1 ∧ 5 ≤ j then 0 else ((j + 1 : Nat) : ℚ))
    (x' := fun _ _ j => if 1 = 1 ∧ 5 ≤ j then 0 else ((j + 1 : Nat) : ℚ)) (srcs' := fun _ => 1)
    (by intro b hb hk
        rw [hfree hb hk]
        exact two_stream 0 (by decide))
    (by intro b hb hk
        rw [hfree hb hk]
        exact two_stream 1 (by decide))
    (by intro a _ _ c _ j hj
        rw [if_neg (by omega), if_neg (by omega)]) h0 hk (by decide)
  exact ⟨st0', st', g1, g2, (g3 4 (by decide) _ _ _).2 (fxSample_produced h0 h2)⟩
end
end Verif

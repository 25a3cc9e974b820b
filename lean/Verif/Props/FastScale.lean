/-
C180: louder and softer sources with the adaptive filter `FastBlockFxLMS`.
-/
import Verif.Lemmas.FastScale
import Verif.Props.AdaptiveScale
import Verif.Props.FastScene
namespace Verif

section
variable {R S A D O D' O' : Type} [Field R] {cfg : SimCfg R (IrMat R) (Fir R) S A (FastSt R) D O} {q : FxPar R} {Sp : IrMat R}
  {srcs srcs' : String → S} {arr : A} {f0 : Fir R} {ds : List (Diag D)} {ds' : List (Diag D')}
  {diag : DiagOps R (FastSt R) D' O'} {st0 st : SimSt R (Fir R) S A (FastSt R) D O}
  {st0' st' : SimSt R (Fir R) S A (FastSt R) D' O'} {k : Nat} {a : R}

theorem withProc_irAtFast {P' : Type} {p : Option (Proc R P')} {diag : DiagOps R P' D' O'} {s m : ArrInfo} {t : Nat} {ir : IrMat R} :
    (cfg.withProc p diag).IrAt arr s m t ir ↔ cfg.IrAt arr s m t ir := by
  cases t with
  | zero => exact Iff.rfl
  | succ t =>
    simp only [SimCfg.IrAt, withProc_after]
    exact Iff.rfl

/-- What the sources other than the loudspeakers of the processor play. -/
theorem fast_source (h : FastScene cfg q) (hi : cfg.initWith (fastPrepare q) srcs arr (fastInit q Sp) f0 ds = .ok st0)
    (hk : cfg.steps k st0 = .ok st) {x : String → Nat → Nat → R}
    (hx : ∀ b ∈ cfg.arrays, b.kind = .free → IsStream cfg.srcGet (srcs b.name) b.num (x b.name))
    {s : ArrInfo} (hs : s ∈ sourcesOf cfg.arrays) (hn : s.name ≠ "loudspeaker") {c t : Nat} (hc : c < s.num) (ht : t ≤ k) :
    cfg.Produced st0 s.name c t (cfg.played x s.name c t) := by
  obtain ⟨hN, e0, he0, hI⟩ := fast_begin h Sp hi
  obtain ⟨te, off, r, hT⟩ := GInv.steps (fast_sizes h hN) hI k hk
  have hB := h.buffer.1
  have hpn : 1 ≤ cfg.prepNum := by unfold SimCfg.prepNum; split <;> omega
  have hsa := (mem_sourcesOf hs).1
  rw [gProduced_iff (fast_sizes h hN) hI hk hT.tape ht (fast_past _ _ (h.own s hsa))]
  refine ⟨s.num, hN.arr s hsa, hc, ?_⟩
  have := fast_played h hN hx he0 hT.tape hs hn hc (t := (t : Int)) (by omega)
  rwa [if_pos (by omega)] at this

/-- The microphones before the first step. -/
theorem fast_past_scale (ha : a ≠ 0) (h : FastScene cfg q) (hi : cfg.initWith (fastPrepare q) srcs arr (fastInit q Sp) f0 ds = .ok st0)
    (hi' : (cfg.withProc (some (fastProc (q.louderFast a))) diag).initWith (fastPrepare (q.louderFast a)) srcs' arr (fastInit (q.louderFast a) Sp) f0 ds' = .ok st0')
    (hk : cfg.steps k st0 = .ok st) (hk' : (cfg.withProc (some (fastProc (q.louderFast a))) diag).steps k st0' = .ok st')
    (hfilt : cfg.filt = firOps R) (hpos : ∀ a ∈ cfg.arrays, 0 < a.num) (hsh : cfg.PathShape arr) {x : String → Nat → Nat → R}
    (hx : ∀ b ∈ cfg.arrays, b.kind = .free → IsStream cfg.srcGet (srcs b.name) b.num (x b.name))
    (hx' : ∀ b ∈ cfg.arrays, b.kind = .free → IsStream cfg.srcGet (srcs' b.name) b.num fun c j => a * x b.name c j)
    {m : ArrInfo} (hm : m ∈ cfg.arrays) (hmic : m.kind = .mic) {c : Nat} (hc : c < m.num) {t : Int} (ht : t < 0) {v w : R}
    (hv : cfg.Recorded st0 m.name c t v)
    (hw : (cfg.withProc (some (fastProc (q.louderFast a))) diag).Recorded st0' m.name c t w) : w = a * v := by
  have h' : FastScene (cfg.withProc (some (fastProc (q.louderFast a))) diag) (q.louderFast a) := louderFast_scene ha h
  obtain ⟨hN, e, he, hI⟩ := fast_begin h Sp hi
  obtain ⟨hN', e', he', hI'⟩ := fast_begin h' Sp hi'
  obtain ⟨te, off, r, hT⟩ := GInv.steps (fast_sizes h hN) hI k hk
  obtain ⟨te', off', r', hT'⟩ := GInv.steps (fast_sizes h' hN') hI' k hk'
  have hB := h.buffer.1
  have hmm : m ∈ micsOf cfg.arrays := by
    unfold micsOf; rw [List.mem_filter]; exact ⟨hm, by simpa using hmic⟩
  have hz : ∀ nm, nm ≠ "xf" → ∀ c t, t < -(cfg.B : Int) → (fastStart q Sp cfg.B e).sig nm c t = 0 := by
    intro nm hn c t ht
    rw [fastStart_sig hn, tInit_before hN he _ _ _ (by omega) ht]
  have hz' : ∀ nm, nm ≠ "xf" → ∀ c t, t < -(cfg.B : Int) → (fastStart (q.louderFast a) Sp cfg.B e').sig nm c t = 0 := by
    intro nm hn c t ht
    rw [fastStart_sig hn, tInit_before hN' he' _ _ _ (show 1 ≤ cfg.B by omega) ht]
  rw [fast_recorded_iff h hN hI hk hT.tape hz (h.own m hm) (hN.arr m hm) hc (by omega)] at hv
  rw [fast_recorded_iff h' hN' hI' hk' hT'.tape hz' (h.own m hm) (hN'.arr m hm) hc (by omega)] at hw
  rw [gSteps_past (n := 0) (e := fastStart q Sp cfg.B e) rfl (fast_past (fast_dims h hN) h.ub.1 (h.own m hm)) k (e' := te)
    (by rw [Nat.zero_add]; exact hT.tape) c (t - 1) (by simp; omega), fastStart_sig (h.own m hm)] at hv
  have hp' := gSteps_past (n := 0) (e := fastStart (q.louderFast a) Sp cfg.B e') rfl (fast_past (fast_dims h' hN') h'.ub.1 (h.own m hm)) k (e' := te')
    (by rw [Nat.zero_add]; exact hT'.tape) c (t - 1) (by simp; omega)
  rw [fastStart_sig (h.own m hm)] at hp'
  rw [hp'] at hw
  rw [← hv, ← hw]
  by_cases hb : -(cfg.B : Int) ≤ t - 1
  · have hsh' : (cfg.withProc (some (fastProc (q.louderFast a))) diag).PathShape arr := by
      intro n y hy
      rw [withProc_after] at hy
      exact hsh n y hy
    have := tInit_scale (a := a) (x' := fun s c j => a * x s c j) hN hN' hfilt hpos hsh hsh' (by omega) he he' hx hx'
      (fun _ _ _ _ _ _ => rfl) hmm hc (i := (t - 1 + cfg.B).toNat) (by omega)
    rwa [show (((t - 1 + cfg.B).toNat : Nat) : Int) - cfg.B = t - 1 by omega] at this
  · rw [tInit_before hN he _ _ _ (by omega) (by omega),
      tInit_before hN' he' _ _ _ (show 1 ≤ cfg.B by omega) (show t - 1 < -(cfg.B : Int) by omega), mul_zero]

/-- C180. Two simulations with `FastBlockFxLMS`: in the second the sources play `a` times what they
play in the first, and `beta` is multiplied by the square of `a`.  Then every sample of every array signal and every contribution is `a`
times that of the first simulation, and the control filters have the same taps. -/
theorem C180_louder (ha : a ≠ 0) (h : FastScene cfg q)
    (hi : cfg.initWith (fastPrepare q) srcs arr (fastInit q Sp) f0 ds = .ok st0)
    (hi' : (cfg.withProc (some (fastProc (q.louderFast a))) diag).initWith (fastPrepare (q.louderFast a)) srcs' arr (fastInit (q.louderFast a) Sp) f0 ds' = .ok st0')
    (hk : cfg.steps k st0 = .ok st) (hk' : (cfg.withProc (some (fastProc (q.louderFast a))) diag).steps k st0' = .ok st')
    (hfilt : cfg.filt = firOps R) (hpos : ∀ a ∈ cfg.arrays, 0 < a.num) (hsh : cfg.PathShape arr) {x : String → Nat → Nat → R}
    (hx : ∀ b ∈ cfg.arrays, b.kind = .free → IsStream cfg.srcGet (srcs b.name) b.num (x b.name))
    (hx' : ∀ b ∈ cfg.arrays, b.kind = .free → IsStream cfg.srcGet (srcs' b.name) b.num fun c j => a * x b.name c j) :
    (∀ t ≤ k, ∀ b ∈ cfg.arrays, ∀ c < b.num, ∃ v, cfg.Produced st0 b.name c t v ∧
      (cfg.withProc (some (fastProc (q.louderFast a))) diag).Produced st0' b.name c t (a * v)) ∧
    (cfg.contrib = true → ∀ t ≤ k, ∀ s ∈ cfg.arrays, ∀ m ∈ cfg.arrays, s.kind ≠ .mic → m.kind = .mic →
      ∀ c < m.num, ∃ v, cfg.Produced st0 (s.name ++ "~" ++ m.name) c t v ∧
        (cfg.withProc (some (fastProc (q.louderFast a))) diag).Produced st0' (s.name ++ "~" ++ m.name) c t (a * v)) ∧
    ∀ r < q.nr, ∀ l < q.nl, st'.eng.proc.ctrl.mat.ir r l = st.eng.proc.ctrl.mat.ir r l := by
  have h' : FastScene (cfg.withProc (some (fastProc (q.louderFast a))) diag) (q.louderFast a) := louderFast_scene ha h
  obtain ⟨ρ, e, hρ, he⟩ := fast_recorded h hi hk
  obtain ⟨ρ', e', hρ', he'⟩ := fast_recorded h' hi' hk'
  have hsh' : (cfg.withProc (some (fastProc (q.louderFast a))) diag).PathShape arr := by
    intro n y hy
    rw [withProc_after] at hy
    exact hsh n y hy
  have hbs := h.bs
  obtain ⟨hls, htaps⟩ := C175_adaptive h hi hk hρ he
  obtain ⟨hls', htaps'⟩ := C175_adaptive h' hi' hk' hρ' he'
  have hloop := fun {m : ArrInfo} (hm : m ∈ cfg.arrays) (hmic : m.kind = .mic) =>
    C175_closed_loop h hi hk hfilt hpos hsh hx hρ he hm hmic
  have hloop' := fun {m : ArrInfo} (hm : m ∈ cfg.arrays) (hmic : m.kind = .mic) =>
    C175_closed_loop h' hi' hk' hfilt hpos hsh' (x := fun s c j => a * x s c j) hx' hρ' he' hm hmic
  obtain ⟨hN, -⟩ := fast_begin h Sp hi
  change ∀ c < q.nr, ∀ t ≤ (k : Int), (cfg.withProc (some (fastProc (q.louderFast a))) diag).Recorded st0' "ref" c t (ρ' c t) at hρ'
  change ∀ c < q.ne, ∀ t ≤ (k : Int), (cfg.withProc (some (fastProc (q.louderFast a))) diag).Recorded st0' "error" c t (e' c t) at he'
  generalize hY : adaptiveOut q.bs q.L q.nr q.L
    (lmsTaps .block q.beta q.mu q.nr q.nl q.ne q.L q.L q.bs (storedFrom (Sp.firstTaps (q.L - q.bs)) (cfg.B % q.L) q.bs ρ) e) ρ = Y at hls hloop
  generalize hY' : adaptiveOut (q.louderFast a).bs (q.louderFast a).L (q.louderFast a).nr (q.louderFast a).L
    (lmsTaps .block (q.louderFast a).beta (q.louderFast a).mu (q.louderFast a).nr (q.louderFast a).nl (q.louderFast a).ne (q.louderFast a).L (q.louderFast a).L (q.louderFast a).bs
      (storedFrom (Sp.firstTaps ((q.louderFast a).L - (q.louderFast a).bs)) ((cfg.withProc (some (fastProc (q.louderFast a))) diag).B % (q.louderFast a).L) (q.louderFast a).bs ρ') e') ρ' = Y' at hls' hloop'
  have hrec : ∀ {name : String} {c t : Nat} {v : R}, cfg.Recorded st0 name c t v → cfg.Produced st0 name c t v := by
    intro name c t v hv
    unfold SimCfg.Recorded at hv
    rwa [if_pos (by omega), Int.toNat_natCast] at hv
  have hrec' : ∀ {name : String} {c t : Nat} {v : R},
      (cfg.withProc (some (fastProc (q.louderFast a))) diag).Recorded st0' name c t v →
      (cfg.withProc (some (fastProc (q.louderFast a))) diag).Produced st0' name c t v := by
    intro name c t v hv
    unfold SimCfg.Recorded at hv
    rwa [if_pos (by omega), Int.toNat_natCast] at hv
  -- the sources up to time `t` from what was recorded before
  have hplay : ∀ t : Nat, (∀ c < q.nr, ∀ t' < (t : Int), ρ' c t' = a * ρ c t') →
      (∀ c < q.ne, ∀ t' < (t : Int), e' c t' = a * e c t') → ∀ s ∈ cfg.arrays, ∀ i < s.num, ∀ r ≤ (t : Int),
      (cfg.withProc (some (fastProc (q.louderFast a))) diag).playedWith (fun s c j => a * x s c j) Y' s.name i r =
        a * cfg.playedWith x Y s.name i r := by
    intro t h1 h2 s hs i hi r hr
    unfold SimCfg.playedWith
    by_cases hn : s.name = "loudspeaker"
    · rw [if_pos hn, if_pos hn]
      obtain ⟨l, hl, hln, -, hnum⟩ := h.ls
      rw [hN.inj s hs l hl (by rw [hn, hln]), hnum] at hi
      split
      · rw [mul_zero]
      · rw [← hY, ← hY']
        exact adaptiveOut_scaleFast ha q hbs (Sp.firstTaps (q.L - q.bs)) (cfg.B % q.L) (fun c hc t' ht' => h1 c hc t' (by omega)) (fun c hc t' ht' => h2 c hc t' (by omega)) hi
    · rw [if_neg hn, if_neg hn]
      unfold SimCfg.played
      show (if (∃ a ∈ cfg.arrays, a.name = s.name ∧ a.kind = .free) ∧ -((if cfg.warm then cfg.B else 1 : Nat) : Int) < r then
        a * x s.name i (r + (if cfg.warm then cfg.B else 1 : Nat) - 1).toNat else 0) = _
      rw [mul_ite, mul_zero]
  have hmem : ∀ s ∈ cfg.arrays.filter (fun s => s.kind != .mic), s ∈ cfg.arrays ∧ s.kind ≠ .mic := by
    intro s hs
    rw [List.mem_filter] at hs
    exact ⟨hs.1, by simpa using hs.2⟩
  have hmic : ∀ t ≤ k, (∀ c < q.nr, ∀ t' < (t : Int), ρ' c t' = a * ρ c t') →
      (∀ c < q.ne, ∀ t' < (t : Int), e' c t' = a * e c t') → ∀ m ∈ cfg.arrays, m.kind = .mic → ∀ c < m.num,
      (∃ v, cfg.Produced st0 m.name c t v ∧
        (cfg.withProc (some (fastProc (q.louderFast a))) diag).Produced st0' m.name c t (a * v)) ∧
      (cfg.contrib = true → ∀ s ∈ cfg.arrays, s.kind ≠ .mic →
        ∃ v, cfg.Produced st0 (s.name ++ "~" ++ m.name) c t v ∧
        (cfg.withProc (some (fastProc (q.louderFast a))) diag).Produced st0' (s.name ++ "~" ++ m.name) c t (a * v)) := by
    intro t ht h1 h2 m hm hmm c hc
    obtain ⟨ir, g1, g2⟩ := hloop hm hmm t ht
    obtain ⟨ir', g1', g2'⟩ := hloop' hm hmm t ht
    have hir : ∀ s ∈ cfg.arrays, s.kind ≠ .mic → ir' s.name = ir s.name := by
      intro s hs hsk
      exact IrAt.unique (withProc_irAtFast.1 (g1' s hs hsk)) (g1 s hs hsk)
    obtain ⟨p1, p2⟩ := g2 c hc
    obtain ⟨p1', p2'⟩ := g2' c hc
    refine ⟨⟨_, p1, ?_⟩, ?_⟩
    · rw [← convSum_scale (fun s hs => hir s (hmem s hs).1 (hmem s hs).2)
        (fun s hs i hi r hr => hplay t h1 h2 s (hmem s hs).1 i hi r hr)]
      exact p1'
    · intro hcon s hs hsk
      refine ⟨_, p2 hcon s hs hsk, ?_⟩
      rw [← convSum_scale (ir' := ir') (fun s' hs' => ?_) (fun s' hs' i hi r hr => ?_)]
      · exact p2' hcon s hs hsk
      · rw [List.mem_singleton.1 hs']; exact hir s hs hsk
      · rw [List.mem_singleton.1 hs'] at hi ⊢
        exact hplay t h1 h2 s hs i hi r hr
  -- what was recorded
  have hall : ∀ t : Nat, t ≤ k + 1 → (∀ c < q.nr, ∀ t' < (t : Int), ρ' c t' = a * ρ c t') ∧
      ∀ c < q.ne, ∀ t' < (t : Int), e' c t' = a * e c t' := by
    intro t
    obtain ⟨b, hb, hbn, hbk, hbnum⟩ := h.ref
    obtain ⟨d, hd, hdn, hdk, hdnum⟩ := h.err
    induction t with
    | zero =>
      intro _
      refine ⟨fun c hc t' ht' => ?_, fun c hc t' ht' => ?_⟩
      · have p := hρ c hc t' (by omega)
        have p' := hρ' c hc t' (by omega)
        rw [← hbn] at p p'
        exact fast_past_scale ha h hi hi' hk hk' hfilt hpos hsh hx hx' hb hbk (by omega) (by simpa using ht') p p'
      · have p := he c hc t' (by omega)
        have p' := he' c hc t' (by omega)
        rw [← hdn] at p p'
        exact fast_past_scale ha h hi hi' hk hk' hfilt hpos hsh hx hx' hd hdk (by omega) (by simpa using ht') p p'
    | succ t ih =>
      intro ht
      obtain ⟨i1, i2⟩ := ih (by omega)
      refine ⟨fun c hc t' ht' => ?_, fun c hc t' ht' => ?_⟩
      · by_cases hlt : t' < t
        · exact i1 c hc t' hlt
        · obtain rfl : t' = t := by omega
          obtain ⟨⟨v, g, g'⟩, -⟩ := hmic t (by omega) i1 i2 b hb hbk c (by omega)
          rw [hbn] at g g'
          rw [fast_unique h hi hk (by decide) (by omega) (hrec (hρ c hc t (by omega))) g,
            fast_unique h' hi' hk' (by decide) (by omega) (hrec' (hρ' c hc t (by omega))) g']
      · by_cases hlt : t' < t
        · exact i2 c hc t' hlt
        · obtain rfl : t' = t := by omega
          obtain ⟨⟨v, g, g'⟩, -⟩ := hmic t (by omega) i1 i2 d hd hdk c (by omega)
          rw [hdn] at g g'
          rw [fast_unique h hi hk (by decide) (by omega) (hrec (he c hc t (by omega))) g,
            fast_unique h' hi' hk' (by decide) (by omega) (hrec' (he' c hc t (by omega))) g']
  refine ⟨?_, ?_, ?_⟩
  · intro t ht b hb c hc
    obtain ⟨i1, i2⟩ := hall t (by omega)
    by_cases hbk : b.kind = .mic
    · exact (hmic t ht i1 i2 b hb hbk c hc).1
    · have hbs' : b ∈ sourcesOf cfg.arrays := by
        unfold sourcesOf; rw [List.mem_filter]; exact ⟨hb, by simpa using hbk⟩
      have hp := hplay t i1 i2 b hb c hc t (le_refl _)
      by_cases hn : b.name = "loudspeaker"
      · obtain ⟨l, hl, hln, -, hnum⟩ := h.ls
        have hc' : c < q.nl := by rw [hN.inj b hb l hl (by rw [hn, hln]), hnum] at hc; exact hc
        refine ⟨Y c t, by rw [hn]; exact hls c hc' t ht, ?_⟩
        have := hls' c hc' t ht
        unfold SimCfg.playedWith at hp
        rw [if_pos hn, if_pos hn, if_neg (by omega), if_neg (by omega), Int.toNat_natCast] at hp
        rw [hn, ← hp]
        exact this
      · unfold SimCfg.playedWith at hp
        rw [if_neg hn, if_neg hn] at hp
        refine ⟨cfg.played x b.name c t, ?_, ?_⟩
        · exact fast_source h hi hk hx hbs' hn hc ht
        · rw [← hp]
          exact fast_source h' hi' hk' (x := fun s c j => a * x s c j) hx' hbs' hn hc ht
  · intro hcon t ht s hs m hm hsk hmk c hc
    obtain ⟨i1, i2⟩ := hall t (by omega)
    exact (hmic t ht i1 i2 m hm hmk c hc).2 hcon s hs hsk
  · intro r hr l hl
    rw [htaps r hr l hl, htaps' r hr l hl]
    obtain ⟨i1, i2⟩ := hall (k + 1) (le_refl _)
    refine List.map_congr_left fun y _ => ?_
    refine lmsTaps_scale ha { q with norm := .block, ub := q.L } (T := ((k + 1 : Nat) : Int))
      (fun r hr l _ m _ t' ht' => storedFrom_scale hbs (fun u hu => i1 r hr u (by omega)) l m) i2 hr hl y _ ?_
    show (k / q.bs - 1) * q.bs / q.L = 0 ∨ ((q.bs + (k / q.bs - 1) * q.bs / q.L * q.L : Nat) : Int) ≤ ((k + 1 : Nat) : Int)
    by_cases hj : 1 ≤ k / q.bs
    · right
      have a1 := Nat.div_mul_le_self ((k / q.bs - 1) * q.bs) q.L
      have a2 := Nat.div_mul_le_self k q.bs
      have a4 : (k / q.bs - 1) * q.bs + q.bs = k / q.bs * q.bs := by
        rw [Nat.sub_mul, Nat.one_mul]
        have := Nat.mul_le_mul_right q.bs hj
        omega
      omega
    · left
      rw [show k / q.bs - 1 = 0 by omega, Nat.zero_mul, Nat.zero_div]

end

section
/-- The configuration of the first run of the example. -/
abbrev fastGain : SimCfg ℚ (IrMat ℚ) (Fir ℚ) Nat Unit (FastSt ℚ) (DData ℚ (FastSt ℚ) ℚ) (DOut ℚ ℚ) :=
  fastCfg gainCfg (fxDemo 1 2 2 .sample)

/-- The configuration of the second run. -/
abbrev fastGain3 : SimCfg ℚ (IrMat ℚ) (Fir ℚ) Nat Unit (FastSt ℚ) (DData ℚ (FastSt ℚ) ℚ) (DOut ℚ ℚ) :=
  fastGain.withProc (some (fastProc ((fxDemo 1 2 2 .sample).louderFast (-3)))) fastGain.diag

theorem fastGain_scene : FastScene fastGain (fxDemo 1 2 2 .sample) := by
  have h : FastScene (fastCfg (fxCfg 5 3 (fxDemo 1 2 2 .sample) [1, 2] [0, 1] [1, -1]) (fxDemo 1 2 2 .sample)) (fxDemo 1 2 2 .sample) :=
    fastCfg_scene (by decide) (by decide) (by decide) (by decide)
  exact ⟨rfl, h.ref, h.err, h.ls, h.own, h.nr, h.nl, h.ne, h.L, h.bs, h.ub, h.chunk, h.buffer, h.regular⟩

/-- The second run of the example. -/
def fastGainRun : Except PyErr (SimSt ℚ (Fir ℚ) Nat Unit (FastSt ℚ) (DData ℚ (FastSt ℚ) ℚ) (DOut ℚ ℚ)) :=
  fastGain3.initWith (fastPrepare ((fxDemo 1 2 2 .sample).louderFast (-3))) (fun _ => 1) ()
    (fastInit ((fxDemo 1 2 2 .sample).louderFast (-3)) (fxSec [1, -1])) demoFilt []

def fastGainEnds : Bool :=
  match fastGainRun with
  | .error _ => false
  | .ok st0 =>
    match fastGain3.steps 7 st0 with
    | .error _ => false
    | .ok _ => true

theorem fastGain_second : ∃ st0 st, fastGainRun = .ok st0 ∧ fastGain3.steps 7 st0 = .ok st := by
  have h : fastGainEnds = true := by decide +kernel
  unfold fastGainEnds at h
  split at h
  · cases h
  · rename_i st0 h0
    split at h
    · cases h
    · rename_i st hk
      exact ⟨st0, st, h0, hk⟩

/-- A source three times as loud and turned upside down, with `beta` nine times as large:
the error microphone records -3 times as much. -/
example : ∃ (st0 st0' : SimSt ℚ (Fir ℚ) Nat Unit (FastSt ℚ) (DData ℚ (FastSt ℚ) ℚ) (DOut ℚ ℚ)),
    fastGain.Produced st0 "error" 0 7 (1252/225) ∧ ((fxDemo 1 2 2 .sample).louderFast (-3)).beta = 9 ∧
    fastGain3.Produced st0' "error" 0 7 (-1252/75) := by
  have h1 : fastSample gainCfg (fxDemo 1 2 2 .sample) [1, -1] "error" 7 = some (1157507/460080) := by decide +kernel
  have h2 : fastSample gainCfg (fxDemo 1 2 2 .sample) [1, -1] "error" 6 = some (1252/225) := by decide +kernel
  obtain ⟨st0, st, h0, hk, -⟩ := fastSample_produced h1
  obtain ⟨st1, _, h1', -, p1⟩ := fastSample_produced h2
  rw [h0] at h1'
  cases h1'
  obtain ⟨st0', st', h0', hk'⟩ := fastGain_second
  have hx : ∀ b ∈ fastGain.arrays, b.kind = .free → IsStream fastGain.srcGet ((fun _ => 0 : String → Nat) b.name) b.num
      ((fun _ _ t => ((t + 1 : Nat) : ℚ) : String → Nat → Nat → ℚ) b.name) := by
    intro b hb hbk
    rw [gain_free hb hbk]
    have := gain_stream 0
    simp at this ⊢
    exact this
  have hx' : ∀ b ∈ fastGain.arrays, b.kind = .free → IsStream fastGain.srcGet ((fun _ => 1 : String → Nat) b.name) b.num
      fun c j => (-3) * (fun _ _ t => ((t + 1 : Nat) : ℚ) : String → Nat → Nat → ℚ) b.name c j := by
    intro b hb hbk
    rw [gain_free hb hbk]
    have := gain_stream 1
    simp at this ⊢
    exact this
  have hsh : fastGain.PathShape () := by
    intro n a _ s m h hs hm hp
    cases hp
    simp only [fastGain, fastCfg, SimCfg.withProc, gainCfg, fxCfg, List.mem_cons, List.not_mem_nil, or_false] at hm
    rcases hm with rfl | rfl | rfl | rfl <;> rfl
  have hpos : ∀ a ∈ fastGain.arrays, 0 < a.num := by
    intro a ha
    simp only [fastGain, fastCfg, SimCfg.withProc, gainCfg, fxCfg, List.mem_cons, List.not_mem_nil, or_false] at ha
    rcases ha with rfl | rfl | rfl | rfl <;> decide
  obtain ⟨g, -, -⟩ := C180_louder (a := -3) (x := fun _ _ t => ((t + 1 : Nat) : ℚ)) (by decide) fastGain_scene h0 h0' hk hk' rfl hpos hsh hx hx'
  obtain ⟨v, g1, g2⟩ := g 7 (by decide) ⟨"error", 1, .mic, false⟩ (by simp [SimCfg.withProc, gainCfg, fxCfg]) 0 (by decide)
  have hv := fast_unique fastGain_scene h0 hk (by decide) (by decide) g1 p1
  refine ⟨st0, st0', p1, by decide +kernel, ?_⟩
  rw [hv] at g2
  rwa [show (-3 : ℚ) * (1252/225) = -1252/75 by norm_num] at g2

end
end Verif

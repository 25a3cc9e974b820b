/-
C200 with `FastBlockFxLMS`.
-/
import Verif.Props.FastScale
import Verif.Props.HeardOnly
namespace Verif

theorem louderFast_one {R : Type} [Field R] (q : FxPar R) : q.louderFast 1 = q := by
  unfold FxPar.louderFast
  simp

section
variable {R S A D O S' A' D' O' : Type} [Field R] {cfg : SimCfg R (IrMat R) (Fir R) S A (FastSt R) D O}
  {cfg' : SimCfg R (IrMat R) (Fir R) S' A' (FastSt R) D' O'} {q : FxPar R} {Sp : IrMat R}
  {srcs : String → S} {srcs' : String → S'} {arr : A} {arr' : A'} {f0 f0' : Fir R} {ds : List (Diag D)} {ds' : List (Diag D')}
  {st0 st : SimSt R (Fir R) S A (FastSt R) D O} {st0' st' : SimSt R (Fir R) S' A' (FastSt R) D' O'} {k : Nat}

/-- What the microphones hold before time index 0. -/
theorem fast_past_noise (h : FastScene cfg q) (hi : cfg.initWith (fastPrepare q) srcs arr (fastInit q Sp) f0 ds = .ok st0)
    (hk : cfg.steps k st0 = .ok st) (hfilt : cfg.filt = firOps R) (hpos : ∀ a ∈ cfg.arrays, 0 < a.num) (hsh : cfg.PathShape arr)
    {x : String → Nat → Nat → R}
    (hx : ∀ b ∈ cfg.arrays, b.kind = .free → IsStream cfg.srcGet (srcs b.name) b.num (x b.name))
    {m : ArrInfo} (hm : m ∈ cfg.arrays) (hmic : m.kind = .mic) {c : Nat} (hc : c < m.num) {t : Int} (ht : t < 0) {u v : R}
    (hu : cfg.NoiseAt arr x m c (if cfg.warm then t else 0) u) (hv : cfg.Recorded st0 m.name c t v) :
    v = if -(cfg.B : Int) < t then u else 0 := by
  obtain ⟨hN, e, he, hI⟩ := fast_begin h Sp hi
  obtain ⟨te, off, r, hT⟩ := GInv.steps (fast_sizes h hN) hI k hk
  have hB := h.buffer.1
  have hmm : m ∈ micsOf cfg.arrays := by
    unfold micsOf; rw [List.mem_filter]; exact ⟨hm, by simpa using hmic⟩
  by_cases hb : -(cfg.B : Int) < t
  · rw [if_pos hb]
    rw [fast_recorded_iff h hN hI hk hT.tape (fast_before h hN he) (h.own m hm) (hN.arr m hm) hc (by omega)] at hv
    rw [gSteps_past (n := 0) (e := fastStart q Sp cfg.B e) rfl (fast_past (fast_dims h hN) h.ub.1 (h.own m hm)) k (e' := te)
      (by rw [Nat.zero_add]; exact hT.tape) c (t - 1) (by simp; omega), fastStart_sig (h.own m hm)] at hv
    rw [← hv]
    exact tInit_noise hN hfilt hpos hsh (by omega) he hx hmm hc hb ht hu
  · rw [if_neg hb]
    unfold SimCfg.Recorded at hv
    rwa [if_neg (by omega), if_neg hb] at hv

/-- C200. Two simulations with `FastBlockFxLMS`, with any noise sources and any further arrays, the
same `sim_buffer` and `start_sources_before_0`.  The reference and the error microphones
hear the same of the noise in both and have the same impulse responses from the
loudspeakers.  Then in both the loudspeakers play the same, every microphone array with that property records
the same and the control filters have the same taps. -/
theorem C200_heard_fast (h : FastScene cfg q) (h' : FastScene cfg' q)
    (hi : cfg.initWith (fastPrepare q) srcs arr (fastInit q Sp) f0 ds = .ok st0)
    (hi' : cfg'.initWith (fastPrepare q) srcs' arr' (fastInit q Sp) f0' ds' = .ok st0')
    (hk : cfg.steps k st0 = .ok st) (hk' : cfg'.steps k st0' = .ok st')
    (hfilt : cfg.filt = firOps R) (hfilt' : cfg'.filt = firOps R)
    (hpos : ∀ a ∈ cfg.arrays, 0 < a.num) (hpos' : ∀ a ∈ cfg'.arrays, 0 < a.num)
    (hsh : cfg.PathShape arr) (hsh' : cfg'.PathShape arr') {x x' : String → Nat → Nat → R}
    (hx : ∀ b ∈ cfg.arrays, b.kind = .free → IsStream cfg.srcGet (srcs b.name) b.num (x b.name))
    (hx' : ∀ b ∈ cfg'.arrays, b.kind = .free → IsStream cfg'.srcGet (srcs' b.name) b.num (x' b.name))
    (hB : cfg'.B = cfg.B) (hw : cfg'.warm = cfg.warm)
    (hheard : ∀ m ∈ cfg.arrays, ∀ m' ∈ cfg'.arrays, m'.name = m.name → m.name ∈ ["ref", "error"] →
      SameHeard cfg arr x cfg' arr' x' m m' k) :
    (∀ t ≤ k, ∀ l < q.nl, ∃ v, cfg.Produced st0 "loudspeaker" l t v ∧ cfg'.Produced st0' "loudspeaker" l t v) ∧
    (∀ m ∈ cfg.arrays, ∀ m' ∈ cfg'.arrays, m.kind = .mic → m'.kind = .mic → SameHeard cfg arr x cfg' arr' x' m m' k →
      ∀ t ≤ k, ∀ c < m.num, ∃ v, cfg.Produced st0 m.name c t v ∧ cfg'.Produced st0' m'.name c t v) ∧
    ∀ r < q.nr, ∀ l < q.nl, st'.eng.proc.ctrl.mat.ir r l = st.eng.proc.ctrl.mat.ir r l := by
  obtain ⟨ρ, e, hρ, he⟩ := fast_recorded h hi hk
  obtain ⟨ρ', e', hρ', he'⟩ := fast_recorded h' hi' hk'
  have hbs := h.bs
  obtain ⟨hls, htaps⟩ := C175_adaptive h hi hk hρ he
  obtain ⟨hls', htaps'⟩ := C175_adaptive h' hi' hk' hρ' he'
  have hloop := fun {m : ArrInfo} (hm : m ∈ cfg.arrays) (hmic : m.kind = .mic) =>
    C175_closed_loop h hi hk hfilt hpos hsh hx hρ he hm hmic
  have hloop' := fun {m : ArrInfo} (hm : m ∈ cfg'.arrays) (hmic : m.kind = .mic) =>
    C175_closed_loop h' hi' hk' hfilt' hpos' hsh' hx' hρ' he' hm hmic
  rw [hB] at hls' htaps'
  simp only [hB] at hloop'
  obtain ⟨hN, -⟩ := fast_begin h Sp hi
  obtain ⟨hN', -⟩ := fast_begin h' Sp hi'
  generalize hY : adaptiveOut q.bs q.L q.nr q.L
    (lmsTaps .block q.beta q.mu q.nr q.nl q.ne q.L q.L q.bs (storedFrom (Sp.firstTaps (q.L - q.bs)) (cfg.B % q.L) q.bs ρ) e) ρ = Y at hls hloop
  generalize hY' : adaptiveOut q.bs q.L q.nr q.L
    (lmsTaps .block q.beta q.mu q.nr q.nl q.ne q.L q.L q.bs (storedFrom (Sp.firstTaps (q.L - q.bs)) (cfg.B % q.L) q.bs ρ') e') ρ' = Y' at hls' hloop'
  have hrec : ∀ {name : String} {c t : Nat} {v : R}, cfg.Recorded st0 name c t v → cfg.Produced st0 name c t v := by
    intro name c t v hv
    unfold SimCfg.Recorded at hv
    rwa [if_pos (by omega), Int.toNat_natCast] at hv
  have hrec' : ∀ {name : String} {c t : Nat} {v : R}, cfg'.Recorded st0' name c t v → cfg'.Produced st0' name c t v := by
    intro name c t v hv
    unfold SimCfg.Recorded at hv
    rwa [if_pos (by omega), Int.toNat_natCast] at hv
  -- the loudspeakers up to time `t` from what was recorded before
  have hplay : ∀ t : Nat, (∀ c < q.nr, ∀ t' < (t : Int), ρ' c t' = ρ c t') →
      (∀ c < q.ne, ∀ t' < (t : Int), e' c t' = e c t') → ∀ i < q.nl, ∀ r ≤ t, Y' i r = Y i r := by
    intro t h1 h2 i hi r hr
    have := adaptiveOut_scaleFast (a := 1) one_ne_zero q hbs (Sp.firstTaps (q.L - q.bs)) (cfg.B % q.L) (t := r) (ρ := ρ) (ρ' := ρ') (e := e) (e' := e')
      (fun c hc t' ht' => by rw [one_mul]; exact h1 c hc t' (by omega))
      (fun c hc t' ht' => by rw [one_mul]; exact h2 c hc t' (by omega)) hi
    rw [louderFast_one, one_mul, hY, hY'] at this
    exact this
  obtain ⟨l, hl, hln, hlk, hlnum⟩ := h.ls
  obtain ⟨l', hl', hln', hlk', hlnum'⟩ := h'.ls
  have hmic : ∀ t ≤ k, (∀ c < q.nr, ∀ t' < (t : Int), ρ' c t' = ρ c t') →
      (∀ c < q.ne, ∀ t' < (t : Int), e' c t' = e c t') → ∀ m ∈ cfg.arrays, ∀ m' ∈ cfg'.arrays, m.kind = .mic → m'.kind = .mic →
      SameHeard cfg arr x cfg' arr' x' m m' k → ∀ c < m.num,
      ∃ v, cfg.Produced st0 m.name c t v ∧ cfg'.Produced st0' m'.name c t v := by
    intro t ht h1 h2 m hm m' hm' hmm hmm' hS c hc
    obtain ⟨ir, g1, g2⟩ := hloop hm hmm t ht
    obtain ⟨ir', g1', g2'⟩ := hloop' hm' hmm' t ht
    obtain ⟨p1, -⟩ := g2 c hc
    obtain ⟨p1', -⟩ := g2' c (by rw [hS.num]; exact hc)
    refine ⟨_, p1, ?_⟩
    rw [convSum_heard hN hl hln hlk]
    rw [convSum_heard hN' hl' hln' hlk'] at p1'
    obtain ⟨v, ⟨jr, j1, j2⟩, jr', j1', j2'⟩ := hS.noise t (by omega) c hc
    have hfree : ∀ {as : List ArrInfo} {s : ArrInfo}, s ∈ as.filter (fun s => s.kind == .free) → s ∈ as ∧ s.kind = .free := by
      intro as s hs
      rw [List.mem_filter] at hs
      exact ⟨hs.1, by simpa using hs.2⟩
    have e1 : convSum (cfg.arrays.filter fun s => s.kind == .free) ir (cfg.played x) c t = v := by
      rw [j2]
      refine convSum_ir _ _ (fun s hs => ?_) _ _
      obtain ⟨hs1, hs2⟩ := hfree hs
      exact IrAt.unique (g1 s hs1 (by rw [hs2]; decide)) (j1 s hs1 hs2)
    have e2 : convSum (cfg'.arrays.filter fun s => s.kind == .free) ir' (cfg'.played x') c t = v := by
      rw [j2']
      refine convSum_ir _ _ (fun s hs => ?_) _ _
      obtain ⟨hs1, hs2⟩ := hfree hs
      exact IrAt.unique (g1' s hs1 (by rw [hs2]; decide)) (j1' s hs1 hs2)
    have one : ∀ {as : List ArrInfo} {b : ArrInfo} {nm : String}, (as.map ArrInfo.name).Nodup → b ∈ as → b.name = nm →
        as.filter (fun s => s.name == nm) = [b] := by
      intro as
      induction as with
      | nil => intro b nm _ hb; cases hb
      | cons s as ih =>
        intro b nm hnd hb hn
        rw [List.map_cons, List.nodup_cons] at hnd
        rcases List.mem_cons.1 hb with rfl | hb
        · rw [List.filter_cons_of_pos (by simpa using hn), List.filter_eq_nil_iff.2]
          intro s hs hsn
          exact hnd.1 (by rw [hn, ← (by simpa using hsn : s.name = nm)]; exact List.mem_map_of_mem hs)
        · rw [List.filter_cons_of_neg, ih hnd.2 hb hn]
          intro hsn
          exact hnd.1 (by rw [(by simpa using hsn : s.name = nm), ← hn]; exact List.mem_map_of_mem hb)
    obtain ⟨pr, pr1, pr2⟩ := hS.path l hl l' hl' hln hln' t ht
    have f1 : ir "loudspeaker" = pr := by
      rw [← hln]
      exact IrAt.unique (g1 l hl (by rw [hlk]; decide)) pr1
    have f2 : ir' "loudspeaker" = pr := by
      rw [← hln']
      exact IrAt.unique (g1' l' hl' (by rw [hlk']; decide)) pr2
    rw [e2, one (initWith_nodup hi') hl' hln'] at p1'
    rw [e1, one (initWith_nodup hi) hl hln]
    have e3 : convSum [l'] ir' (fun _ i r => if r < 0 then 0 else Y' i r.toNat) c t =
        convSum [l] ir (fun _ i r => if r < 0 then 0 else Y i r.toNat) c t := by
      unfold convSum
      simp only [List.map_cons, List.map_nil, List.sum_cons, List.sum_nil, hln, hln', f1, f2, hlnum, hlnum']
      congr 2
      refine List.map_congr_left fun i hi => ?_
      congr 1
      refine List.map_congr_left fun j _ => ?_
      congr 1
      split
      · rfl
      · exact hplay t h1 h2 i (List.mem_range.1 hi) _ (by omega)
    rw [e3] at p1'
    exact p1'
  have hall : ∀ t : Nat, t ≤ k + 1 → (∀ c < q.nr, ∀ t' < (t : Int), ρ' c t' = ρ c t') ∧
      ∀ c < q.ne, ∀ t' < (t : Int), e' c t' = e c t' := by
    intro t
    obtain ⟨b, hb, hbn, hbk, hbnum⟩ := h.ref
    obtain ⟨d, hd, hdn, hdk, hdnum⟩ := h.err
    obtain ⟨b', hb', hbn', hbk', hbnum'⟩ := h'.ref
    obtain ⟨d', hd', hdn', hdk', hdnum'⟩ := h'.err
    induction t with
    | zero =>
      intro _
      refine ⟨fun c hc t' ht' => ?_, fun c hc t' ht' => ?_⟩
      · have hS := hheard b hb b' hb' (by rw [hbn, hbn']) (by simp [hbn])
        have t0 : t' < 0 := by simpa using ht'
        obtain ⟨u, u1, u2⟩ := hS.noise (if cfg.warm then t' else 0) (by split <;> omega) c (by omega)
        rw [← hw] at u2
        have p1 := hρ c hc t' (by omega)
        have p2 := hρ' c hc t' (by omega)
        rw [← hbn] at p1
        rw [← hbn'] at p2
        rw [fast_past_noise h hi hk hfilt hpos hsh hx hb hbk (by omega) t0 u1 p1,
          fast_past_noise h' hi' hk' hfilt' hpos' hsh' hx' hb' hbk' (by omega) t0 u2 p2, hB]
      · have hS := hheard d hd d' hd' (by rw [hdn, hdn']) (by simp [hdn])
        have t0 : t' < 0 := by simpa using ht'
        obtain ⟨u, u1, u2⟩ := hS.noise (if cfg.warm then t' else 0) (by split <;> omega) c (by omega)
        rw [← hw] at u2
        have p1 := he c hc t' (by omega)
        have p2 := he' c hc t' (by omega)
        rw [← hdn] at p1
        rw [← hdn'] at p2
        rw [fast_past_noise h hi hk hfilt hpos hsh hx hd hdk (by omega) t0 u1 p1,
          fast_past_noise h' hi' hk' hfilt' hpos' hsh' hx' hd' hdk' (by omega) t0 u2 p2, hB]
    | succ t ih =>
      intro ht
      obtain ⟨i1, i2⟩ := ih (by omega)
      refine ⟨fun c hc t' ht' => ?_, fun c hc t' ht' => ?_⟩
      · by_cases hlt : t' < t
        · exact i1 c hc t' hlt
        · obtain rfl : t' = t := by omega
          obtain ⟨v, g, g'⟩ := hmic t (by omega) i1 i2 b hb b' hb' hbk hbk' (hheard b hb b' hb' (by rw [hbn, hbn']) (by simp [hbn])) c (by omega)
          rw [hbn] at g
          rw [hbn'] at g'
          rw [fast_unique h hi hk (by decide) (by omega) (hrec (hρ c hc t (by omega))) g,
            fast_unique h' hi' hk' (by decide) (by omega) (hrec' (hρ' c hc t (by omega))) g']
      · by_cases hlt : t' < t
        · exact i2 c hc t' hlt
        · obtain rfl : t' = t := by omega
          obtain ⟨v, g, g'⟩ := hmic t (by omega) i1 i2 d hd d' hd' hdk hdk' (hheard d hd d' hd' (by rw [hdn, hdn']) (by simp [hdn])) c (by omega)
          rw [hdn] at g
          rw [hdn'] at g'
          rw [fast_unique h hi hk (by decide) (by omega) (hrec (he c hc t (by omega))) g,
            fast_unique h' hi' hk' (by decide) (by omega) (hrec' (he' c hc t (by omega))) g']
  refine ⟨?_, ?_, ?_⟩
  · intro t ht i hi
    obtain ⟨i1, i2⟩ := hall t (by omega)
    refine ⟨Y i t, hls i hi t ht, ?_⟩
    rw [← hplay t i1 i2 i hi t (le_refl _)]
    exact hls' i hi t ht
  · intro m hm m' hm' hmk hmk' hS t ht c hc
    obtain ⟨i1, i2⟩ := hall t (by omega)
    exact hmic t ht i1 i2 m hm m' hm' hmk hmk' hS c hc
  · intro r hr l hl
    rw [htaps r hr l hl, htaps' r hr l hl]
    obtain ⟨i1, i2⟩ := hall (k + 1) (le_refl _)
    refine List.map_congr_left fun y _ => ?_
    have := lmsTaps_scale (a := 1) one_ne_zero { q with norm := .block, ub := q.L } (b := q.bs) (X := storedFrom (Sp.firstTaps (q.L - q.bs)) (cfg.B % q.L) q.bs ρ) (X' := storedFrom (Sp.firstTaps (q.L - q.bs)) (cfg.B % q.L) q.bs ρ')
      (e := e) (e' := e') (T := ((k + 1 : Nat) : Int))
      (fun r hr l _ m _ t' ht' => storedFrom_scale hbs (fun u hu => by rw [one_mul]; exact i1 r hr u (by omega)) l m)
      (fun c hc t' ht' => by rw [one_mul]; exact i2 c hc t' ht') hr hl y ((k / q.bs - 1) * q.bs / q.L) ?_
    · have hl1 : ({ q with norm := FxNorm.block, ub := q.L } : FxPar R).louder 1 = { q with norm := .block, ub := q.L } := louder_one _
      rw [hl1] at this
      exact this
    show (k / q.bs - 1) * q.bs / q.L = 0 ∨ ((q.bs + (k / q.bs - 1) * q.bs / q.L * q.L : Nat) : Int) ≤ ((k + 1 : Nat) : Int)
    by_cases hj : 1 ≤ k / q.bs
    · right
      have a1 := Nat.div_mul_le_self ((k / q.bs - 1) * q.bs) q.L
      have a2 := Nat.div_mul_le_self k q.bs
      have a4 : (k / q.bs - 1) * q.bs + q.bs = k / q.bs * q.bs := by
        rw [Nat.sub_mul, Nat.one_mul]
        have := Nat.mul_le_mul_right q.bs hj
        omega
      omega
    · left
      rw [show k / q.bs - 1 = 0 by omega, Nat.zero_mul, Nat.zero_div]

end

section
theorem fastWhole_scene : FastScene (fastCfg wholeCfg (fxDemo 1 2 2 .sample)) (fxDemo 1 2 2 .sample) :=
  fastCfg_scene (by decide) (by decide) (by decide) (by decide)

theorem fastHalves_scene : FastScene (fastCfg halvesCfg (fxDemo 1 2 2 .sample)) (fxDemo 1 2 2 .sample) := by
  have h := fastWhole_scene
  have h' := halves_scene
  exact ⟨rfl, h'.ref, h'.err, h'.ls, h'.own, h.nr, h.nl, h.ne, h.L, h.bs, h.ub, h.chunk, h.buffer, h.regular⟩

theorem fast_irAt {cfg : SimCfg ℚ (IrMat ℚ) (Fir ℚ) Nat Unit (FxSt ℚ) (DData ℚ (FxSt ℚ) ℚ) (DOut ℚ ℚ)} {q : FxPar ℚ}
    {s m : ArrInfo} {t : Nat} {ir : IrMat ℚ} (h : cfg.IrAt () s m t ir) : (fastCfg cfg q).IrAt () s m t ir :=
  withProc_irAt.2 h

theorem fast_heard {cfg cfg' : SimCfg ℚ (IrMat ℚ) (Fir ℚ) Nat Unit (FxSt ℚ) (DData ℚ (FxSt ℚ) ℚ) (DOut ℚ ℚ)} {q : FxPar ℚ}
    {x x' : String → Nat → Nat → ℚ} {m m' : ArrInfo} {k : Nat} (h : SameHeard cfg () x cfg' () x' m m' k) :
    SameHeard (fastCfg cfg q) () x (fastCfg cfg' q) () x' m m' k where
  num := h.num
  noise := by
    intro t ht c hc
    obtain ⟨v, ⟨ir, h1, h2⟩, ir', h1', h2'⟩ := h.noise t ht c hc
    exact ⟨v, ⟨ir, fun s hs hk => fast_irAt (h1 s hs hk), h2⟩, ir', fun s hs hk => fast_irAt (h1' s hs hk), h2'⟩
  path := by
    intro l hl l' hl' hn hn' t ht
    obtain ⟨ir, h1, h2⟩ := h.path l hl l' hl' hn hn' t ht
    exact ⟨ir, fast_irAt h1, fast_irAt h2⟩

/-- The hypotheses are met: the loudspeaker plays the same for one noise source and for
the two halves of it. -/
example : ∃ (st0 st0' : SimSt ℚ (Fir ℚ) Nat Unit (FastSt ℚ) (DData ℚ (FastSt ℚ) ℚ) (DOut ℚ ℚ)),
    fastRun wholeCfg (fxDemo 1 2 2 .sample) [1, -1] = .ok st0 ∧ fastRun halvesCfg (fxDemo 1 2 2 .sample) [1, -1] = .ok st0' ∧
    (fastCfg wholeCfg (fxDemo 1 2 2 .sample)).Produced st0 "loudspeaker" 0 7 (-730024/41193) ∧
    (fastCfg halvesCfg (fxDemo 1 2 2 .sample)).Produced st0' "loudspeaker" 0 7 (-730024/41193) := by
  have h1 : fastSample wholeCfg (fxDemo 1 2 2 .sample) [1, -1] "loudspeaker" 7 = some (-2016341480/70069293) := by decide +kernel
  have h2 : fastSample wholeCfg (fxDemo 1 2 2 .sample) [1, -1] "loudspeaker" 6 = some (-730024/41193) := by decide +kernel
  have h1' : fastSample halvesCfg (fxDemo 1 2 2 .sample) [1, -1] "loudspeaker" 7 = some (-2016341480/70069293) := by decide +kernel
  obtain ⟨st0, st, h0, hk, -⟩ := fastSample_produced h1
  obtain ⟨st0', st', h0', hk', -⟩ := fastSample_produced h1'
  obtain ⟨st1, _, hs, -, p⟩ := fastSample_produced h2
  rw [h0] at hs
  cases hs
  obtain ⟨g, -, -⟩ := C200_heard_fast (x := fun _ _ t => ((t + 1 : Nat) : ℚ)) (x' := fun _ _ t => ((t + 1 : Nat) : ℚ))
    fastWhole_scene fastHalves_scene h0 h0' hk hk' rfl rfl
    (fun b hb => by rcases whole_mem b hb with rfl | rfl | rfl | rfl <;> decide)
    (fun b hb => by rcases halves_mem b hb with rfl | rfl | rfl | rfl | rfl <;> decide)
    (by
      intro n a _ s m h hs hm hp
      cases hp
      rcases whole_mem m hm with rfl | rfl | rfl | rfl <;> rfl)
    (by
      intro n a _ s m h hs hm hp
      cases hp
      rcases halves_mem m hm with rfl | rfl | rfl | rfl | rfl <;> rfl)
    (fun b hb _ => by rcases whole_mem b hb with rfl | rfl | rfl | rfl <;> exact whole_stream)
    (fun b hb _ => by rcases halves_mem b hb with rfl | rfl | rfl | rfl | rfl <;> exact whole_stream)
    rfl rfl
    (fun m hm m' hm' hn hnm => fast_heard (halves_heard hm hm' hn hnm 7))
  obtain ⟨v, g1, g2⟩ := g 7 (by decide) 0 (by decide)
  have hv := fast_unique fastWhole_scene h0 hk (by decide) (by decide) g1 p
  rw [hv] at g2
  exact ⟨st0, st0', h0, h0', p, g2⟩

end
end Verif

/-
C181: playing everything later with the adaptive filter `FastBlockFxLMS`.
-/
import Verif.Lemmas.FastDelay
import Verif.Props.AdaptiveDelay
import Verif.Props.FastScale
import Verif.Spec.FastLater
namespace Verif

section
variable {R S A D O : Type} [Field R] {cfg : SimCfg R (IrMat R) (Fir R) S A (FastSt R) D O} {q : FxPar R} {Sp : IrMat R}
  {srcs srcs' : String → S} {arr : A} {f0 : Fir R} {ds ds' : List (Diag D)}
  {st0 st st0' st' : SimSt R (Fir R) S A (FastSt R) D O} {k n : Nat}

/-- What was recorded is determined. -/
theorem fast_recorded_unique (h : FastScene cfg q) (hi : cfg.initWith (fastPrepare q) srcs arr (fastInit q Sp) f0 ds = .ok st0)
    (hk : cfg.steps k st0 = .ok st) {m : ArrInfo} (hm : m ∈ cfg.arrays) {c : Nat} (hc : c < m.num) {t : Int} (ht : t ≤ k) {v w : R}
    (hv : cfg.Recorded st0 m.name c t v) (hw : cfg.Recorded st0 m.name c t w) : v = w := by
  obtain ⟨hN, e, he, hI⟩ := fast_begin h Sp hi
  obtain ⟨te, off, r, hT⟩ := GInv.steps (fast_sizes h hN) hI k hk
  have hB := h.buffer.1
  have hz : ∀ nm, nm ≠ "xf" → ∀ c t, t < -(cfg.B : Int) → (fastStart q Sp cfg.B e).sig nm c t = 0 := by
    intro nm hn c t ht
    rw [fastStart_sig hn, tInit_before hN he _ _ _ (by omega) ht]
  rw [fast_recorded_iff h hN hI hk hT.tape hz (h.own m hm) (hN.arr m hm) hc ht] at hv hw
  rw [← hv, ← hw]

/-- Nothing was recorded before the first step, if every source begins with a zero at time index 0. -/
theorem fast_past_silent (h : FastScene cfg q) (hi : cfg.initWith (fastPrepare q) srcs arr (fastInit q Sp) f0 ds = .ok st0)
    (hk : cfg.steps k st0 = .ok st)
    (hfilt : cfg.filt = firOps R) (hpos : ∀ a ∈ cfg.arrays, 0 < a.num) (hsh : cfg.PathShape arr) (hw : cfg.warm = false)
    {x : String → Nat → Nat → R}
    (hx : ∀ b ∈ cfg.arrays, b.kind = .free → IsStream cfg.srcGet (srcs b.name) b.num (x b.name))
    (hx0 : ∀ b ∈ cfg.arrays, b.kind = .free → ∀ i < b.num, x b.name i 0 = 0)
    {m : ArrInfo} (hm : m ∈ cfg.arrays) (hmic : m.kind = .mic) {c : Nat} (hc : c < m.num) {t : Int} (ht : t < 0) {v : R}
    (hv : cfg.Recorded st0 m.name c t v) : v = 0 := by
  obtain ⟨hN, e, he, hI⟩ := fast_begin h Sp hi
  obtain ⟨te, off, r, hT⟩ := GInv.steps (fast_sizes h hN) hI k hk
  have hB := h.buffer.1
  have hmm : m ∈ micsOf cfg.arrays := by
    unfold micsOf; rw [List.mem_filter]; exact ⟨hm, by simpa using hmic⟩
  have hz : ∀ nm, nm ≠ "xf" → ∀ c t, t < -(cfg.B : Int) → (fastStart q Sp cfg.B e).sig nm c t = 0 := by
    intro nm hn c t ht
    rw [fastStart_sig hn, tInit_before hN he _ _ _ (by omega) ht]
  rw [fast_recorded_iff h hN hI hk hT.tape hz (h.own m hm) (hN.arr m hm) hc (by omega)] at hv
  rw [gSteps_past (n := 0) (e := fastStart q Sp cfg.B e) rfl (fast_past (fast_dims h hN) h.ub.1 (h.own m hm)) k (e' := te)
    (by rw [Nat.zero_add]; exact hT.tape) c (t - 1) (by simp; omega), fastStart_sig (h.own m hm)] at hv
  rw [← hv]
  by_cases hb : -(cfg.B : Int) ≤ t - 1
  · obtain ⟨ir, g1, g2⟩ := prep_fir cfg hN hfilt hpos hsh (by omega) hmm he
    have a1 := g2 c (t - 1 + cfg.B).toNat hc (by omega)
    rw [show (((t - 1 + cfg.B).toNat : Nat) : Int) - cfg.B = t - 1 by omega] at a1
    rw [a1]
    refine List.sum_eq_zero fun v hv => ?_
    obtain ⟨s, hs, rfl⟩ := List.mem_map.1 hv
    unfold firOut
    refine List.sum_eq_zero fun v hv => ?_
    obtain ⟨i, hi, rfl⟩ := List.mem_map.1 hv
    refine List.sum_eq_zero fun v hv => ?_
    obtain ⟨j, hj, rfl⟩ := List.mem_map.1 hv
    rw [(g1 s hs).2] at hi
    have hi := List.mem_range.1 hi
    have hp : e.sig s.name i (-1) = 0 := by
      have := tInit_played hN he hx hs hi (j := 0) (by unfold SimCfg.prepNum; rw [hw]; simp)
      unfold SimCfg.prepNum at this
      rw [hw] at this
      simp only [Bool.false_eq_true, if_false] at this
      rw [show ((0 : Nat) : Int) - ((1 : Nat) : Int) = -1 by omega] at this
      rw [this]
      split
      · rename_i hf
        exact hx0 s (mem_sourcesOf hs).1 hf i hi
      · rfl
    rw [hw]
    simp only [Bool.false_eq_true, if_false, List.range_one, List.map_cons, List.map_nil]
    cases j with
    | zero => simp [colAt, hi, hp]
    | succ j => simp
  · exact tInit_before hN he _ _ _ (by omega) (by omega)

/-- Nothing was recorded before the first step, if nothing is heard at time index 0. -/
theorem fast_past_quiet (h : FastScene cfg q) (hi : cfg.initWith (fastPrepare q) srcs arr (fastInit q Sp) f0 ds = .ok st0)
    (hk : cfg.steps k st0 = .ok st)
    (hfilt : cfg.filt = firOps R) (hpos : ∀ a ∈ cfg.arrays, 0 < a.num) (hsh : cfg.PathShape arr) (hw : cfg.warm = false)
    {m : ArrInfo} (hm : m ∈ cfg.arrays) (hmic : m.kind = .mic) {c : Nat} (hc : c < m.num) (h0 : cfg.Produced st0 m.name c 0 0)
    {t : Int} (ht : t < 0) {v : R} (hv : cfg.Recorded st0 m.name c t v) : v = 0 := by
  obtain ⟨hN, e, he, hI⟩ := fast_begin h Sp hi
  obtain ⟨te, off, r, hT⟩ := GInv.steps (fast_sizes h hN) hI k hk
  have hB := h.buffer.1
  have hmm : m ∈ micsOf cfg.arrays := by
    unfold micsOf; rw [List.mem_filter]; exact ⟨hm, by simpa using hmic⟩
  have hz : ∀ nm, nm ≠ "xf" → ∀ c t, t < -(cfg.B : Int) → (fastStart q Sp cfg.B e).sig nm c t = 0 := by
    intro nm hn c t ht
    rw [fastStart_sig hn, tInit_before hN he _ _ _ (by omega) ht]
  rw [fast_recorded_iff h hN hI hk hT.tape hz (h.own m hm) (hN.arr m hm) hc (by omega)] at hv
  rw [gSteps_past (n := 0) (e := fastStart q Sp cfg.B e) rfl (fast_past (fast_dims h hN) h.ub.1 (h.own m hm)) k (e' := te)
    (by rw [Nat.zero_add]; exact hT.tape) c (t - 1) (by simp; omega), fastStart_sig (h.own m hm)] at hv
  rw [← hv]
  by_cases hb : -(cfg.B : Int) ≤ t - 1
  · obtain ⟨ir, g1, g2⟩ := prep_fir cfg hN hfilt hpos hsh (by omega) hmm he
    have a1 := g2 c (t - 1 + cfg.B).toNat hc (by omega)
    have a2 := g2 c (cfg.B - 1) hc (by omega)
    simp only [hw, Bool.false_eq_true, ↓reduceIte] at a1 a2
    rw [show (((t - 1 + cfg.B).toNat : Nat) : Int) - cfg.B = t - 1 by omega] at a1
    rw [show ((cfg.B - 1 : Nat) : Int) - cfg.B = -1 by omega] at a2
    rw [a1, ← a2]
    obtain ⟨_, _, _, g⟩ := (gProduced_iff (fast_sizes h hN) hI (k := 0) (by rfl) (by rfl) (Nat.zero_le 0)
      (fast_past (fast_dims h hN) h.ub.1 (h.own m hm))).1 h0
    rw [fastStart_sig (h.own m hm)] at g
    exact g
  · exact tInit_before hN he _ _ _ (by omega) (by omega)

/-- C181, for reference microphones that hear nothing in the first block.  Two simulations with
`FastBlockFxLMS` and arrays that stand still; in the second one every source plays zeros for `n` filter
lengths first.  Then every channel of every array and of every contribution is silent for this time and
plays afterwards what it plays in the first simulation, and the control filters are the same after as
many more steps. -/
theorem C181_partial (hrun : LaterFast cfg q Sp srcs srcs' arr f0 ds ds' k n st0 st st0' st')
    (hquiet : ∀ c < q.nr, ∀ t < q.bs, t ≤ k → cfg.Produced st0 "ref" c t 0) :
    (∀ t ≤ k, ∀ b ∈ cfg.arrays, ∀ c < b.num, ∃ v, cfg.Produced st0 b.name c t v ∧
      cfg.Produced st0' b.name c (t + n * q.L) v) ∧
    (cfg.contrib = true → ∀ t ≤ k, ∀ s ∈ cfg.arrays, ∀ m ∈ cfg.arrays, s.kind ≠ .mic → m.kind = .mic →
      ∀ c < m.num, ∃ v, cfg.Produced st0 (s.name ++ "~" ++ m.name) c t v ∧
        cfg.Produced st0' (s.name ++ "~" ++ m.name) c (t + n * q.L) v) ∧
    (∀ t < n * q.L, ∀ b ∈ cfg.arrays, ∀ c < b.num, cfg.Produced st0' b.name c t 0) ∧
    (cfg.contrib = true → ∀ t < n * q.L, ∀ s ∈ cfg.arrays, ∀ m ∈ cfg.arrays, s.kind ≠ .mic → m.kind = .mic →
      ∀ c < m.num, cfg.Produced st0' (s.name ++ "~" ++ m.name) c t 0) ∧
    ∀ r < q.nr, ∀ l < q.nl, st'.eng.proc.ctrl.mat.ir r l = st.eng.proc.ctrl.mat.ir r l := by
  obtain ⟨h, hi, hi', hk, hn, hk', hfilt, hpos, hsh, hstat, hw, x, hxx⟩ := hrun
  have hx := fun b hb hf => (hxx b hb hf).1
  have hy' := fun b hb hf => (hxx b hb hf).2
  generalize hyd : (fun s c j => if j < n * q.L then 0 else x s c (j - n * q.L) : String → Nat → Nat → R) = y
  have hy : ∀ b ∈ cfg.arrays, b.kind = .free → IsStream cfg.srcGet (srcs' b.name) b.num (y b.name) := by
    intro b hb hf; rw [← hyd]; exact hy' b hb hf
  have hxy : ∀ s ∈ cfg.arrays, s.kind = .free → ∀ i < s.num, ∀ j,
      y s.name i j = if j < n * q.L then 0 else x s.name i (j - n * q.L) := by
    intro s _ _ i _ j; rw [← hyd]
  have hbs := h.bs
  have hub := h.L
  have hdvd := h.ub.2
  have hle := Nat.le_of_dvd hub hdvd
  have hd : q.bs ≤ n * q.L := le_trans hle (Nat.le_mul_of_pos_left _ hn)
  obtain ⟨hN, -⟩ := fast_begin h Sp hi
  obtain ⟨bref, hb, hbn, hbk, hbnum⟩ := h.ref
  obtain ⟨berr, hde, hdn, hdk, hdnum⟩ := h.err
  -- what the first simulation records
  obtain ⟨ρ, e, hρ, he, hq⟩ : ∃ ρ e : Nat → Int → R, (∀ c < q.nr, ∀ t ≤ (k : Int), cfg.Recorded st0 "ref" c t (ρ c t)) ∧
      (∀ c < q.ne, ∀ t ≤ (k : Int), cfg.Recorded st0 "error" c t (e c t)) ∧ QuietFast q.bs q.nr ρ := by
    obtain ⟨ρ, e, hρ, he⟩ := fast_recorded h hi hk
    refine ⟨fun c t => if t ≤ k then ρ c t else 0, e, fun c hc t ht => by dsimp only; rw [if_pos ht]; exact hρ c hc t ht, he, ?_⟩
    intro c hc t ht
    dsimp only
    split
    · rename_i htk
      have p1 := hρ c hc t htk
      rw [← hbn] at p1
      by_cases h0 : 0 ≤ t
      · have p2 : cfg.Recorded st0 bref.name c t 0 := by
          unfold SimCfg.Recorded
          rw [if_pos h0, hbn]
          exact hquiet c hc t.toNat (by omega) (by omega)
        exact fast_recorded_unique h hi hk hb (by omega) htk p1 p2
      · refine fast_past_quiet h hi hk hfilt hpos hsh hw hb hbk (by omega) ?_ (by omega) p1
        rw [hbn]
        exact hquiet c hc 0 (by omega) (by omega)
    · rfl
  obtain ⟨ρ', e', hρ', he'⟩ := fast_recorded h hi' hk'
  obtain ⟨hls, htaps⟩ := C175_adaptive h hi hk hρ he
  obtain ⟨hls', htaps'⟩ := C175_adaptive h hi' hk' hρ' he'
  have hloop := fun {m : ArrInfo} (hm : m ∈ cfg.arrays) (hmic : m.kind = .mic) =>
    C175_closed_loop h hi hk hfilt hpos hsh hx hρ he hm hmic
  have hloop' := fun {m : ArrInfo} (hm : m ∈ cfg.arrays) (hmic : m.kind = .mic) =>
    C175_closed_loop h hi' hk' hfilt hpos hsh hy hρ' he' hm hmic
  have hrec : ∀ {st0 : SimSt R (Fir R) S A (FastSt R) D O} {name : String} {c t : Nat} {v : R},
      cfg.Recorded st0 name c t v → cfg.Produced st0 name c t v := by
    intro st0 name c t v hv
    unfold SimCfg.Recorded at hv
    rwa [if_pos (by omega), Int.toNat_natCast] at hv
  have hpw : (if cfg.warm then cfg.B else 1 : Nat) = 1 := by rw [hw]; simp
  -- what the free sources play
  have hplay : ∀ s ∈ cfg.arrays, ∀ i < s.num, ∀ t : Int, cfg.played y s.name i t = cfg.played x s.name i (t - (n * q.L : Nat)) := by
    intro s hs i hi t
    unfold SimCfg.played
    rw [hpw]
    by_cases hf : ∃ a ∈ cfg.arrays, a.name = s.name ∧ a.kind = .free
    · obtain ⟨s', b1, b2, b3⟩ := id hf
      rw [hN.inj s' b1 s hs b2] at b3
      simp only [hf, true_and]
      by_cases ht : -((1 : Nat) : Int) < t
      · rw [if_pos ht, hxy s hs b3 i hi]
        by_cases ht2 : -((1 : Nat) : Int) < t - (n * q.L : Nat)
        · rw [if_pos ht2, if_neg (by omega)]
          congr 1
          omega
        · rw [if_neg ht2, if_pos (by omega)]
      · rw [if_neg ht, if_neg (by omega)]
    · simp only [hf, false_and, if_false]
  have hzero : ∀ (s : String) (i : Nat) (t : Int), t < 0 → cfg.played x s i t = 0 := by
    intro s i t ht
    unfold SimCfg.played
    rw [if_neg]
    rintro ⟨_, h⟩
    rw [hpw] at h
    omega
  have hstay : ∀ {m s : ArrInfo} {t : Nat} {h : IrMat R}, m ∈ cfg.arrays → s ∈ cfg.arrays → cfg.IrAt arr s m t h →
      cfg.arrPath arr s.name m.name = .ok h := by
    intro m s t h hm hs hi
    cases t with
    | zero => exact hi
    | succ t =>
      change if _ then _ else _ at hi
      rwa [if_neg (by rw [hstat s hs, hstat m hm]; simp)] at hi
  have hmem : ∀ s ∈ cfg.arrays.filter (fun s => s.kind != .mic), s ∈ cfg.arrays ∧ s.kind ≠ .mic := by
    intro s hs
    rw [List.mem_filter] at hs
    exact ⟨hs.1, by simpa using hs.2⟩
  generalize hY : adaptiveOut q.bs q.L q.nr q.L
    (lmsTaps .block q.beta q.mu q.nr q.nl q.ne q.L q.L q.bs (storedFrom (Sp.firstTaps (q.L - q.bs)) (cfg.B % q.L) q.bs ρ) e) ρ = Y at hls hloop
  generalize hY' : adaptiveOut q.bs q.L q.nr q.L
    (lmsTaps .block q.beta q.mu q.nr q.nl q.ne q.L q.L q.bs (storedFrom (Sp.firstTaps (q.L - q.bs)) (cfg.B % q.L) q.bs ρ') e') ρ' = Y' at hls' hloop'
  -- silence
  have hmute : ∀ (l : List ArrInfo) (ir : String → IrMat R) (u : String → Nat → Int → R) (c : Nat) (t : Int),
      (∀ s ∈ l, ∀ i < s.num, ∀ r ≤ t, u s.name i r = 0) → convSum l ir u c t = 0 := by
    intro l ir u c t hu
    unfold convSum
    refine List.sum_eq_zero fun v hv => ?_
    obtain ⟨s, hs, rfl⟩ := List.mem_map.1 hv
    refine List.sum_eq_zero fun v hv => ?_
    obtain ⟨i, hi, rfl⟩ := List.mem_map.1 hv
    refine List.sum_eq_zero fun v hv => ?_
    obtain ⟨j, hj, rfl⟩ := List.mem_map.1 hv
    rw [hu s hs i (List.mem_range.1 hi) _ (by omega), mul_zero]
  have hsil : ∀ t : Nat, t ≤ n * q.L → (∀ c < q.nr, ∀ t' < (t : Int), ρ' c t' = 0) → ∀ s ∈ cfg.arrays, ∀ i < s.num,
      ∀ r ≤ (t : Int), r < (n * q.L : Nat) → cfg.playedWith y Y' s.name i r = 0 := by
    intro t ht h1 s hs i hi r hr hrd
    unfold SimCfg.playedWith
    split
    · split
      · rfl
      · rw [← hY']
        unfold adaptiveOut
        split
        · rfl
        · refine Finset.sum_eq_zero fun c hc => Finset.sum_eq_zero fun a _ => ?_
          split
          · exact mul_zero _
          · rw [h1 c (Finset.mem_range.1 hc) _ (by omega), mul_zero]
    · rw [hplay s hs i hi, hzero _ _ _ (by omega)]
  have hsilent : ∀ t : Nat, t ≤ n * q.L → ∀ c < q.nr, ∀ t' < (t : Int), ρ' c t' = 0 := by
    intro t
    induction t with
    | zero =>
      intro _ c hc t' ht'
      have p := hρ' c hc t' (by omega)
      rw [← hbn] at p
      refine fast_past_silent h hi' hk' hfilt hpos hsh hw hy (fun b hb hbf i hi => ?_) hb hbk (by omega) (by simpa using ht') p
      rw [hxy b hb hbf i hi, if_pos (by omega)]
    | succ t ih =>
      intro ht c hc t' ht'
      by_cases hlt : t' < t
      · exact ih (by omega) c hc t' hlt
      · obtain rfl : t' = t := by omega
        obtain ⟨ir, g1, g2⟩ := hloop' hb hbk t (by omega)
        have g := (g2 c (by omega)).1
        rw [hmute _ _ _ _ _ fun s hs i hi r hr => hsil t (by omega) (ih (by omega)) s (hmem s hs).1 i hi r hr (by omega), hbn] at g
        exact fast_unique h hi' hk' (by decide) (by omega) (hrec (hρ' c hc t (by omega))) g
  have hq' : QuietFast q.bs q.nr ρ' :=
    fun c hc t ht => hsilent q.bs hd c hc t ht
  -- the sources up to time `t` from what was recorded before
  have hpl : ∀ t : Nat, (∀ c < q.nr, ∀ t' < (t : Int), ρ' c (t' + (n * q.L : Nat)) = ρ c t') →
      (∀ c < q.ne, ∀ t' < (t : Int), 0 ≤ t' → e' c (t' + (n * q.L : Nat)) = e c t') → ∀ s ∈ cfg.arrays, ∀ i < s.num,
      ∀ r ≤ (t : Int), cfg.playedWith y Y' s.name i (r + (n * q.L : Nat)) = cfg.playedWith x Y s.name i r := by
    intro t h1 h2 s hs i hi r hr
    unfold SimCfg.playedWith
    by_cases hn : s.name = "loudspeaker"
    · rw [if_pos hn, if_pos hn]
      obtain ⟨l, hl, hln, -, hnum⟩ := h.ls
      rw [hN.inj s hs l hl (by rw [hn, hln]), hnum] at hi
      split
      · rw [if_pos (by omega)]
      · rw [← hY, ← hY']
        exact adaptiveOut_shiftFast q hbs hub hdvd (Sp.firstTaps (q.L - q.bs)) (cfg.B % q.L) hq hq' (fun c hc t' ht' => h1 c hc t' (by omega))
          (fun c hc t' ht' => h2 c hc t' (by omega)) hi (by omega)
    · rw [if_neg hn, if_neg hn, hplay s hs i hi]
      congr 1
      omega
  have hconv : ∀ (l : List ArrInfo) (i1 i2 : String → IrMat R) (c : Nat) (t t' : Int), (∀ s ∈ l, s ∈ cfg.arrays) →
      (∀ s ∈ l, i2 s.name = i1 s.name) → t' = t + (n * q.L : Nat) → (∀ s ∈ cfg.arrays, ∀ i < s.num,
      ∀ r ≤ t, cfg.playedWith y Y' s.name i (r + (n * q.L : Nat)) = cfg.playedWith x Y s.name i r) →
      convSum l i2 (cfg.playedWith y Y') c t' = convSum l i1 (cfg.playedWith x Y) c t := by
    intro l i1 i2 c t t' hl hi ht hp
    unfold convSum
    congr 1
    refine List.map_congr_left fun s hs => ?_
    rw [hi s hs]
    congr 1
    refine List.map_congr_left fun i hi => ?_
    congr 1
    refine List.map_congr_left fun j _ => ?_
    rw [← hp s (hl s hs) i (List.mem_range.1 hi) _ (show t - j ≤ t by omega), ht]
    congr 2
    omega
  have hmic : ∀ t ≤ k, (∀ c < q.nr, ∀ t' < (t : Int), ρ' c (t' + (n * q.L : Nat)) = ρ c t') →
      (∀ c < q.ne, ∀ t' < (t : Int), 0 ≤ t' → e' c (t' + (n * q.L : Nat)) = e c t') → ∀ m ∈ cfg.arrays, m.kind = .mic → ∀ c < m.num,
      (∃ v, cfg.Produced st0 m.name c t v ∧ cfg.Produced st0' m.name c (t + n * q.L) v) ∧
      (cfg.contrib = true → ∀ s ∈ cfg.arrays, s.kind ≠ .mic →
        ∃ v, cfg.Produced st0 (s.name ++ "~" ++ m.name) c t v ∧
        cfg.Produced st0' (s.name ++ "~" ++ m.name) c (t + n * q.L) v) := by
    intro t ht h1 h2 m hm hmm c hc
    obtain ⟨ir, g1, g2⟩ := hloop hm hmm t ht
    obtain ⟨ir', g1', g2'⟩ := hloop' hm hmm (t + n * q.L) (by omega)
    have hir : ∀ s ∈ cfg.arrays, s.kind ≠ .mic → ir' s.name = ir s.name := by
      intro s hs hsk
      have a := hstay hm hs (g1 s hs hsk)
      rw [hstay hm hs (g1' s hs hsk)] at a
      exact Except.ok.inj a
    obtain ⟨p1, p2⟩ := g2 c hc
    obtain ⟨p1', p2'⟩ := g2' c hc
    refine ⟨⟨_, p1, ?_⟩, ?_⟩
    · rw [← hconv _ ir ir' c t _ (fun s hs => (hmem s hs).1) (fun s hs => hir s (hmem s hs).1 (hmem s hs).2) (Nat.cast_add _ _)
        (hpl t h1 h2)]
      exact p1'
    · intro hcon s hs hsk
      refine ⟨_, p2 hcon s hs hsk, ?_⟩
      rw [← hconv [s] ir ir' c t _ (fun s' hs' => by rw [List.mem_singleton.1 hs']; exact hs)
        (fun s' hs' => by rw [List.mem_singleton.1 hs']; exact hir s hs hsk) (Nat.cast_add _ _) (hpl t h1 h2)]
      exact p2' hcon s hs hsk
  -- what was recorded
  have hall : ∀ t : Nat, t ≤ k + 1 → (∀ c < q.nr, ∀ t' < (t : Int), ρ' c (t' + (n * q.L : Nat)) = ρ c t') ∧
      ∀ c < q.ne, ∀ t' < (t : Int), 0 ≤ t' → e' c (t' + (n * q.L : Nat)) = e c t' := by
    intro t
    induction t with
    | zero =>
      intro _
      refine ⟨fun c hc t' ht' => ?_, fun c hc t' ht' h0 => by omega⟩
      rw [hq c hc t' (by push_cast at ht'; omega), hsilent (n * q.L) (le_refl _) c hc _ (by omega)]
    | succ t ih =>
      intro ht
      obtain ⟨i1, i2⟩ := ih (by omega)
      refine ⟨fun c hc t' ht' => ?_, fun c hc t' ht' h0 => ?_⟩
      · by_cases hlt : t' < t
        · exact i1 c hc t' hlt
        · obtain rfl : t' = t := by omega
          obtain ⟨⟨v, g, g'⟩, -⟩ := hmic t (by omega) i1 i2 bref hb hbk c (by omega)
          rw [hbn] at g g'
          have w := hρ' c hc ((t + n * q.L : Nat) : Int) (by omega)
          rw [← Nat.cast_add, fast_unique h hi hk (by decide) (by omega) (hrec (hρ c hc t (by omega))) g,
            fast_unique h hi' hk' (by decide) (by omega) (hrec w) g']
      · by_cases hlt : t' < t
        · exact i2 c hc t' hlt h0
        · obtain rfl : t' = t := by omega
          obtain ⟨⟨v, g, g'⟩, -⟩ := hmic t (by omega) i1 i2 berr hde hdk c (by omega)
          rw [hdn] at g g'
          have w := he' c hc ((t + n * q.L : Nat) : Int) (by omega)
          rw [← Nat.cast_add, fast_unique h hi hk (by decide) (by omega) (hrec (he c hc t (by omega))) g,
            fast_unique h hi' hk' (by decide) (by omega) (hrec w) g']
  have hsrc : ∀ {b : ArrInfo}, b ∈ cfg.arrays → b.kind ≠ .mic → ∀ c < b.num, (∀ t ≤ k, cfg.Produced st0 b.name c t
      (cfg.playedWith x Y b.name c t)) ∧ ∀ t ≤ k + n * q.L, cfg.Produced st0' b.name c t (cfg.playedWith y Y' b.name c t) := by
    intro b hb hbk c hc
    have hbs' : b ∈ sourcesOf cfg.arrays := by
      unfold sourcesOf; rw [List.mem_filter]; exact ⟨hb, by simpa using hbk⟩
    unfold SimCfg.playedWith
    by_cases hn : b.name = "loudspeaker"
    · obtain ⟨l, hl, hln, -, hnum⟩ := h.ls
      have hc' : c < q.nl := by rw [hN.inj b hb l hl (by rw [hn, hln]), hnum] at hc; exact hc
      rw [hn]
      refine ⟨fun t ht => ?_, fun t ht => ?_⟩
      · rw [if_pos rfl, if_neg (by omega), Int.toNat_natCast]
        exact hls c hc' t ht
      · rw [if_pos rfl, if_neg (by omega), Int.toNat_natCast]
        exact hls' c hc' t ht
    · refine ⟨fun t ht => ?_, fun t ht => ?_⟩
      · rw [if_neg hn]
        exact fast_source h hi hk hx hbs' hn hc ht
      · rw [if_neg hn]
        exact fast_source h hi' hk' hy hbs' hn hc ht
  refine ⟨?_, ?_, ?_, ?_, ?_⟩
  · intro t ht b hb c hc
    obtain ⟨i1, i2⟩ := hall t (by omega)
    by_cases hbk : b.kind = .mic
    · exact (hmic t ht i1 i2 b hb hbk c hc).1
    · obtain ⟨s1, s2⟩ := hsrc hb hbk c hc
      refine ⟨_, s1 t ht, ?_⟩
      rw [← hpl t i1 i2 b hb c hc t (le_refl _), ← Nat.cast_add]
      exact s2 _ (by omega)
  · intro hcon t ht s hs m hm hsk hmk c hc
    obtain ⟨i1, i2⟩ := hall t (by omega)
    exact (hmic t ht i1 i2 m hm hmk c hc).2 hcon s hs hsk
  · intro t ht b hb c hc
    have hs := hsil t (by omega) (hsilent t (by omega))
    by_cases hbk : b.kind = .mic
    · obtain ⟨ir, g1, g2⟩ := hloop' hb hbk t (by omega)
      have g := (g2 c hc).1
      rwa [hmute _ _ _ _ _ fun s hs' i hi r hr => hs s (hmem s hs').1 i hi r hr (by omega)] at g
    · have := (hsrc hb hbk c hc).2 t (by omega)
      rwa [hs b hb c hc t (le_refl _) (by omega)] at this
  · intro hcon t ht s hs m hm hsk hmk c hc
    have hs' := hsil t (by omega) (hsilent t (by omega))
    obtain ⟨ir, g1, g2⟩ := hloop' hm hmk t (by omega)
    have g := (g2 c hc).2 hcon s hs hsk
    rwa [hmute _ _ _ _ _ fun s' hs'' i hi r hr => by
      rw [List.mem_singleton.1 hs''] at hi ⊢
      exact hs' s hs i hi r hr (by omega)] at g
  · intro r hr l hl
    rw [htaps r hr l hl, htaps' r hr l hl]
    obtain ⟨i1, i2⟩ := hall (k + 1) (le_refl _)
    refine List.map_congr_left fun y _ => ?_
    have hX : ∀ r < q.nr, ∀ l < q.nl, ∀ m < q.ne, ∀ t' < (k : Int) + 1 + q.bs,
        storedFrom (Sp.firstTaps (q.L - q.bs)) (cfg.B % q.L) q.bs ρ' r l m (t' + (n * q.L : Nat)) = storedFrom (Sp.firstTaps (q.L - q.bs)) (cfg.B % q.L) q.bs ρ r l m t' := by
      intro r hr l _ m _ t' ht'
      rw [storedFrom_quiet hbs hq' hr, storedFrom_quiet hbs hq hr]
      refine Finset.sum_congr rfl fun j _ => ?_
      rw [← i1 r hr _ (show t' - q.bs - j < (k + 1 : Nat) by push_cast; omega)]
      congr 2
      omega
    have hz : ∀ r < q.nr, ∀ l < q.nl, ∀ m < q.ne, ∀ t' < ((q.bs + n * q.L : Nat) : Int), storedFrom (Sp.firstTaps (q.L - q.bs)) (cfg.B % q.L) q.bs ρ' r l m t' = 0 := by
      intro r hr l hl m hm t' ht'
      have := hX r hr l hl m hm (t' - (n * q.L : Nat)) (by omega)
      rw [show t' - (n * q.L : Nat) + (n * q.L : Nat) = t' by omega] at this
      rw [this]
      exact storedFrom_before hbs hq hr l m (by omega)
    by_cases hj : 1 ≤ k / q.bs
    · rw [updates_shift hbs hub hdvd hj]
      refine lmsTaps_shift (T := ((k + 1 : Nat) : Int)) (fun r hr l hl m hm t' ht' => hX r hr l hl m hm t' (by push_cast at ht'; omega))
        hz i2 hr hl y _ (.inr ?_)
      have a1 := Nat.div_mul_le_self ((k / q.bs - 1) * q.bs) q.L
      have a2 := Nat.div_mul_le_self k q.bs
      have a4 : (k / q.bs - 1) * q.bs + q.bs = k / q.bs * q.bs := by
        rw [Nat.sub_mul, Nat.one_mul]
        have := Nat.mul_le_mul_right q.bs hj
        omega
      omega
    · have h3 : k < 1 * q.bs := by
        have := Nat.lt_of_not_le hj
        rwa [Nat.div_lt_iff_lt_mul hbs] at this
      have h4 := updates_before (t := k + n * q.L) (n := n) (o := 1) hbs hub hdvd (by omega)
      rw [show k / q.bs - 1 = 0 by omega, Nat.zero_mul, Nat.zero_div]
      refine lmsTaps_silent (hz r hr l hl) y _ (.inr ?_)
      have := Nat.mul_le_mul_right q.L h4
      omega

end

section
/-- The scene of the examples of C156 with `FastBlockFxLMS` and a buffer of `B` samples. -/
def lateFast (B : Nat) (q : FxPar ℚ) (a : List ℚ) : SimCfg ℚ (IrMat ℚ) (Fir ℚ) Nat Unit (FastSt ℚ) (DData ℚ (FastSt ℚ) ℚ) (DOut ℚ ℚ) :=
  { fastCfg (lateCfg q a) q with B := B }

/-- The taps at the end of a run from the state `p` of the source. -/
def lateFastTaps (B : Nat) (q : FxPar ℚ) (a : List ℚ) (p k : Nat) : Option (List ℚ) :=
  match (lateFast B q a).initWith (fastPrepare q) (fun _ => p) () (fastInit q (fxSec [1, -1])) demoFilt [] with
  | .error _ => none
  | .ok st0 =>
    match (lateFast B q a).steps k st0 with
    | .error _ => none
    | .ok st => some (st.eng.proc.ctrl.mat.ir 0 0)

abbrev LateF := SimSt ℚ (Fir ℚ) Nat Unit (FastSt ℚ) (DData ℚ (FastSt ℚ) ℚ) (DOut ℚ ℚ)

theorem lateFast_ends {B : Nat} {q : FxPar ℚ} {a : List ℚ} {p k : Nat} {w : List ℚ} (h : lateFastTaps B q a p k = some w) :
    ∃ st0 st : LateF, (lateFast B q a).initWith (fastPrepare q) (fun _ => p) () (fastInit q (fxSec [1, -1])) demoFilt [] = .ok st0 ∧
      (lateFast B q a).steps k st0 = .ok st ∧ st.eng.proc.ctrl.mat.ir 0 0 = w := by
  unfold lateFastTaps at h
  split at h
  · cases h
  · rename_i st0 h0
    split at h
    · cases h
    · rename_i st hk
      exact ⟨st0, st, h0, hk, Option.some.inj h⟩

/-- Two runs of this scene, the source of the second one `n` filter lengths later. -/
theorem lateFast_runs {B bs L : Nat} {a : List ℚ} (h1 : 0 < L) (h2 : 0 < bs ∧ bs ∣ L)
    (h5 : bs + 1 ≤ B ∧ 2 * L ≤ B + 3) {k n : Nat} (hn : 0 < n) (hn' : n * L ≤ 10) {w w' : List ℚ}
    (hw : lateFastTaps B (fxDemo bs L L .block) a 10 k = some w)
    (hw' : lateFastTaps B (fxDemo bs L L .block) a (10 - n * L) (k + n * L) = some w') :
    ∃ st0 st st0' st' : LateF, LaterFast (lateFast B (fxDemo bs L L .block) a) (fxDemo bs L L .block) (fxSec [1, -1]) (fun _ => 10)
      (fun _ => 10 - n * L) () demoFilt [] [] k n st0 st st0' st' ∧
      st.eng.proc.ctrl.mat.ir 0 0 = w ∧ st'.eng.proc.ctrl.mat.ir 0 0 = w' := by
  obtain ⟨st0, st, g1, g2, g3⟩ := lateFast_ends hw
  obtain ⟨st0', st', g1', g2', g3'⟩ := lateFast_ends hw'
  have hc : FastScene (fastCfg (fxCfg B 3 (fxDemo bs L L .block) a [1, 1] [1, -1]) (fxDemo bs L L .block)) (fxDemo bs L L .block) :=
    fastCfg_scene h1 h2 ⟨by decide, .inl (by decide)⟩ h5
  have harr : (lateFast B (fxDemo bs L L .block) a).arrays = [⟨"ref", 1, .mic, false⟩, ⟨"error", 1, .mic, false⟩, ⟨"noise", 1, .free, false⟩,
    ⟨"loudspeaker", 1, .ctrl, false⟩] := rfl
  refine ⟨st0, st, st0', st', ⟨⟨rfl, hc.ref, hc.err, hc.ls, hc.own, hc.nr, hc.nl, hc.ne, hc.L, hc.bs, hc.ub, hc.chunk, hc.buffer, hc.regular⟩,
    g1, g1', g2, hn, g2', rfl, ?_, ?_, ?_, rfl, fun _ _ t => ((10 + t + 1 - 10 : Nat) : ℚ), ?_⟩, g3, g3'⟩
  · intro b hb
    simp only [harr, List.mem_cons, List.not_mem_nil, or_false] at hb
    rcases hb with rfl | rfl | rfl | rfl <;> decide
  · intro n a _ s m h hs hm hp
    cases hp
    simp only [harr, List.mem_cons, List.not_mem_nil, or_false] at hm
    rcases hm with rfl | rfl | rfl | rfl <;> rfl
  · intro b hb
    simp only [harr, List.mem_cons, List.not_mem_nil, or_false] at hb
    rcases hb with rfl | rfl | rfl | rfl <;> rfl
  · intro b hb hbk
    have hnum : b.num = 1 := by
      simp only [harr, List.mem_cons, List.not_mem_nil, or_false] at hb
      rcases hb with rfl | rfl | rfl | rfl
      · cases hbk
      · cases hbk
      · rfl
      · cases hbk
    rw [hnum]
    refine ⟨late_stream (q := fxDemo bs L L .block) (a := a) 10, ?_⟩
    have e : (fun (c j : Nat) => if j < n * (fxDemo bs L L .block).L then (0 : ℚ) else
        (fun _ _ t => ((10 + t + 1 - 10 : Nat) : ℚ) : String → Nat → Nat → ℚ) b.name c (j - n * (fxDemo bs L L .block).L)) =
        fun _ t => ((10 - n * L + t + 1 - 10 : Nat) : ℚ) := by
      have hu : (fxDemo bs L L .block).L = L := rfl
      rw [hu]
      funext c j
      by_cases hj : j < n * L
      · rw [if_pos hj, show 10 - n * L + j + 1 - 10 = 0 by omega, Nat.cast_zero]
      · rw [if_neg hj]
        dsimp only
        rw [show 10 + (j - n * L) + 1 - 10 = 10 - n * L + j + 1 - 10 by omega]
    rw [e]
    exact late_stream (q := fxDemo bs L L .block) (a := a) (10 - n * L)

/-- C181 does not hold for a block size above 1: the first samples of the reference are left out
by the filter of the secondary paths (C175), and it matters whether these are silent. -/
theorem C181_violated_block : ∃ (cfg : SimCfg ℚ (IrMat ℚ) (Fir ℚ) Nat Unit (FastSt ℚ) (DData ℚ (FastSt ℚ) ℚ) (DOut ℚ ℚ)) (q : FxPar ℚ)
    (Sp : IrMat ℚ) (srcs srcs' : String → Nat) (f0 : Fir ℚ) (k n : Nat) (st0 st st0' st' : LateF),
    LaterFast cfg q Sp srcs srcs' () f0 [] [] k n st0 st st0' st' ∧ q.bs = 2 ∧ q.L ∣ cfg.B ∧
    st.eng.proc.ctrl.mat.ir 0 0 = [-241 / 40, -653 / 120, -589 / 120, -457 / 120] ∧
    st'.eng.proc.ctrl.mat.ir 0 0 = [-209 / 40, -87 / 20, -129 / 40, -37 / 20] := by
  obtain ⟨st0, st, st0', st', h, g⟩ := lateFast_runs (B := 12) (bs := 2) (L := 4) (a := [0, 1]) (k := 12) (n := 1)
    (w := [-241 / 40, -653 / 120, -589 / 120, -457 / 120]) (w' := [-209 / 40, -87 / 20, -129 / 40, -37 / 20])
    (by decide) (by decide) (by decide) (by decide) (by decide) (by decide +kernel) (by decide +kernel)
  exact ⟨_, _, _, _, _, _, _, _, st0, st, st0', st', h, rfl, (show 4 ∣ 12 by decide), g⟩

/-- Nor for a block size of 1: the first sample of a source that reaches the reference microphone at
once is in its whole past (C15), and with it in the filtered reference. -/
theorem C181_violated_past : ∃ (cfg : SimCfg ℚ (IrMat ℚ) (Fir ℚ) Nat Unit (FastSt ℚ) (DData ℚ (FastSt ℚ) ℚ) (DOut ℚ ℚ)) (q : FxPar ℚ)
    (Sp : IrMat ℚ) (srcs srcs' : String → Nat) (f0 : Fir ℚ) (k n : Nat) (st0 st st0' st' : LateF),
    LaterFast cfg q Sp srcs srcs' () f0 [] [] k n st0 st st0' st' ∧ q.bs = 1 ∧ q.L ∣ cfg.B ∧
    st.eng.proc.ctrl.mat.ir 0 0 = [-22 / 13, -85 / 78] ∧ st'.eng.proc.ctrl.mat.ir 0 0 = [-7 / 4, -551 / 624] := by
  obtain ⟨st0, st, st0', st', h, g⟩ := lateFast_runs (B := 4) (bs := 1) (L := 2) (a := [1]) (k := 6) (n := 1)
    (w := [-22 / 13, -85 / 78]) (w' := [-7 / 4, -551 / 624]) (by decide) (by decide) (by decide) (by decide) (by decide)
    (by decide +kernel) (by decide +kernel)
  exact ⟨_, _, _, _, _, _, _, _, st0, st, st0', st', h, rfl, (show 2 ∣ 4 by decide), g⟩

/-- Blocks of two samples, a buffer that is no multiple of the filter length, and a source that is heard
by the reference microphone after two samples: the taps of the later run are those of the first one. -/
example : ∃ st0 st st0' st' : LateF, LaterFast (lateFast 9 (fxDemo 2 4 4 .block) [0, 0, 1]) (fxDemo 2 4 4 .block) (fxSec [1, -1])
      (fun _ => 10) (fun _ => 6) () demoFilt [] [] 12 1 st0 st st0' st' ∧
    st'.eng.proc.ctrl.mat.ir 0 0 = [-409 / 60, -319 / 60, -209 / 60, -131 / 60] ∧
    (∃ v, (lateFast 9 (fxDemo 2 4 4 .block) [0, 0, 1]).Produced st0 "error" 0 12 v ∧
      (lateFast 9 (fxDemo 2 4 4 .block) [0, 0, 1]).Produced st0' "error" 0 16 v) ∧
    (lateFast 9 (fxDemo 2 4 4 .block) [0, 0, 1]).Produced st0' "error" 0 3 0 := by
  obtain ⟨st0, st, st0', st', h, g⟩ := lateFast_runs (B := 9) (bs := 2) (L := 4) (a := [0, 0, 1]) (k := 12) (n := 1)
    (w := [-409 / 60, -319 / 60, -209 / 60, -131 / 60]) (w' := [-409 / 60, -319 / 60, -209 / 60, -131 / 60])
    (by decide) (by decide) (by decide) (by decide) (by decide) (by decide +kernel) (by decide +kernel)
  have hr : (match (lateFast 9 (fxDemo 2 4 4 .block) [0, 0, 1]).initWith (fastPrepare (fxDemo 2 4 4 .block)) (fun _ => 10) ()
      (fastInit (fxDemo 2 4 4 .block) (fxSec [1, -1])) demoFilt [] with
    | .error _ => none
    | .ok st0 => ((st0.eng.sig "ref").bind fun m => m[0]?).bind fun row => row[8]?) = some (0 : ℚ) := by decide +kernel
  have hr1 : (match (lateFast 9 (fxDemo 2 4 4 .block) [0, 0, 1]).initWith (fastPrepare (fxDemo 2 4 4 .block)) (fun _ => 10) ()
      (fastInit (fxDemo 2 4 4 .block) (fxSec [1, -1])) demoFilt [] with
    | .error _ => none
    | .ok st0 =>
      match (lateFast 9 (fxDemo 2 4 4 .block) [0, 0, 1]).engine st0.n st0.idx st0.eng with
      | .error _ => none
      | .ok e => if 0 ≤ st0.idx then ((e.sig "ref").bind fun m => m[0]?).bind fun row => row[st0.idx.toNat]? else none) =
        some (0 : ℚ) := by decide +kernel
  rw [h.init] at hr hr1
  have hquiet : ∀ c < 1, ∀ t < 2, t ≤ 12 → (lateFast 9 (fxDemo 2 4 4 .block) [0, 0, 1]).Produced st0 "ref" c t 0 := by
    intro c hc t ht _
    obtain rfl : c = 0 := by omega
    rcases (by omega : t = 0 ∨ t = 1) with rfl | rfl
    · exact at_of_row hr
    · dsimp only at hr1
      split at hr1
      · cases hr1
      · rename_i e he
        split at hr1
        · rename_i hi
          exact ⟨st0, e, rfl, he, hi, at_of_row hr1⟩
        · cases hr1
  obtain ⟨r1, -, r3, -, r5⟩ := C181_partial h hquiet
  have hm : (⟨"error", 1, .mic, false⟩ : ArrInfo) ∈ (lateFast 9 (fxDemo 2 4 4 .block) [0, 0, 1]).arrays :=
    List.mem_cons_of_mem _ List.mem_cons_self
  refine ⟨st0, st, st0', st', h, ?_, ?_, ?_⟩
  · rw [r5 0 (by decide) 0 (by decide)]
    exact g.1
  · exact r1 12 (by decide) ⟨"error", 1, .mic, false⟩ hm 0 (by decide)
  · exact r3 3 (by decide) ⟨"error", 1, .mic, false⟩ hm 0 (by decide)

end
end Verif

/-
C156: playing everything later with the adaptive filter `FxLMS`.
-/
import Verif.Lemmas.AdaptiveDelay
import Verif.Props.AdaptiveScale
import Verif.Spec.Later
namespace Verif

section
variable {R S A D O : Type} [Field R] {cfg : SimCfg R (IrMat R) (Fir R) S A (FxSt R) D O} {q : FxPar R} {Sp : IrMat R}
  {srcs srcs' : String → S} {arr : A} {f0 : Fir R} {ds ds' : List (Diag D)}
  {st0 st st0' st' : SimSt R (Fir R) S A (FxSt R) D O} {k n : Nat}

/-- What was recorded is determined. -/
theorem fx_recorded_unique (h : FxScene cfg q) (hi : cfg.initWith fxPrepare srcs arr (fxInit q Sp) f0 ds = .ok st0)
    (hk : cfg.steps k st0 = .ok st) {m : ArrInfo} (hm : m ∈ cfg.arrays) {c : Nat} (hc : c < m.num) {t : Int} (ht : t ≤ k) {v w : R}
    (hv : cfg.Recorded st0 m.name c t v) (hw : cfg.Recorded st0 m.name c t w) : v = w := by
  obtain ⟨hN, e, he, hI⟩ := fx_init h Sp hi
  obtain ⟨te, off, r, hT⟩ := GInv.steps (fx_sizes h hN) hI k hk
  have hB := h.buffer.1
  have hz : ∀ nm, nm ≠ "xf" → ∀ c t, t < -(cfg.B : Int) → (fxStart q cfg.B e).sig nm c t = 0 := by
    intro nm hn c t ht
    rw [fxStart_sig hn, tInit_before hN he _ _ _ (by omega) ht]
  rw [recorded_iff h hN hI hk hT.tape hz (h.own m hm) (hN.arr m hm) hc ht] at hv hw
  rw [← hv, ← hw]

/-- Nothing was recorded before the first step, if every source begins with a zero at time index 0. -/
theorem fx_past_silent (h : FxScene cfg q) (hi : cfg.initWith fxPrepare srcs arr (fxInit q Sp) f0 ds = .ok st0)
    (hk : cfg.steps k st0 = .ok st)
    (hfilt : cfg.filt = firOps R) (hpos : ∀ a ∈ cfg.arrays, 0 < a.num) (hsh : cfg.PathShape arr) (hw : cfg.warm = false)
    {x : String → Nat → Nat → R}
    (hx : ∀ b ∈ cfg.arrays, b.kind = .free → IsStream cfg.srcGet (srcs b.name) b.num (x b.name))
    (hx0 : ∀ b ∈ cfg.arrays, b.kind = .free → ∀ i < b.num, x b.name i 0 = 0)
    {m : ArrInfo} (hm : m ∈ cfg.arrays) (hmic : m.kind = .mic) {c : Nat} (hc : c < m.num) {t : Int} (ht : t < 0) {v : R}
    (hv : cfg.Recorded st0 m.name c t v) : v = 0 := by
  obtain ⟨hN, e, he, hI⟩ := fx_init h Sp hi
  obtain ⟨te, off, r, hT⟩ := GInv.steps (fx_sizes h hN) hI k hk
  have hB := h.buffer.1
  have hmm : m ∈ micsOf cfg.arrays := by
    unfold micsOf; rw [List.mem_filter]; exact ⟨hm, by simpa using hmic⟩
  have hz : ∀ nm, nm ≠ "xf" → ∀ c t, t < -(cfg.B : Int) → (fxStart q cfg.B e).sig nm c t = 0 := by
    intro nm hn c t ht
    rw [fxStart_sig hn, tInit_before hN he _ _ _ (by omega) ht]
  rw [recorded_iff h hN hI hk hT.tape hz (h.own m hm) (hN.arr m hm) hc (by omega)] at hv
  rw [gSteps_past (n := 0) (e := fxStart q cfg.B e) rfl (fx_past (fx_dims h hN) (h.own m hm)) k (e' := te)
    (by rw [Nat.zero_add]; exact hT.tape) c (t - 1) (by simp; omega), fxStart_sig (h.own m hm)] at hv
  rw [← hv]
  by_cases hb : -(cfg.B : Int) ≤ t - 1
  · obtain ⟨ir, g1, g2⟩ := prep_fir cfg hN hfilt hpos hsh (by omega) hmm he
    have a1 := g2 c (t - 1 + cfg.B).toNat hc (by omega)
    rw [show (((t - 1 + cfg.B).toNat : Nat) : Int) - cfg.B = t - 1 by omega] at a1
    rw [a1]
    refine List.sum_eq_zero fun v hv => ?_
    obtain ⟨s, hs, rfl⟩ := List.mem_map.1 hv
    unfold firOut
    refine List.sum_eq_zero fun v hv => ?_
    obtain ⟨i, hi, rfl⟩ := List.mem_map.1 hv
    refine List.sum_eq_zero fun v hv => ?_
    obtain ⟨j, hj, rfl⟩ := List.mem_map.1 hv
    rw [(g1 s hs).2] at hi
    have hi := List.mem_range.1 hi
    have hp : e.sig s.name i (-1) = 0 := by
      have := tInit_played hN he hx hs hi (j := 0) (by unfold SimCfg.prepNum; rw [hw]; simp)
      unfold SimCfg.prepNum at this
      rw [hw] at this
      simp only [Bool.false_eq_true, if_false] at this
      rw [show ((0 : Nat) : Int) - ((1 : Nat) : Int) = -1 by omega] at this
      rw [this]
      split
      · rename_i hf
        exact hx0 s (mem_sourcesOf hs).1 hf i hi
      · rfl
    rw [hw]
    simp only [Bool.false_eq_true, if_false, List.range_one, List.map_cons, List.map_nil]
    cases j with
    | zero => simp [colAt, hi, hp]
    | succ j => simp
  · exact tInit_before hN he _ _ _ (by omega) (by omega)

/-- C156, for a reference microphone that loses nothing at the start: with a block size of 1 it
must record nothing before time index 0, with a larger one nothing in the first block.  Two
simulations with `FxLMS` and arrays that stand still; in the second one every source plays zeros for
`n` update blocks first.  Then every channel of every array and of every contribution is silent for
this time and plays afterwards what it plays in the first simulation, and the control filters are the
same after as many more steps. -/
theorem C156_partial (hrun : LaterRuns cfg q Sp srcs srcs' arr f0 ds ds' k n st0 st st0' st')
    (hpast : ∀ c < q.nr, ∀ t < 0, cfg.Recorded st0 "ref" c t 0)
    (hquiet : q.bs ≠ 1 → ∀ c < q.nr, ∀ t < q.bs, t ≤ k → cfg.Produced st0 "ref" c t 0) :
    (∀ t ≤ k, ∀ b ∈ cfg.arrays, ∀ c < b.num, ∃ v, cfg.Produced st0 b.name c t v ∧
      cfg.Produced st0' b.name c (t + n * q.ub) v) ∧
    (cfg.contrib = true → ∀ t ≤ k, ∀ s ∈ cfg.arrays, ∀ m ∈ cfg.arrays, s.kind ≠ .mic → m.kind = .mic →
      ∀ c < m.num, ∃ v, cfg.Produced st0 (s.name ++ "~" ++ m.name) c t v ∧
        cfg.Produced st0' (s.name ++ "~" ++ m.name) c (t + n * q.ub) v) ∧
    (∀ t < n * q.ub, ∀ b ∈ cfg.arrays, ∀ c < b.num, cfg.Produced st0' b.name c t 0) ∧
    (cfg.contrib = true → ∀ t < n * q.ub, ∀ s ∈ cfg.arrays, ∀ m ∈ cfg.arrays, s.kind ≠ .mic → m.kind = .mic →
      ∀ c < m.num, cfg.Produced st0' (s.name ++ "~" ++ m.name) c t 0) ∧
    ∀ r < q.nr, ∀ l < q.nl, st'.eng.proc.ctrl.mat.ir r l = st.eng.proc.ctrl.mat.ir r l := by
  obtain ⟨h, hi, hi', hk, hn, hk', hfilt, hpos, hsh, hstat, hw, x, hxx⟩ := hrun
  have hx := fun b hb hf => (hxx b hb hf).1
  have hy' := fun b hb hf => (hxx b hb hf).2
  generalize hyd : (fun s c j => if j < n * q.ub then 0 else x s c (j - n * q.ub) : String → Nat → Nat → R) = y
  have hy : ∀ b ∈ cfg.arrays, b.kind = .free → IsStream cfg.srcGet (srcs' b.name) b.num (y b.name) := by
    intro b hb hf; rw [← hyd]; exact hy' b hb hf
  have hxy : ∀ s ∈ cfg.arrays, s.kind = .free → ∀ i < s.num, ∀ j,
      y s.name i j = if j < n * q.ub then 0 else x s.name i (j - n * q.ub) := by
    intro s _ _ i _ j; rw [← hyd]
  have hbs := h.bs
  obtain ⟨hub, hdvd⟩ := h.ub
  have hle := Nat.le_of_dvd hub hdvd
  have hd : q.bs ≤ n * q.ub := le_trans hle (Nat.le_mul_of_pos_left _ hn)
  obtain ⟨hN, -⟩ := fx_init h Sp hi
  obtain ⟨bref, hb, hbn, hbk, hbnum⟩ := h.ref
  obtain ⟨berr, hde, hdn, hdk, hdnum⟩ := h.err
  -- what the first simulation records
  obtain ⟨ρ, e, hρ, he, hq⟩ : ∃ ρ e : Nat → Int → R, (∀ c < q.nr, ∀ t ≤ (k : Int), cfg.Recorded st0 "ref" c t (ρ c t)) ∧
      (∀ c < q.ne, ∀ t ≤ (k : Int), cfg.Recorded st0 "error" c t (e c t)) ∧ QuietStart q.bs q.nr ρ := by
    obtain ⟨ρ, e, hρ, he⟩ := fx_recorded h hi hk
    refine ⟨fun c t => if t ≤ k then ρ c t else 0, e, fun c hc t ht => by dsimp only; rw [if_pos ht]; exact hρ c hc t ht, he, ?_, ?_⟩
    · intro c hc t ht
      dsimp only
      rw [if_pos (by omega)]
      have p1 := hρ c hc t (by omega)
      have p2 := hpast c hc t ht
      rw [← hbn] at p1 p2
      exact fx_recorded_unique h hi hk hb (by omega) (by omega) p1 p2
    · intro h1 c hc t ht
      dsimp only
      split
      · rename_i htk
        have p1 := hρ c hc t htk
        have p2 : cfg.Recorded st0 "ref" c t 0 := by
          by_cases h0 : 0 ≤ t
          · unfold SimCfg.Recorded
            rw [if_pos h0]
            exact hquiet h1 c hc t.toNat (by omega) (by omega)
          · exact hpast c hc t (by omega)
        rw [← hbn] at p1 p2
        exact fx_recorded_unique h hi hk hb (by omega) htk p1 p2
      · rfl
  obtain ⟨ρ', e', hρ', he'⟩ := fx_recorded h hi' hk'
  obtain ⟨hls, htaps⟩ := C143_stored h hi hk hρ he
  obtain ⟨hls', htaps'⟩ := C143_stored h hi' hk' hρ' he'
  have hloop := fun {m : ArrInfo} (hm : m ∈ cfg.arrays) (hmic : m.kind = .mic) =>
    C148_closed_loop h hi hk hfilt hpos hsh hx hρ he hm hmic
  have hloop' := fun {m : ArrInfo} (hm : m ∈ cfg.arrays) (hmic : m.kind = .mic) =>
    C148_closed_loop h hi' hk' hfilt hpos hsh hy hρ' he' hm hmic
  have hrec : ∀ {st0 : SimSt R (Fir R) S A (FxSt R) D O} {name : String} {c t : Nat} {v : R},
      cfg.Recorded st0 name c t v → cfg.Produced st0 name c t v := by
    intro st0 name c t v hv
    unfold SimCfg.Recorded at hv
    rwa [if_pos (by omega), Int.toNat_natCast] at hv
  have hpw : (if cfg.warm then cfg.B else 1 : Nat) = 1 := by rw [hw]; simp
  -- what the free sources play
  have hplay : ∀ s ∈ cfg.arrays, ∀ i < s.num, ∀ t : Int, cfg.played y s.name i t = cfg.played x s.name i (t - (n * q.ub : Nat)) := by
    intro s hs i hi t
    unfold SimCfg.played
    rw [hpw]
    by_cases hf : ∃ a ∈ cfg.arrays, a.name = s.name ∧ a.kind = .free
    · obtain ⟨s', b1, b2, b3⟩ := id hf
      rw [hN.inj s' b1 s hs b2] at b3
      simp only [hf, true_and]
      by_cases ht : -((1 : Nat) : Int) < t
      · rw [if_pos ht, hxy s hs b3 i hi]
        by_cases ht2 : -((1 : Nat) : Int) < t - (n * q.ub : Nat)
        · rw [if_pos ht2, if_neg (by omega)]
          congr 1
          omega
        · rw [if_neg ht2, if_pos (by omega)]
      · rw [if_neg ht, if_neg (by omega)]
    · simp only [hf, false_and, if_false]
  have hzero : ∀ (s : String) (i : Nat) (t : Int), t < 0 → cfg.played x s i t = 0 := by
    intro s i t ht
    unfold SimCfg.played
    rw [if_neg]
    rintro ⟨_, h⟩
    rw [hpw] at h
    omega
  have hstay : ∀ {m s : ArrInfo} {t : Nat} {h : IrMat R}, m ∈ cfg.arrays → s ∈ cfg.arrays → cfg.IrAt arr s m t h →
      cfg.arrPath arr s.name m.name = .ok h := by
    intro m s t h hm hs hi
    cases t with
    | zero => exact hi
    | succ t =>
      change if _ then _ else _ at hi
      rwa [if_neg (by rw [hstat s hs, hstat m hm]; simp)] at hi
  have hmem : ∀ s ∈ cfg.arrays.filter (fun s => s.kind != .mic), s ∈ cfg.arrays ∧ s.kind ≠ .mic := by
    intro s hs
    rw [List.mem_filter] at hs
    exact ⟨hs.1, by simpa using hs.2⟩
  generalize hY : adaptiveOut q.bs q.ub q.nr q.L
    (lmsTaps q.norm q.beta q.mu q.nr q.nl q.ne q.L q.ub q.bs (storedRef Sp q.bs ρ) e) ρ = Y at hls hloop
  generalize hY' : adaptiveOut q.bs q.ub q.nr q.L
    (lmsTaps q.norm q.beta q.mu q.nr q.nl q.ne q.L q.ub q.bs (storedRef Sp q.bs ρ') e') ρ' = Y' at hls' hloop'
  -- silence
  have hmute : ∀ (l : List ArrInfo) (ir : String → IrMat R) (u : String → Nat → Int → R) (c : Nat) (t : Int),
      (∀ s ∈ l, ∀ i < s.num, ∀ r ≤ t, u s.name i r = 0) → convSum l ir u c t = 0 := by
    intro l ir u c t hu
    unfold convSum
    refine List.sum_eq_zero fun v hv => ?_
    obtain ⟨s, hs, rfl⟩ := List.mem_map.1 hv
    refine List.sum_eq_zero fun v hv => ?_
    obtain ⟨i, hi, rfl⟩ := List.mem_map.1 hv
    refine List.sum_eq_zero fun v hv => ?_
    obtain ⟨j, hj, rfl⟩ := List.mem_map.1 hv
    rw [hu s hs i (List.mem_range.1 hi) _ (by omega), mul_zero]
  have hsil : ∀ t : Nat, t ≤ n * q.ub → (∀ c < q.nr, ∀ t' < (t : Int), ρ' c t' = 0) → ∀ s ∈ cfg.arrays, ∀ i < s.num,
      ∀ r ≤ (t : Int), r < (n * q.ub : Nat) → cfg.playedWith y Y' s.name i r = 0 := by
    intro t ht h1 s hs i hi r hr hrd
    unfold SimCfg.playedWith
    split
    · split
      · rfl
      · rw [← hY']
        unfold adaptiveOut
        split
        · rfl
        · refine Finset.sum_eq_zero fun c hc => Finset.sum_eq_zero fun a _ => ?_
          split
          · exact mul_zero _
          · rw [h1 c (Finset.mem_range.1 hc) _ (by omega), mul_zero]
    · rw [hplay s hs i hi, hzero _ _ _ (by omega)]
  have hsilent : ∀ t : Nat, t ≤ n * q.ub → ∀ c < q.nr, ∀ t' < (t : Int), ρ' c t' = 0 := by
    intro t
    induction t with
    | zero =>
      intro _ c hc t' ht'
      have p := hρ' c hc t' (by omega)
      rw [← hbn] at p
      refine fx_past_silent h hi' hk' hfilt hpos hsh hw hy (fun b hb hbf i hi => ?_) hb hbk (by omega) (by simpa using ht') p
      rw [hxy b hb hbf i hi, if_pos (by omega)]
    | succ t ih =>
      intro ht c hc t' ht'
      by_cases hlt : t' < t
      · exact ih (by omega) c hc t' hlt
      · obtain rfl : t' = t := by omega
        obtain ⟨ir, g1, g2⟩ := hloop' hb hbk t (by omega)
        have g := (g2 c (by omega)).1
        rw [hmute _ _ _ _ _ fun s hs i hi r hr => hsil t (by omega) (ih (by omega)) s (hmem s hs).1 i hi r hr (by omega), hbn] at g
        exact fx_unique h hi' hk' (by decide) (by omega) (hrec (hρ' c hc t (by omega))) g
  have hq' : QuietStart q.bs q.nr ρ' :=
    ⟨fun c hc t ht => hsilent 0 (by omega) c hc t (by simpa using ht),
      fun _ c hc t ht => hsilent q.bs hd c hc t ht⟩
  -- the sources up to time `t` from what was recorded before
  have hpl : ∀ t : Nat, (∀ c < q.nr, ∀ t' < (t : Int), ρ' c (t' + (n * q.ub : Nat)) = ρ c t') →
      (∀ c < q.ne, ∀ t' < (t : Int), 0 ≤ t' → e' c (t' + (n * q.ub : Nat)) = e c t') → ∀ s ∈ cfg.arrays, ∀ i < s.num,
      ∀ r ≤ (t : Int), cfg.playedWith y Y' s.name i (r + (n * q.ub : Nat)) = cfg.playedWith x Y s.name i r := by
    intro t h1 h2 s hs i hi r hr
    unfold SimCfg.playedWith
    by_cases hn : s.name = "loudspeaker"
    · rw [if_pos hn, if_pos hn]
      obtain ⟨l, hl, hln, -, hnum⟩ := h.ls
      rw [hN.inj s hs l hl (by rw [hn, hln]), hnum] at hi
      split
      · rw [if_pos (by omega)]
      · rw [← hY, ← hY']
        exact adaptiveOut_shift q hbs hub hdvd Sp hq hq' (fun c hc t' ht' => h1 c hc t' (by omega))
          (fun c hc t' ht' => h2 c hc t' (by omega)) hi (by omega)
    · rw [if_neg hn, if_neg hn, hplay s hs i hi]
      congr 1
      omega
  have hconv : ∀ (l : List ArrInfo) (i1 i2 : String → IrMat R) (c : Nat) (t t' : Int), (∀ s ∈ l, s ∈ cfg.arrays) →
      (∀ s ∈ l, i2 s.name = i1 s.name) → t' = t + (n * q.ub : Nat) → (∀ s ∈ cfg.arrays, ∀ i < s.num,
      ∀ r ≤ t, cfg.playedWith y Y' s.name i (r + (n * q.ub : Nat)) = cfg.playedWith x Y s.name i r) →
      convSum l i2 (cfg.playedWith y Y') c t' = convSum l i1 (cfg.playedWith x Y) c t := by
    intro l i1 i2 c t t' hl hi ht hp
    unfold convSum
    congr 1
    refine List.map_congr_left fun s hs => ?_
    rw [hi s hs]
    congr 1
    refine List.map_congr_left fun i hi => ?_
    congr 1
    refine List.map_congr_left fun j _ => ?_
    rw [← hp s (hl s hs) i (List.mem_range.1 hi) _ (show t - j ≤ t by omega), ht]
    congr 2
    omega
  have hmic : ∀ t ≤ k, (∀ c < q.nr, ∀ t' < (t : Int), ρ' c (t' + (n * q.ub : Nat)) = ρ c t') →
      (∀ c < q.ne, ∀ t' < (t : Int), 0 ≤ t' → e' c (t' + (n * q.ub : Nat)) = e c t') → ∀ m ∈ cfg.arrays, m.kind = .mic → ∀ c < m.num,
      (∃ v, cfg.Produced st0 m.name c t v ∧ cfg.Produced st0' m.name c (t + n * q.ub) v) ∧
      (cfg.contrib = true → ∀ s ∈ cfg.arrays, s.kind ≠ .mic →
        ∃ v, cfg.Produced st0 (s.name ++ "~" ++ m.name) c t v ∧
        cfg.Produced st0' (s.name ++ "~" ++ m.name) c (t + n * q.ub) v) := by
    intro t ht h1 h2 m hm hmm c hc
    obtain ⟨ir, g1, g2⟩ := hloop hm hmm t ht
    obtain ⟨ir', g1', g2'⟩ := hloop' hm hmm (t + n * q.ub) (by omega)
    have hir : ∀ s ∈ cfg.arrays, s.kind ≠ .mic → ir' s.name = ir s.name := by
      intro s hs hsk
      have a := hstay hm hs (g1 s hs hsk)
      rw [hstay hm hs (g1' s hs hsk)] at a
      exact Except.ok.inj a
    obtain ⟨p1, p2⟩ := g2 c hc
    obtain ⟨p1', p2'⟩ := g2' c hc
    refine ⟨⟨_, p1, ?_⟩, ?_⟩
    · rw [← hconv _ ir ir' c t _ (fun s hs => (hmem s hs).1) (fun s hs => hir s (hmem s hs).1 (hmem s hs).2) (Nat.cast_add _ _)
        (hpl t h1 h2)]
      exact p1'
    · intro hcon s hs hsk
      refine ⟨_, p2 hcon s hs hsk, ?_⟩
      rw [← hconv [s] ir ir' c t _ (fun s' hs' => by rw [List.mem_singleton.1 hs']; exact hs)
        (fun s' hs' => by rw [List.mem_singleton.1 hs']; exact hir s hs hsk) (Nat.cast_add _ _) (hpl t h1 h2)]
      exact p2' hcon s hs hsk
  -- what was recorded
  have hall : ∀ t : Nat, t ≤ k + 1 → (∀ c < q.nr, ∀ t' < (t : Int), ρ' c (t' + (n * q.ub : Nat)) = ρ c t') ∧
      ∀ c < q.ne, ∀ t' < (t : Int), 0 ≤ t' → e' c (t' + (n * q.ub : Nat)) = e c t' := by
    intro t
    induction t with
    | zero =>
      intro _
      refine ⟨fun c hc t' ht' => ?_, fun c hc t' ht' h0 => by omega⟩
      rw [hq.1 c hc t' (by simpa using ht'), hsilent (n * q.ub) (le_refl _) c hc _ (by omega)]
    | succ t ih =>
      intro ht
      obtain ⟨i1, i2⟩ := ih (by omega)
      refine ⟨fun c hc t' ht' => ?_, fun c hc t' ht' h0 => ?_⟩
      · by_cases hlt : t' < t
        · exact i1 c hc t' hlt
        · obtain rfl : t' = t := by omega
          obtain ⟨⟨v, g, g'⟩, -⟩ := hmic t (by omega) i1 i2 bref hb hbk c (by omega)
          rw [hbn] at g g'
          have w := hρ' c hc ((t + n * q.ub : Nat) : Int) (by omega)
          rw [← Nat.cast_add, fx_unique h hi hk (by decide) (by omega) (hrec (hρ c hc t (by omega))) g,
            fx_unique h hi' hk' (by decide) (by omega) (hrec w) g']
      · by_cases hlt : t' < t
        · exact i2 c hc t' hlt h0
        · obtain rfl : t' = t := by omega
          obtain ⟨⟨v, g, g'⟩, -⟩ := hmic t (by omega) i1 i2 berr hde hdk c (by omega)
          rw [hdn] at g g'
          have w := he' c hc ((t + n * q.ub : Nat) : Int) (by omega)
          rw [← Nat.cast_add, fx_unique h hi hk (by decide) (by omega) (hrec (he c hc t (by omega))) g,
            fx_unique h hi' hk' (by decide) (by omega) (hrec w) g']
  have hsrc : ∀ {b : ArrInfo}, b ∈ cfg.arrays → b.kind ≠ .mic → ∀ c < b.num, (∀ t ≤ k, cfg.Produced st0 b.name c t
      (cfg.playedWith x Y b.name c t)) ∧ ∀ t ≤ k + n * q.ub, cfg.Produced st0' b.name c t (cfg.playedWith y Y' b.name c t) := by
    intro b hb hbk c hc
    have hbs' : b ∈ sourcesOf cfg.arrays := by
      unfold sourcesOf; rw [List.mem_filter]; exact ⟨hb, by simpa using hbk⟩
    unfold SimCfg.playedWith
    by_cases hn : b.name = "loudspeaker"
    · obtain ⟨l, hl, hln, -, hnum⟩ := h.ls
      have hc' : c < q.nl := by rw [hN.inj b hb l hl (by rw [hn, hln]), hnum] at hc; exact hc
      rw [hn]
      refine ⟨fun t ht => ?_, fun t ht => ?_⟩
      · rw [if_pos rfl, if_neg (by omega), Int.toNat_natCast]
        exact hls c hc' t ht
      · rw [if_pos rfl, if_neg (by omega), Int.toNat_natCast]
        exact hls' c hc' t ht
    · refine ⟨fun t ht => ?_, fun t ht => ?_⟩
      · rw [if_neg hn]
        exact fx_source h hi hk hx hbs' hn hc ht
      · rw [if_neg hn]
        exact fx_source h hi' hk' hy hbs' hn hc ht
  refine ⟨?_, ?_, ?_, ?_, ?_⟩
  · intro t ht b hb c hc
    obtain ⟨i1, i2⟩ := hall t (by omega)
    by_cases hbk : b.kind = .mic
    · exact (hmic t ht i1 i2 b hb hbk c hc).1
    · obtain ⟨s1, s2⟩ := hsrc hb hbk c hc
      refine ⟨_, s1 t ht, ?_⟩
      rw [← hpl t i1 i2 b hb c hc t (le_refl _), ← Nat.cast_add]
      exact s2 _ (by omega)
  · intro hcon t ht s hs m hm hsk hmk c hc
    obtain ⟨i1, i2⟩ := hall t (by omega)
    exact (hmic t ht i1 i2 m hm hmk c hc).2 hcon s hs hsk
  · intro t ht b hb c hc
    have hs := hsil t (by omega) (hsilent t (by omega))
    by_cases hbk : b.kind = .mic
    · obtain ⟨ir, g1, g2⟩ := hloop' hb hbk t (by omega)
      have g := (g2 c hc).1
      rwa [hmute _ _ _ _ _ fun s hs' i hi r hr => hs s (hmem s hs').1 i hi r hr (by omega)] at g
    · have := (hsrc hb hbk c hc).2 t (by omega)
      rwa [hs b hb c hc t (le_refl _) (by omega)] at this
  · intro hcon t ht s hs m hm hsk hmk c hc
    have hs' := hsil t (by omega) (hsilent t (by omega))
    obtain ⟨ir, g1, g2⟩ := hloop' hm hmk t (by omega)
    have g := (g2 c hc).2 hcon s hs hsk
    rwa [hmute _ _ _ _ _ fun s' hs'' i hi r hr => by
      rw [List.mem_singleton.1 hs''] at hi ⊢
      exact hs' s hs i hi r hr (by omega)] at g
  · intro r hr l hl
    rw [htaps r hr l hl, htaps' r hr l hl]
    obtain ⟨i1, i2⟩ := hall (k + 1) (le_refl _)
    refine List.map_congr_left fun y _ => ?_
    have hX : ∀ r < q.nr, ∀ l < q.nl, ∀ m < q.ne, ∀ t' < (k : Int) + 1 + q.bs,
        storedRef Sp q.bs ρ' r l m (t' + (n * q.ub : Nat)) = storedRef Sp q.bs ρ r l m t' := by
      intro r hr l _ m _ t' ht'
      rw [storedRef_quiet hbs hq' hr, storedRef_quiet hbs hq hr]
      refine Finset.sum_congr rfl fun j _ => ?_
      rw [← i1 r hr _ (show t' - q.bs - j < (k + 1 : Nat) by push_cast; omega)]
      congr 2
      omega
    have hz : ∀ r < q.nr, ∀ l < q.nl, ∀ m < q.ne, ∀ t' < ((q.bs + n * q.ub : Nat) : Int), storedRef Sp q.bs ρ' r l m t' = 0 := by
      intro r hr l hl m hm t' ht'
      have := hX r hr l hl m hm (t' - (n * q.ub : Nat)) (by omega)
      rw [show t' - (n * q.ub : Nat) + (n * q.ub : Nat) = t' by omega] at this
      rw [this]
      exact storedRef_before hbs hq hr l m (by omega)
    by_cases hj : 1 ≤ k / q.bs
    · rw [updates_shift hbs hub hdvd hj]
      refine lmsTaps_shift (T := ((k + 1 : Nat) : Int)) (fun r hr l hl m hm t' ht' => hX r hr l hl m hm t' (by push_cast at ht'; omega))
        hz i2 hr hl y _ (.inr ?_)
      have a1 := Nat.div_mul_le_self ((k / q.bs - 1) * q.bs) q.ub
      have a2 := Nat.div_mul_le_self k q.bs
      have a4 : (k / q.bs - 1) * q.bs + q.bs = k / q.bs * q.bs := by
        rw [Nat.sub_mul, Nat.one_mul]
        have := Nat.mul_le_mul_right q.bs hj
        omega
      omega
    · have h3 : k < 1 * q.bs := by
        have := Nat.lt_of_not_le hj
        rwa [Nat.div_lt_iff_lt_mul hbs] at this
      have h4 := updates_before (t := k + n * q.ub) (n := n) (o := 1) hbs hub hdvd (by omega)
      rw [show k / q.bs - 1 = 0 by omega, Nat.zero_mul, Nat.zero_div]
      refine lmsTaps_silent (hz r hr l hl) y _ (.inr ?_)
      have := Nat.mul_le_mul_right q.ub h4
      omega

end

section
/-- A source that plays zeros until its state is 10 and then counts. -/
def lateCfg (q : FxPar ℚ) (a : List ℚ) : SimCfg ℚ (IrMat ℚ) (Fir ℚ) Nat Unit (FxSt ℚ) (DData ℚ (FxSt ℚ) ℚ) (DOut ℚ ℚ) :=
  { fxCfg 5 3 q a [1, 1] [1, -1] with
    contrib := true
    srcGet := fun p n => .ok (p + n, [(List.range n).map fun k => ((p + k + 1 - 10 : Nat) : ℚ)]) }

/-- The taps at the end of a run from the state `p` of the source. -/
def lateTaps (q : FxPar ℚ) (a : List ℚ) (p k : Nat) : Option (List ℚ) :=
  match (lateCfg q a).initWith fxPrepare (fun _ => p) () (fxInit q (fxSec [1, -1])) demoFilt [] with
  | .error _ => none
  | .ok st0 =>
    match (lateCfg q a).steps k st0 with
    | .error _ => none
    | .ok st => some (st.eng.proc.ctrl.mat.ir 0 0)

abbrev LateS := SimSt ℚ (Fir ℚ) Nat Unit (FxSt ℚ) (DData ℚ (FxSt ℚ) ℚ) (DOut ℚ ℚ)

theorem late_ends {q : FxPar ℚ} {a : List ℚ} {p k : Nat} {w : List ℚ} (h : lateTaps q a p k = some w) :
    ∃ st0 st : LateS, (lateCfg q a).initWith fxPrepare (fun _ => p) () (fxInit q (fxSec [1, -1])) demoFilt [] = .ok st0 ∧
      (lateCfg q a).steps k st0 = .ok st ∧ st.eng.proc.ctrl.mat.ir 0 0 = w := by
  unfold lateTaps at h
  split at h
  · cases h
  · rename_i st0 h0
    split at h
    · cases h
    · rename_i st hk
      exact ⟨st0, st, h0, hk, Option.some.inj h⟩

theorem late_stream {q : FxPar ℚ} {a : List ℚ} (p : Nat) :
    IsStream (lateCfg q a).srcGet p 1 fun _ t => ((p + t + 1 - 10 : Nat) : ℚ) := by
  refine isStream_of_inv (fun off s => s = p + off) rfl ?_
  rintro off s n rfl
  refine ⟨p + off + n, ?_, by omega⟩
  simp only [lateCfg, blockOf, List.range_one, List.map_cons, List.map_nil, Nat.add_assoc]

/-- Two runs of this scene, the source of the second one `n` update blocks later. -/
theorem late_runs {bs ub L : Nat} {norm : FxNorm} {a : List ℚ} (h1 : 0 < L) (h2 : 0 < bs) (h3 : 0 < ub ∧ bs ∣ ub)
    (h5 : bs + 1 ≤ 5 ∧ ub + L + bs ≤ 5 + 2) {k n : Nat} (hn : 0 < n) (hn' : n * ub ≤ 10) {w w' : List ℚ}
    (hw : lateTaps (fxDemo bs ub L norm) a 10 k = some w)
    (hw' : lateTaps (fxDemo bs ub L norm) a (10 - n * ub) (k + n * ub) = some w') :
    ∃ st0 st st0' st' : LateS, LaterRuns (lateCfg (fxDemo bs ub L norm) a) (fxDemo bs ub L norm) (fxSec [1, -1]) (fun _ => 10)
      (fun _ => 10 - n * ub) () demoFilt [] [] k n st0 st st0' st' ∧
      st.eng.proc.ctrl.mat.ir 0 0 = w ∧ st'.eng.proc.ctrl.mat.ir 0 0 = w' := by
  obtain ⟨st0, st, g1, g2, g3⟩ := late_ends hw
  obtain ⟨st0', st', g1', g2', g3'⟩ := late_ends hw'
  have hc : FxScene (fxCfg 5 3 (fxDemo bs ub L norm) a [1, 1] [1, -1]) (fxDemo bs ub L norm) :=
    fxCfg_scene h1 h2 h3 ⟨by decide, .inl (by decide)⟩ ⟨h5.1, by omega⟩
  refine ⟨st0, st, st0', st', ⟨⟨rfl, hc.ref, hc.err, hc.ls, hc.own, hc.nr, hc.nl, hc.ne, hc.L, hc.bs, hc.ub, hc.chunk, hc.buffer, hc.regular⟩,
    g1, g1', g2, hn, g2', rfl, ?_, ?_, ?_, rfl, fun _ _ t => ((10 + t + 1 - 10 : Nat) : ℚ), ?_⟩, g3, g3'⟩
  · intro b hb
    simp only [lateCfg, fxCfg, List.mem_cons, List.not_mem_nil, or_false] at hb
    rcases hb with rfl | rfl | rfl | rfl <;> decide
  · intro n a _ s m h hs hm hp
    cases hp
    simp only [lateCfg, fxCfg, List.mem_cons, List.not_mem_nil, or_false] at hm
    rcases hm with rfl | rfl | rfl | rfl <;> rfl
  · intro b hb
    simp only [lateCfg, fxCfg, List.mem_cons, List.not_mem_nil, or_false] at hb
    rcases hb with rfl | rfl | rfl | rfl <;> rfl
  · intro b hb hbk
    have hnum : b.num = 1 := by
      simp only [lateCfg, fxCfg, List.mem_cons, List.not_mem_nil, or_false] at hb
      rcases hb with rfl | rfl | rfl | rfl
      · cases hbk
      · cases hbk
      · rfl
      · cases hbk
    rw [hnum]
    refine ⟨late_stream 10, ?_⟩
    have e : (fun (c j : Nat) => if j < n * (fxDemo bs ub L norm).ub then (0 : ℚ) else
        (fun _ _ t => ((10 + t + 1 - 10 : Nat) : ℚ) : String → Nat → Nat → ℚ) b.name c (j - n * (fxDemo bs ub L norm).ub)) =
        fun _ t => ((10 - n * ub + t + 1 - 10 : Nat) : ℚ) := by
      have hu : (fxDemo bs ub L norm).ub = ub := rfl
      rw [hu]
      funext c j
      by_cases hj : j < n * ub
      · rw [if_pos hj, show 10 - n * ub + j + 1 - 10 = 0 by omega, Nat.cast_zero]
      · rw [if_neg hj]
        dsimp only
        rw [show 10 + (j - n * ub) + 1 - 10 = 10 - n * ub + j + 1 - 10 by omega]
    rw [e]
    exact late_stream (10 - n * ub)

/-- C156 does not hold for a block size above 1: the first samples of the reference are left out
by the filter of the secondary paths (C143), and it matters whether these are silent. -/
theorem C156_violated_block : ∃ (cfg : SimCfg ℚ (IrMat ℚ) (Fir ℚ) Nat Unit (FxSt ℚ) (DData ℚ (FxSt ℚ) ℚ) (DOut ℚ ℚ)) (q : FxPar ℚ)
    (Sp : IrMat ℚ) (srcs srcs' : String → Nat) (f0 : Fir ℚ) (k n : Nat) (st0 st st0' st' : LateS),
    LaterRuns cfg q Sp srcs srcs' () f0 [] [] k n st0 st st0' st' ∧ q.bs = 2 ∧
    st.eng.proc.ctrl.mat.ir 0 0 = [-163 / 60, -11 / 6] ∧ st'.eng.proc.ctrl.mat.ir 0 0 = [-23 / 4, -9 / 2] := by
  obtain ⟨st0, st, st0', st', h, g⟩ := late_runs (bs := 2) (ub := 2) (L := 2) (norm := .sample) (a := [1]) (k := 6) (n := 1)
    (w := [-163 / 60, -11 / 6]) (w' := [-23 / 4, -9 / 2]) (by decide) (by decide) (by decide) (by decide) (by decide) (by decide)
    (by decide +kernel) (by decide +kernel)
  exact ⟨_, _, _, _, _, _, _, _, st0, st, st0', st', h, rfl, g⟩

/-- Nor for a block size of 1: the first sample of a source that reaches the reference microphone at
once is in its whole past (C15), and with it in the filtered reference. -/
theorem C156_violated_past : ∃ (cfg : SimCfg ℚ (IrMat ℚ) (Fir ℚ) Nat Unit (FxSt ℚ) (DData ℚ (FxSt ℚ) ℚ) (DOut ℚ ℚ)) (q : FxPar ℚ)
    (Sp : IrMat ℚ) (srcs srcs' : String → Nat) (f0 : Fir ℚ) (k n : Nat) (st0 st st0' st' : LateS),
    LaterRuns cfg q Sp srcs srcs' () f0 [] [] k n st0 st st0' st' ∧ q.bs = 1 ∧
    st.eng.proc.ctrl.mat.ir 0 0 = [-71 / 24, -41 / 24] ∧ st'.eng.proc.ctrl.mat.ir 0 0 = [-145 / 48, -109 / 48] := by
  obtain ⟨st0, st, st0', st', h, g⟩ := late_runs (bs := 1) (ub := 1) (L := 2) (norm := .sample) (a := [1]) (k := 6) (n := 1)
    (w := [-71 / 24, -41 / 24]) (w' := [-145 / 48, -109 / 48]) (by decide) (by decide) (by decide) (by decide) (by decide)
    (by decide) (by decide +kernel) (by decide +kernel)
  exact ⟨_, _, _, _, _, _, _, _, st0, st, st0', st', h, rfl, g⟩

/-- A source 2 update blocks later, heard by the reference microphone after one sample. -/
example : ∃ st0 st st0' st' : LateS, LaterRuns (lateCfg (fxDemo 1 1 2 .sample) [0, 1]) (fxDemo 1 1 2 .sample) (fxSec [1, -1])
      (fun _ => 10) (fun _ => 8) () demoFilt [] [] 6 2 st0 st st0' st' ∧
    st'.eng.proc.ctrl.mat.ir 0 0 = [-32 / 9, -83 / 36] ∧
    (∃ v, (lateCfg (fxDemo 1 1 2 .sample) [0, 1]).Produced st0 "error" 0 6 v ∧
      (lateCfg (fxDemo 1 1 2 .sample) [0, 1]).Produced st0' "error" 0 8 v) ∧
    (lateCfg (fxDemo 1 1 2 .sample) [0, 1]).Produced st0' "error" 0 1 0 := by
  obtain ⟨st0, st, st0', st', h, g⟩ := late_runs (bs := 1) (ub := 1) (L := 2) (norm := .sample) (a := [0, 1]) (k := 6) (n := 2)
    (w := [-32 / 9, -83 / 36]) (w' := [-32 / 9, -83 / 36]) (by decide) (by decide) (by decide) (by decide) (by decide)
    (by decide) (by decide +kernel) (by decide +kernel)
  have hpast : ∀ c < 1, ∀ t < 0, (lateCfg (fxDemo 1 1 2 .sample) [0, 1]).Recorded st0 "ref" c t 0 := by
    have hr : ∀ i < 4, (match (lateCfg (fxDemo 1 1 2 .sample) [0, 1]).initWith fxPrepare (fun _ => 10) ()
        (fxInit (fxDemo 1 1 2 .sample) (fxSec [1, -1])) demoFilt [] with
      | .error _ => none
      | .ok st0 => ((st0.eng.sig "ref").bind fun m => m[0]?).bind fun row => row[i]?) = some (0 : ℚ) := by decide +kernel
    rw [h.init] at hr
    intro c hc t ht
    obtain rfl : c = 0 := by omega
    unfold SimCfg.Recorded
    rw [if_neg (by omega)]
    split
    · rename_i hb
      have hb' : -5 < t := hb
      refine at_of_row (hr _ ?_)
      show ((5 : Nat) - 1 + t : Int).toNat < 4
      omega
    · rfl
  obtain ⟨r1, -, r3, -, r5⟩ := C156_partial h hpast (fun h1 => absurd rfl h1)
  refine ⟨st0, st, st0', st', h, ?_, ?_, ?_⟩
  · rw [r5 0 (by decide) 0 (by decide)]
    exact g.1
  · exact r1 6 (by decide) ⟨"error", 1, .mic, false⟩ (by simp [lateCfg, fxCfg]) 0 (by decide)
  · exact r3 1 (by decide) ⟨"error", 1, .mic, false⟩ (by simp [lateCfg, fxCfg]) 0 (by decide)

/-- Blocks of two samples, heard by the reference microphone after two samples. -/
example : ∃ st0 st st0' st' : LateS, LaterRuns (lateCfg (fxDemo 2 2 2 .sample) [0, 0, 1]) (fxDemo 2 2 2 .sample) (fxSec [1, -1])
      (fun _ => 10) (fun _ => 8) () demoFilt [] [] 6 1 st0 st st0' st' ∧
    st'.eng.proc.ctrl.mat.ir 0 0 = [-49 / 12, -11 / 6] := by
  obtain ⟨st0, st, st0', st', h, g⟩ := late_runs (bs := 2) (ub := 2) (L := 2) (norm := .sample) (a := [0, 0, 1]) (k := 6) (n := 1)
    (w := [-49 / 12, -11 / 6]) (w' := [-49 / 12, -11 / 6]) (by decide) (by decide) (by decide) (by decide) (by decide)
    (by decide) (by decide +kernel) (by decide +kernel)
  have hr : ∀ i < 5, (match (lateCfg (fxDemo 2 2 2 .sample) [0, 0, 1]).initWith fxPrepare (fun _ => 10) ()
      (fxInit (fxDemo 2 2 2 .sample) (fxSec [1, -1])) demoFilt [] with
    | .error _ => none
    | .ok st0 => ((st0.eng.sig "ref").bind fun m => m[0]?).bind fun row => row[i]?) = some (0 : ℚ) := by decide +kernel
  have hr1 : (match (lateCfg (fxDemo 2 2 2 .sample) [0, 0, 1]).initWith fxPrepare (fun _ => 10) ()
      (fxInit (fxDemo 2 2 2 .sample) (fxSec [1, -1])) demoFilt [] with
    | .error _ => none
    | .ok st0 =>
      match (lateCfg (fxDemo 2 2 2 .sample) [0, 0, 1]).engine st0.n st0.idx st0.eng with
      | .error _ => none
      | .ok e => if 0 ≤ st0.idx then ((e.sig "ref").bind fun m => m[0]?).bind fun row => row[st0.idx.toNat]? else none) =
        some (0 : ℚ) := by decide +kernel
  rw [h.init] at hr hr1
  have hpast : ∀ c < 1, ∀ t < 0, (lateCfg (fxDemo 2 2 2 .sample) [0, 0, 1]).Recorded st0 "ref" c t 0 := by
    intro c hc t ht
    obtain rfl : c = 0 := by omega
    unfold SimCfg.Recorded
    rw [if_neg (by omega)]
    split
    · rename_i hb
      have hb' : -5 < t := hb
      refine at_of_row (hr _ ?_)
      show ((5 : Nat) - 1 + t : Int).toNat < 5
      omega
    · rfl
  have hquiet : ∀ c < 1, ∀ t < 2, t ≤ 6 → (lateCfg (fxDemo 2 2 2 .sample) [0, 0, 1]).Produced st0 "ref" c t 0 := by
    intro c hc t ht _
    obtain rfl : c = 0 := by omega
    rcases (by omega : t = 0 ∨ t = 1) with rfl | rfl
    · exact at_of_row (hr 4 (by decide))
    · dsimp only at hr1
      split at hr1
      · cases hr1
      · rename_i e he
        split at hr1
        · rename_i hi
          exact ⟨st0, e, rfl, he, hi, at_of_row hr1⟩
        · cases hr1
  obtain ⟨-, -, -, -, r5⟩ := C156_partial h hpast (fun _ => hquiet)
  refine ⟨st0, st, st0', st', h, ?_⟩
  rw [r5 0 (by decide) 0 (by decide)]
  exact g.1

end
end Verif

/-
C182: runs with the adaptive filter `FastBlockFxLMS` do not depend on how the channels of the arrays are numbered.
-/
import Verif.Lemmas.FastRenumber
import Verif.Props.AdaptiveRenumber
import Verif.Props.FastScale
namespace Verif

section
variable {R S A D O : Type} [Field R] {cfg : SimCfg R (IrMat R) (Fir R) S A (FastSt R) D O} {q : FxPar R} {Sp : IrMat R}
  {srcs srcs' : String → S} {arr : A} {f0 : Fir R} {ds ds' : List (Diag D)}
  {st0 st st0' st' : SimSt R (Fir R) S A (FastSt R) D O} {k : Nat} {π : String → Nat → Nat}

theorem renumberedFast_scene (h : FastScene cfg q) : FastScene (cfg.renumbered π) q :=
  ⟨h.proc, h.ref, h.err, h.ls, h.own, h.nr, h.nl, h.ne, h.L, h.bs, h.ub, h.chunk, h.buffer, h.regular⟩

/-- The microphones before the first step. -/
theorem fast_past_renumber {Sp' : IrMat R} (hπ : ∀ b ∈ cfg.arrays, Renumbers (π b.name) b.num) (h : FastScene cfg q)
    (hi : cfg.initWith (fastPrepare q) srcs arr (fastInit q Sp) f0 ds = .ok st0)
    (hi' : (cfg.renumbered π).initWith (fastPrepare q) srcs' arr (fastInit q Sp') f0 ds' = .ok st0')
    (hk : cfg.steps k st0 = .ok st) (hk' : (cfg.renumbered π).steps k st0' = .ok st')
    (hfilt : cfg.filt = firOps R) (hpos : ∀ a ∈ cfg.arrays, 0 < a.num) (hsh : cfg.PathShape arr) {x : String → Nat → Nat → R}
    (hx : ∀ b ∈ cfg.arrays, b.kind = .free → IsStream cfg.srcGet (srcs b.name) b.num (x b.name))
    (hx' : ∀ b ∈ cfg.arrays, b.kind = .free → IsStream cfg.srcGet (srcs' b.name) b.num fun c j => x b.name (π b.name c) j)
    {m : ArrInfo} (hm : m ∈ cfg.arrays) (hmic : m.kind = .mic) {c : Nat} (hc : c < m.num) {t : Int} (ht : t < 0) {v w : R}
    (hv : cfg.Recorded st0 m.name (π m.name c) t v)
    (hw : (cfg.renumbered π).Recorded st0' m.name c t w) : w = v := by
  have h' : FastScene (cfg.renumbered π) q := renumberedFast_scene h
  obtain ⟨hN, e, he, hI⟩ := fast_begin h Sp hi
  obtain ⟨hN', e', he', hI'⟩ := fast_begin h' Sp' hi'
  obtain ⟨te, off, r, hT⟩ := GInv.steps (fast_sizes h hN) hI k hk
  obtain ⟨te', off', r', hT'⟩ := GInv.steps (fast_sizes h' hN') hI' k hk'
  have hB := h.buffer.1
  have hmm : m ∈ micsOf cfg.arrays := by
    unfold micsOf; rw [List.mem_filter]; exact ⟨hm, by simpa using hmic⟩
  have hz : ∀ nm, nm ≠ "xf" → ∀ c t, t < -(cfg.B : Int) → (fastStart q Sp cfg.B e).sig nm c t = 0 := by
    intro nm hn c t ht
    rw [fastStart_sig hn, tInit_before hN he _ _ _ (by omega) ht]
  have hz' : ∀ nm, nm ≠ "xf" → ∀ c t, t < -(cfg.B : Int) → (fastStart q Sp' cfg.B e').sig nm c t = 0 := by
    intro nm hn c t ht
    rw [fastStart_sig hn, tInit_before hN' he' _ _ _ (show 1 ≤ cfg.B by omega) ht]
  have hc' := (hπ m hm).1 c hc
  rw [fast_recorded_iff h hN hI hk hT.tape hz (h.own m hm) (hN.arr m hm) hc' (by omega)] at hv
  rw [fast_recorded_iff h' hN' hI' hk' hT'.tape hz' (h.own m hm) (hN'.arr m hm) hc (by omega)] at hw
  rw [gSteps_past (n := 0) (e := fastStart q Sp cfg.B e) rfl (fast_past (fast_dims h hN) h.ub.1 (h.own m hm)) k (e' := te)
    (by rw [Nat.zero_add]; exact hT.tape) (π m.name c) (t - 1) (by simp; omega), fastStart_sig (h.own m hm)] at hv
  have hp' := gSteps_past (n := 0) (e := fastStart q Sp' cfg.B e') rfl (fast_past (fast_dims h' hN') h'.ub.1 (h.own m hm)) k (e' := te')
    (by rw [Nat.zero_add]; exact hT'.tape) c (t - 1) (by simp; omega)
  rw [fastStart_sig (h.own m hm)] at hp'
  rw [hp'] at hw
  rw [← hv, ← hw]
  by_cases hb : -(cfg.B : Int) ≤ t - 1
  · have := tInit_renumber (x' := fun s c j => x s (π s c) j) hπ hN hN' hfilt hpos hsh (by omega) he he' hx hx'
      (fun _ _ _ _ _ _ => rfl) hmm hc (i := (t - 1 + cfg.B).toNat) (by omega)
    rwa [show (((t - 1 + cfg.B).toNat : Nat) : Int) - cfg.B = t - 1 by omega] at this
  · rw [tInit_before hN he _ _ _ (by omega) (by omega),
      tInit_before hN' he' _ _ _ (show 1 ≤ cfg.B by omega) (show t - 1 < -(cfg.B : Int) by omega)]

/-- C182. Two simulations with `FastBlockFxLMS`: in the second the channels of every array are numbered in
another order (positions and with them the impulse responses, channels of the sources,
secondary paths given to the processor).  Then every channel of every array signal and of every
contribution is that of the first simulation with its old number, and so are the control filters. -/
theorem C182_renumber (hπ : ∀ b ∈ cfg.arrays, Renumbers (π b.name) b.num) (h : FastScene cfg q)
    (hi : cfg.initWith (fastPrepare q) srcs arr (fastInit q Sp) f0 ds = .ok st0)
    (hi' : (cfg.renumbered π).initWith (fastPrepare q) srcs' arr
      (fastInit q (Sp.renumber (π "loudspeaker") (π "error"))) f0 ds' = .ok st0')
    (hk : cfg.steps k st0 = .ok st) (hk' : (cfg.renumbered π).steps k st0' = .ok st')
    (hfilt : cfg.filt = firOps R) (hpos : ∀ a ∈ cfg.arrays, 0 < a.num) (hsh : cfg.PathShape arr) {x : String → Nat → Nat → R}
    (hx : ∀ b ∈ cfg.arrays, b.kind = .free → IsStream cfg.srcGet (srcs b.name) b.num (x b.name))
    (hx' : ∀ b ∈ cfg.arrays, b.kind = .free → IsStream cfg.srcGet (srcs' b.name) b.num fun c j => x b.name (π b.name c) j) :
    (∀ t ≤ k, ∀ b ∈ cfg.arrays, ∀ c < b.num, ∃ v, cfg.Produced st0 b.name (π b.name c) t v ∧
      (cfg.renumbered π).Produced st0' b.name c t v) ∧
    (cfg.contrib = true → ∀ t ≤ k, ∀ s ∈ cfg.arrays, ∀ m ∈ cfg.arrays, s.kind ≠ .mic → m.kind = .mic →
      ∀ c < m.num, ∃ v, cfg.Produced st0 (s.name ++ "~" ++ m.name) (π m.name c) t v ∧
        (cfg.renumbered π).Produced st0' (s.name ++ "~" ++ m.name) c t v) ∧
    ∀ r < q.nr, ∀ l < q.nl, st'.eng.proc.ctrl.mat.ir r l = st.eng.proc.ctrl.mat.ir (π "ref" r) (π "loudspeaker" l) := by
  have h' : FastScene (cfg.renumbered π) q := renumberedFast_scene h
  obtain ⟨ρ, e, hρ, he⟩ := fast_recorded h hi hk
  obtain ⟨ρ', e', hρ', he'⟩ := fast_recorded h' hi' hk'
  have hsh' : (cfg.renumbered π).PathShape arr := renumbered_shape hsh
  have hbs := h.bs
  obtain ⟨hls, htaps⟩ := C175_adaptive h hi hk hρ he
  obtain ⟨hls', htaps'⟩ := C175_adaptive h' hi' hk' hρ' he'
  have hloop := fun {m : ArrInfo} (hm : m ∈ cfg.arrays) (hmic : m.kind = .mic) =>
    C175_closed_loop h hi hk hfilt hpos hsh hx hρ he hm hmic
  have hloop' := fun {m : ArrInfo} (hm : m ∈ cfg.arrays) (hmic : m.kind = .mic) =>
    C175_closed_loop h' hi' hk' hfilt hpos hsh' (x := fun s c j => x s (π s c) j) hx' hρ' he' hm hmic
  obtain ⟨hN, -⟩ := fast_begin h Sp hi
  have πr : Renumbers (π "ref") q.nr := by
    obtain ⟨b, hb, hbn, -, hbm⟩ := h.ref
    have := hπ b hb
    rwa [hbn, hbm] at this
  have πm : Renumbers (π "error") q.ne := by
    obtain ⟨b, hb, hbn, -, hbm⟩ := h.err
    have := hπ b hb
    rwa [hbn, hbm] at this
  have πl : Renumbers (π "loudspeaker") q.nl := by
    obtain ⟨b, hb, hbn, -, hbm⟩ := h.ls
    have := hπ b hb
    rwa [hbn, hbm] at this
  generalize hY : adaptiveOut q.bs q.L q.nr q.L
    (lmsTaps .block q.beta q.mu q.nr q.nl q.ne q.L q.L q.bs (storedFrom (Sp.firstTaps (q.L - q.bs)) (cfg.B % q.L) q.bs ρ) e) ρ = Y at hls hloop
  generalize hY' : adaptiveOut q.bs q.L q.nr q.L
    (lmsTaps .block q.beta q.mu q.nr q.nl q.ne q.L q.L q.bs
      (storedFrom ((Sp.renumber (π "loudspeaker") (π "error")).firstTaps (q.L - q.bs)) ((cfg.renumbered π).B % q.L) q.bs ρ') e') ρ' = Y' at hls' hloop'
  have hrec : ∀ {name : String} {c t : Nat} {v : R}, cfg.Recorded st0 name c t v → cfg.Produced st0 name c t v := by
    intro name c t v hv
    unfold SimCfg.Recorded at hv
    rwa [if_pos (by omega), Int.toNat_natCast] at hv
  have hrec' : ∀ {name : String} {c t : Nat} {v : R},
      (cfg.renumbered π).Recorded st0' name c t v → (cfg.renumbered π).Produced st0' name c t v := by
    intro name c t v hv
    unfold SimCfg.Recorded at hv
    rwa [if_pos (by omega), Int.toNat_natCast] at hv
  -- the sources up to time `t` from what was recorded before
  have hplay : ∀ t : Nat, (∀ c < q.nr, ∀ t' < (t : Int), ρ' c t' = ρ (π "ref" c) t') →
      (∀ c < q.ne, ∀ t' < (t : Int), e' c t' = e (π "error" c) t') → ∀ s ∈ cfg.arrays, ∀ i < s.num, ∀ r ≤ (t : Int),
      (cfg.renumbered π).playedWith (fun s c j => x s (π s c) j) Y' s.name i r =
        cfg.playedWith x Y s.name (π s.name i) r := by
    intro t h1 h2 s hs i hi r hr
    unfold SimCfg.playedWith
    by_cases hn : s.name = "loudspeaker"
    · rw [if_pos hn, if_pos hn]
      obtain ⟨l, hl, hln, -, hnum⟩ := h.ls
      rw [hN.inj s hs l hl (by rw [hn, hln]), hnum] at hi
      split
      · rfl
      · rw [← hY, ← hY', hn]
        exact adaptiveOut_renumberFast q hbs (Sp.firstTaps (q.L - q.bs)) (cfg.B % q.L) πr πl πm (fun c hc t' ht' => h1 c hc t' (by omega))
          (fun c hc t' ht' => h2 c hc t' (by omega)) hi
    · rw [if_neg hn, if_neg hn]
      rfl
  have hmem : ∀ s ∈ cfg.arrays.filter (fun s => s.kind != .mic), s ∈ cfg.arrays ∧ s.kind ≠ .mic := by
    intro s hs
    rw [List.mem_filter] at hs
    exact ⟨hs.1, by simpa using hs.2⟩
  have hmic : ∀ t ≤ k, (∀ c < q.nr, ∀ t' < (t : Int), ρ' c t' = ρ (π "ref" c) t') →
      (∀ c < q.ne, ∀ t' < (t : Int), e' c t' = e (π "error" c) t') → ∀ m ∈ cfg.arrays, m.kind = .mic → ∀ c < m.num,
      (∃ v, cfg.Produced st0 m.name (π m.name c) t v ∧ (cfg.renumbered π).Produced st0' m.name c t v) ∧
      (cfg.contrib = true → ∀ s ∈ cfg.arrays, s.kind ≠ .mic →
        ∃ v, cfg.Produced st0 (s.name ++ "~" ++ m.name) (π m.name c) t v ∧
        (cfg.renumbered π).Produced st0' (s.name ++ "~" ++ m.name) c t v) := by
    intro t ht h1 h2 m hm hmm c hc
    obtain ⟨ir, g1, g2⟩ := hloop hm hmm t ht
    obtain ⟨ir', g1', g2'⟩ := hloop' hm hmm t ht
    have hir : ∀ s ∈ cfg.arrays, s.kind ≠ .mic → ∀ i, (ir' s.name).ir i c = (ir s.name).ir (π s.name i) (π m.name c) := by
      intro s hs hsk i
      obtain ⟨h0, b1, b2⟩ := renumbered_irAt (g1' s hs hsk)
      rw [b2, IrAt.unique b1 (g1 s hs hsk)]
      rfl
    obtain ⟨p1, p2⟩ := g2 (π m.name c) ((hπ m hm).1 c hc)
    obtain ⟨p1', p2'⟩ := g2' c hc
    refine ⟨⟨_, p1, ?_⟩, ?_⟩
    · rw [← convSum_renumber (π := π) (ir' := ir') (fun s hs => hπ s (hmem s hs).1)
        (fun s hs i _ => hir s (hmem s hs).1 (hmem s hs).2 i)
        (fun s hs i hi r hr => hplay t h1 h2 s (hmem s hs).1 i hi r hr)]
      exact p1'
    · intro hcon s hs hsk
      refine ⟨_, p2 hcon s hs hsk, ?_⟩
      rw [← convSum_renumber (π := π) (ir' := ir') (c := c) (fun s' hs' => ?_) (fun s' hs' i hi => ?_) (fun s' hs' i hi r hr => ?_)]
      · exact p2' hcon s hs hsk
      · rw [List.mem_singleton.1 hs']; exact hπ s hs
      · rw [List.mem_singleton.1 hs']; exact hir s hs hsk i
      · rw [List.mem_singleton.1 hs'] at hi ⊢
        exact hplay t h1 h2 s hs i hi r hr
  -- what was recorded
  have hall : ∀ t : Nat, t ≤ k + 1 → (∀ c < q.nr, ∀ t' < (t : Int), ρ' c t' = ρ (π "ref" c) t') ∧
      ∀ c < q.ne, ∀ t' < (t : Int), e' c t' = e (π "error" c) t' := by
    intro t
    obtain ⟨b, hb, hbn, hbk, hbnum⟩ := h.ref
    obtain ⟨d, hd, hdn, hdk, hdnum⟩ := h.err
    induction t with
    | zero =>
      intro _
      refine ⟨fun c hc t' ht' => ?_, fun c hc t' ht' => ?_⟩
      · have p := hρ (π "ref" c) (πr.1 c hc) t' (by omega)
        have p' := hρ' c hc t' (by omega)
        rw [← hbn] at p p' ⊢
        exact fast_past_renumber hπ h hi hi' hk hk' hfilt hpos hsh hx hx' hb hbk (by omega) (by simpa using ht') p p'
      · have p := he (π "error" c) (πm.1 c hc) t' (by omega)
        have p' := he' c hc t' (by omega)
        rw [← hdn] at p p' ⊢
        exact fast_past_renumber hπ h hi hi' hk hk' hfilt hpos hsh hx hx' hd hdk (by omega) (by simpa using ht') p p'
    | succ t ih =>
      intro ht
      obtain ⟨i1, i2⟩ := ih (by omega)
      refine ⟨fun c hc t' ht' => ?_, fun c hc t' ht' => ?_⟩
      · by_cases hlt : t' < t
        · exact i1 c hc t' hlt
        · obtain rfl : t' = t := by omega
          obtain ⟨⟨v, g, g'⟩, -⟩ := hmic t (by omega) i1 i2 b hb hbk c (by omega)
          rw [hbn] at g g'
          rw [fast_unique h hi hk (by decide) (by omega) (hrec (hρ _ (πr.1 c hc) t (by omega))) g,
            fast_unique h' hi' hk' (by decide) (by omega) (hrec' (hρ' c hc t (by omega))) g']
      · by_cases hlt : t' < t
        · exact i2 c hc t' hlt
        · obtain rfl : t' = t := by omega
          obtain ⟨⟨v, g, g'⟩, -⟩ := hmic t (by omega) i1 i2 d hd hdk c (by omega)
          rw [hdn] at g g'
          rw [fast_unique h hi hk (by decide) (by omega) (hrec (he _ (πm.1 c hc) t (by omega))) g,
            fast_unique h' hi' hk' (by decide) (by omega) (hrec' (he' c hc t (by omega))) g']
  refine ⟨?_, ?_, ?_⟩
  · intro t ht b hb c hc
    obtain ⟨i1, i2⟩ := hall t (by omega)
    by_cases hbk : b.kind = .mic
    · exact (hmic t ht i1 i2 b hb hbk c hc).1
    · have hbs' : b ∈ sourcesOf cfg.arrays := by
        unfold sourcesOf; rw [List.mem_filter]; exact ⟨hb, by simpa using hbk⟩
      have hp := hplay t i1 i2 b hb c hc t (le_refl _)
      have hcp := (hπ b hb).1 c hc
      by_cases hn : b.name = "loudspeaker"
      · obtain ⟨l, hl, hln, -, hnum⟩ := h.ls
        have hc' : c < q.nl := by rw [hN.inj b hb l hl (by rw [hn, hln]), hnum] at hc; exact hc
        refine ⟨Y (π b.name c) t, by rw [hn]; exact hls _ (πl.1 c hc') t ht, ?_⟩
        have := hls' c hc' t ht
        unfold SimCfg.playedWith at hp
        rw [if_pos hn, if_pos hn, if_neg (by omega), if_neg (by omega), Int.toNat_natCast] at hp
        rw [← hp, hn]
        exact this
      · unfold SimCfg.playedWith at hp
        rw [if_neg hn, if_neg hn] at hp
        refine ⟨cfg.played x b.name (π b.name c) t, ?_, ?_⟩
        · exact fast_source h hi hk hx hbs' hn hcp ht
        · rw [← hp]
          exact fast_source h' hi' hk' (x := fun s c j => x s (π s c) j) hx' hbs' hn hc ht
  · intro hcon t ht s hs m hm hsk hmk c hc
    obtain ⟨i1, i2⟩ := hall t (by omega)
    exact (hmic t ht i1 i2 m hm hmk c hc).2 hcon s hs hsk
  · intro r hr l hl
    rw [htaps _ (πr.1 r hr) _ (πl.1 l hl), htaps' r hr l hl]
    obtain ⟨i1, i2⟩ := hall (k + 1) (le_refl _)
    refine List.map_congr_left fun y _ => ?_
    refine lmsTaps_renumber πr πl πm (X := storedFrom (Sp.firstTaps (q.L - q.bs)) (cfg.B % q.L) q.bs ρ)
      (X' := storedFrom ((Sp.renumber (π "loudspeaker") (π "error")).firstTaps (q.L - q.bs)) ((cfg.renumbered π).B % q.L) q.bs ρ')
      (T := ((k + 1 : Nat) : Int))
      (fun r hr l _ m _ t' ht' => storedFrom_renumber (S := Sp.firstTaps (q.L - q.bs)) (g := cfg.B % q.L) (πl := π "loudspeaker") (πm := π "error")
        hbs (fun u hu => i1 r hr u (by omega)) l m) i2 hr hl y _ ?_
    by_cases hj : 1 ≤ k / q.bs
    · right
      have a1 := Nat.div_mul_le_self ((k / q.bs - 1) * q.bs) q.L
      have a2 := Nat.div_mul_le_self k q.bs
      have a4 : (k / q.bs - 1) * q.bs + q.bs = k / q.bs * q.bs := by
        rw [Nat.sub_mul, Nat.one_mul]
        have := Nat.mul_le_mul_right q.bs hj
        omega
      omega
    · left
      rw [show k / q.bs - 1 = 0 by omega, Nat.zero_mul, Nat.zero_div]

end

section
abbrev DuoF := SimSt ℚ (Fir ℚ) Nat Unit (FastSt ℚ) (DData ℚ (FastSt ℚ) ℚ) (DOut ℚ ℚ)

/-- The model of the secondary paths in the processor. -/
def duoSec2 : IrMat ℚ := ⟨2, 2, fun i c => [1 + i - 2 * c, 1]⟩

def duoFast : Except PyErr (DuoF × DuoF) :=
  match (fastCfg duoCfg duoPar).initWith (fastPrepare duoPar) (fun _ => 0) () (fastInit duoPar duoSec2) demoFilt [] with
  | .error e => .error e
  | .ok st0 => ((fastCfg duoCfg duoPar).steps 7 st0).map fun st => (st0, st)

def duoFast' : Except PyErr (DuoF × DuoF) :=
  match ((fastCfg duoCfg duoPar).renumbered swapTwo).initWith (fastPrepare duoPar) (fun _ => 1) ()
      (fastInit duoPar (duoSec2.renumber (swapTwo "loudspeaker") (swapTwo "error"))) demoFilt [] with
  | .error e => .error e
  | .ok st0 => (((fastCfg duoCfg duoPar).renumbered swapTwo).steps 7 st0).map fun st => (st0, st)

def duoFastTaps (x : Except PyErr (DuoF × DuoF)) : List (List ℚ) :=
  match x with
  | .error _ => []
  | .ok p => [p.2.eng.proc.ctrl.mat.ir 0 0, p.2.eng.proc.ctrl.mat.ir 0 1]

theorem duoFast_scene : FastScene (fastCfg duoCfg duoPar) duoPar where
  proc := rfl
  ref := ⟨⟨"ref", 1, .mic, false⟩, by simp [fastCfg, SimCfg.withProc, duoCfg], rfl, rfl, rfl⟩
  err := ⟨⟨"error", 2, .mic, false⟩, by simp [fastCfg, SimCfg.withProc, duoCfg], rfl, rfl, rfl⟩
  ls := ⟨⟨"loudspeaker", 2, .ctrl, false⟩, by simp [fastCfg, SimCfg.withProc, duoCfg], rfl, rfl, rfl⟩
  own := by
    intro x hx
    simp only [fastCfg, SimCfg.withProc, duoCfg, List.mem_cons, List.not_mem_nil, or_false] at hx
    rcases hx with rfl | rfl | rfl | rfl <;> decide
  nr := by decide
  nl := by decide
  ne := by decide
  L := by decide
  bs := by decide
  ub := by decide
  chunk := by decide
  buffer := by decide
  regular := regular_pos one_pos

/-- Error microphones, loudspeakers and channels of the noise exchanged: the control filters of the
two loudspeakers have changed places, and so have the signals. -/
example : ∃ st0 st st0' st' : DuoF, duoFast = .ok (st0, st) ∧ duoFast' = .ok (st0', st') ∧
    st.eng.proc.ctrl.mat.ir 0 1 = [-1198009 / 2741123, -1205485 / 4307479] ∧
    st'.eng.proc.ctrl.mat.ir 0 0 = [-1198009 / 2741123, -1205485 / 4307479] ∧
    st'.eng.proc.ctrl.mat.ir 0 1 = [8273438 / 30152353, 5675531 / 30152353] ∧
    ∃ v, (fastCfg duoCfg duoPar).Produced st0 "error" 1 7 v ∧ ((fastCfg duoCfg duoPar).renumbered swapTwo).Produced st0' "error" 0 7 v := by
  have t1 : duoFastTaps duoFast =
      [[8273438 / 30152353, 5675531 / 30152353], [-1198009 / 2741123, -1205485 / 4307479]] := by decide +kernel
  have t2 : (duoFastTaps duoFast').length = 2 := by decide +kernel
  cases h1 : duoFast with
  | error x => rw [h1] at t1; cases t1
  | ok p =>
    cases h2 : duoFast' with
    | error x => rw [h2] at t2; cases t2
    | ok p' =>
      obtain ⟨st0, st⟩ := p
      obtain ⟨st0', st'⟩ := p'
      rw [h1] at t1
      simp only [duoFastTaps, List.cons.injEq, and_true] at t1
      have h1' := h1
      have h2' := h2
      unfold duoFast at h1'
      unfold duoFast' at h2'
      split at h1'
      · cases h1'
      · rename_i s0 hi
        split at h2'
        · cases h2'
        · rename_i s0' hi'
          cases hk : (fastCfg duoCfg duoPar).steps 7 s0 with
          | error x => rw [hk] at h1'; cases h1'
          | ok s =>
            rw [hk] at h1'
            cases h1'
            cases hk' : ((fastCfg duoCfg duoPar).renumbered swapTwo).steps 7 s0' with
            | error x => rw [hk'] at h2'; cases h2'
            | ok s' =>
              rw [hk'] at h2'
              cases h2'
              obtain ⟨g1, -, g3⟩ := C182_renumber (π := swapTwo) (x := fun _ c t => if c = 0 then ((t + 1 : Nat) : ℚ) else 1)
                (by intro b hb
                    simp only [fastCfg, SimCfg.withProc, duoCfg, List.mem_cons, List.not_mem_nil, or_false] at hb
                    rcases hb with rfl | rfl | rfl | rfl <;> exact ⟨by decide, by decide⟩)
                duoFast_scene hi hi' hk hk' rfl
                (by intro b hb
                    simp only [fastCfg, SimCfg.withProc, duoCfg, List.mem_cons, List.not_mem_nil, or_false] at hb
                    rcases hb with rfl | rfl | rfl | rfl <;> decide)
                (by intro n a _ s m h hs hm hp
                    simp only [fastCfg, SimCfg.withProc, duoCfg, List.mem_cons, List.not_mem_nil, or_false] at hs hm
                    cases hp
                    rcases hm with rfl | rfl | rfl | rfl <;> rcases hs with rfl | rfl | rfl | rfl <;> rfl)
                (by intro b hb hbk
                    obtain rfl := duo_free hb hbk
                    have := duo_stream 0
                    simp at this ⊢
                    exact this)
                (by intro b hb hbk
                    obtain rfl := duo_free hb hbk
                    have h := duo_stream 1
                    have e : ∀ c, swapTwo "noise" c = 0 ↔ c = 1 := by
                      intro c
                      show (if c = 0 then 1 else if c = 1 then 0 else c) = 0 ↔ c = 1
                      split <;> [omega; (split <;> omega)]
                    simp only [e]
                    simp at h ⊢
                    exact h)
              refine ⟨st0, st, st0', st', rfl, rfl, t1.2, ?_, ?_, ?_⟩
              · rw [g3 0 (by decide) 0 (by decide)]
                exact t1.2
              · rw [g3 0 (by decide) 1 (by decide)]
                exact t1.1
              · exact g1 7 (by decide) ⟨"error", 2, .mic, false⟩ (by simp [fastCfg, SimCfg.withProc, duoCfg]) 0 (by decide)

end
end Verif

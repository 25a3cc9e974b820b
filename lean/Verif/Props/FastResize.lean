/-
C178: simulations with `FastBlockFxLMS`, chunk size and buffer.
-/
import Verif.Lemmas.FastResize
import Verif.Props.FastExact
namespace Verif

section
variable {R IR F S A D O : Type} [Field R] {q : FxPar R} {Sp : IrMat R} {cfg : SimCfg R IR F S A (FastSt R) D O}
  {srcs : String → S} {arr : A} {f0 : F} {ds : List (Diag D)} {st0 st : SimSt R F S A (FastSt R) D O} {k : Nat}

/-- C178 in part, for the chunk size: two simulations with `FastBlockFxLMS` that differ in
`sim_chunk_size` only produce the same samples of every signal but the processor's own one and
leave the processor in the same state. -/
theorem C178_chunk_partial {C' : Nat} {ds' : List (Diag D)} {st0' st' : SimSt R F S A (FastSt R) D O} (h : FastScene cfg q)
    (h' : FastScene { cfg with C := C' } q)
    (hi : cfg.initWith (fastPrepare q) srcs arr (fastInit q Sp) f0 ds = .ok st0)
    (hi' : SimCfg.initWith { cfg with C := C' } (fastPrepare q) srcs arr (fastInit q Sp) f0 ds' = .ok st0')
    (hk : cfg.steps k st0 = .ok st) (hk' : SimCfg.steps { cfg with C := C' } k st0' = .ok st') :
    (∀ t ≤ k, ∀ name ≠ "xf", ∀ c v, SimCfg.Produced { cfg with C := C' } st0' name c t v ↔ cfg.Produced st0 name c t v) ∧
      st'.eng.proc = st.eng.proc := by
  obtain ⟨hN, e, he, hI⟩ := fast_begin h Sp hi
  obtain ⟨hN', e', he', hI'⟩ := fast_begin h' Sp hi'
  obtain ⟨te, off, r, hT⟩ := GInv.steps (fast_sizes h hN) hI k hk
  obtain ⟨te', off', r', hT'⟩ := GInv.steps (fast_sizes h' hN') hI' k hk'
  have h1 : e' = e := by
    have : SimCfg.tInit { cfg with C := C' } srcs arr (fastInit q Sp) f0 = cfg.tInit srcs arr (fastInit q Sp) f0 := rfl
    rw [this, he] at he'
    cases he'
    rfl
  subst h1
  have h2 : te' = te := by
    have g1 := hT.tape
    have g2 := hT'.tape
    have : ∀ n e, SimCfg.gSteps { cfg with C := C' } (fastTape (fast_dims h' hN') h'.ub.1) n e =
        cfg.gSteps (fastTape (fast_dims h hN) h.ub.1) n e := by
      intro n
      induction n with
      | zero => intro e; rfl
      | succ n ih =>
        intro e
        simp only [SimCfg.gSteps]
        rw [ih e]
        rfl
    rw [this] at g2
    rw [show (fastStart q Sp ({ cfg with C := C' } : SimCfg R IR F S A (FastSt R) D O).B e') = fastStart q Sp cfg.B e' from rfl, g1] at g2
    cases g2
    rfl
  subst h2
  constructor
  · intro t ht name hn c v
    rw [gProduced_iff (fast_sizes h hN) hI hk hT.tape ht (fast_past _ _ hn),
      gProduced_iff (fast_sizes h' hN') hI' hk' hT'.tape ht (fast_past _ _ hn)]
    rfl
  · rw [hT.eng, hT'.eng]
    rfl

end

section
variable {R S A D O : Type} [Field R] {q : FxPar R} {Sp : IrMat R} {srcs : String → S} {arr : A} {ds : List (Diag D)} {k : Nat}

/-- C178 in part, for the buffer and the chunk size: with `start_sources_before_0` false, two
simulations with `FastBlockFxLMS` that differ in `sim_buffer` and `sim_chunk_size` only produce
the same samples of every signal but the processor's own one and leave the processor in the same
state, if nothing is at the reference microphones at time 0 or if both buffers leave the same
remainder when divided by the filter length and hold two filter lengths. -/
theorem C178_buffer_partial {B' C' : Nat} {ds' : List (Diag D)} {cfg : SimCfg R (IrMat R) (Fir R) S A (FastSt R) D O}
    {f0 : Fir R} {st0 st st0' st' : SimSt R (Fir R) S A (FastSt R) D O} (h : FastScene cfg q)
    (h' : FastScene { cfg with B := B', C := C' } q) (hw : cfg.warm = false) (hfilt : cfg.filt = firOps R)
    (hpos : ∀ a ∈ cfg.arrays, 0 < a.num) (hsh : cfg.PathShape arr)
    (hi : cfg.initWith (fastPrepare q) srcs arr (fastInit q Sp) f0 ds = .ok st0)
    (hi' : SimCfg.initWith { cfg with B := B', C := C' } (fastPrepare q) srcs arr (fastInit q Sp) f0 ds' = .ok st0')
    (h0 : (∀ c < q.nr, cfg.Produced st0 "ref" c 0 0) ∨ (B' % q.L = cfg.B % q.L ∧ 2 * q.L ≤ cfg.B ∧ 2 * q.L ≤ B'))
    (hk : cfg.steps k st0 = .ok st) (hk' : SimCfg.steps { cfg with B := B', C := C' } k st0' = .ok st') :
    (∀ t ≤ k, ∀ name ≠ "xf", ∀ c v,
      SimCfg.Produced { cfg with B := B', C := C' } st0' name c t v ↔ cfg.Produced st0 name c t v) ∧
      st'.eng.proc = st.eng.proc := by
  obtain ⟨hN, e, he, hI⟩ := fast_begin h Sp hi
  obtain ⟨hN', e', he', hI'⟩ := fast_begin h' Sp hi'
  obtain ⟨te, off, r, hT⟩ := GInv.steps (fast_sizes h hN) hI k hk
  obtain ⟨te', off', r', hT'⟩ := GInv.steps (fast_sizes h' hN') hI' k hk'
  have hB := h.buffer.1
  have hB' : q.bs + 1 ≤ B' := h'.buffer.1
  have hbs := h.bs
  have hL := h.L
  have hA := tInit_agr (.inl hw) (by omega) (by omega) he he'
  obtain ⟨a, ha, han, hak, hanum⟩ := h.ref
  have ham : a ∈ micsOf cfg.arrays := by
    unfold micsOf; rw [List.mem_filter]; exact ⟨ha, by simpa using hak⟩
  have hconst : ∀ c < q.nr, ∀ t : Int, -(cfg.B : Int) ≤ t → t < 0 → e.sig "ref" c t = e.sig "ref" c (-1) := by
    intro c hc t h1 h2
    obtain ⟨ir, g1, g2⟩ := prep_fir cfg hN hfilt hpos hsh (by omega) ham he
    have a1 := g2 c (t + cfg.B).toNat (by omega) (by omega)
    have a2 := g2 c (cfg.B - 1) (by omega) (by omega)
    simp only [hw, Bool.false_eq_true, ↓reduceIte] at a1 a2
    rw [← han, show t = (((t + cfg.B).toNat : Nat) : Int) - cfg.B by omega,
      show (-1 : Int) = ((cfg.B - 1 : Nat) : Int) - cfg.B by omega, a1, a2]
  have haft : ∀ n, SimCfg.arrAfter { cfg with B := B', C := C' } arr n = cfg.arrAfter arr n := by
    intro n
    induction n with
    | zero => rfl
    | succ n ih => simp only [SimCfg.arrAfter, ih]
  have hsh' : SimCfg.PathShape { cfg with B := B', C := C' } arr := by
    intro n x hx
    rw [haft] at hx
    exact hsh n x hx
  have hconst' : ∀ c < q.nr, ∀ t : Int, -(B' : Int) ≤ t → t < 0 → e'.sig "ref" c t = e'.sig "ref" c (-1) := by
    intro c hc t h1 h2
    obtain ⟨ir, g1, g2⟩ := prep_fir { cfg with B := B', C := C' } hN' hfilt hpos hsh'
      (show 1 ≤ B' by omega) ham he'
    have a1 := g2 c (t + B').toNat (by omega) (show (t + B').toNat < B' by omega)
    have a2 := g2 c (B' - 1) (by omega) (show B' - 1 < B' by omega)
    simp only [hw, Bool.false_eq_true, ↓reduceIte] at a1 a2
    rw [← han, show t = (((t + B').toNat : Nat) : Int) - B' by omega,
      show (-1 : Int) = ((B' - 1 : Nat) : Int) - B' by omega, a1, a2]
  have hE : ∃ m, 1 ≤ m ∧ Agr m te te' := by
    rcases h0 with h0 | ⟨hmod, hb, hb'⟩
    · have hm1 : ∀ c < q.nr, e.sig "ref" c (-1) = 0 := by
        intro c hc
        have := (gProduced_iff (fast_sizes h hN) hI (k := 0) (by rfl) (by rfl) (Nat.zero_le 0) (fast_past (fast_dims h hN) h.ub.1
          (name := "ref") (by decide))).1 (h0 c hc)
        obtain ⟨_, _, _, g⟩ := this
        rw [fastStart_sig (by decide)] at g
        exact g
      have hm1' : ∀ c < q.nr, e'.sig "ref" c (-1) = 0 := by
        intro c hc
        rw [hA.sig _ _ _ (by omega), hm1 c hc]
      have hS := fastStart_same h hN hN' he he' hA (fun c hc t h1 h2 => by rw [hconst c hc t h1 h2, hm1 c hc])
        (fun c hc t h1 h2 => by rw [hconst' c hc t h1 h2, hm1' c hc])
      refine ⟨min cfg.B B', by omega, gSteps_sameFast h.ub.1 (fast_dims h hN) (fast_dims h' hN') (m := min cfg.B B') (by omega) hS k
        (fun j hj v v' hv hv' hb hev hev' => ?_) hT.tape hT'.tape⟩
      have h1 := h.looked hN hI hk hj hv hb hev
      have h2 := h'.looked hN' hI' hk' hj hv' hb hev'
      dsimp only at h2
      omega
    · have hlt := Nat.mod_lt cfg.B hL
      have hle1 := Nat.div_add_mod cfg.B q.L
      have hmm : q.L + cfg.B % q.L ≤ min cfg.B B' := by omega
      have hS := fastStart_phase h hb hb' hmod hA hmm hconst hconst' (tInit_proc hN he) (tInit_proc hN' he')
      refine ⟨q.L + cfg.B % q.L, by omega, gSteps_sameFast h.ub.1 (fast_dims h hN) (fast_dims h' hN') (by omega) hS k
        (fun j hj v v' hv hv' hb hev hev' => ?_) hT.tape hT'.tape⟩
      have hcnt := fastCnt_steps h hN (fastCnt_start Sp cfg.B e) j hv
      have := fastCnt_update hbs h.ub.1 hcnt hb hev
      omega
  obtain ⟨m, hm, hE⟩ := hE
  constructor
  · intro t ht name hn c v
    rw [gProduced_iff (fast_sizes h hN) hI hk hT.tape ht (fast_past _ _ hn),
      gProduced_iff (fast_sizes h' hN') hI' hk' hT'.tape ht (fast_past _ _ hn)]
    rw [hE.sig _ _ _ (by omega)]
    rfl
  · rw [hT.eng, hT'.eng]
    exact hE.proc

end

/-- C178 does not hold for buffers with different remainders: the processor prepares whole blocks
only, from the beginning of the history, so that the number of samples it leaves out before time 0
depends on `sim_buffer`.  Everything is as short as the processor allows, and both buffers hold
what it looks at; the first loudspeaker sample after the first update is `-37/12` or `-26/9`. -/
theorem C178_violated : ∃ (cfg : SimCfg ℚ (IrMat ℚ) (Fir ℚ) Nat Unit (FastSt ℚ) (DData ℚ (FastSt ℚ) ℚ) (DOut ℚ ℚ)) (q : FxPar ℚ)
    (Sp : IrMat ℚ) (srcs : String → Nat) (f0 : Fir ℚ)
    (st0 st0' st st' : SimSt ℚ (Fir ℚ) Nat Unit (FastSt ℚ) (DData ℚ (FastSt ℚ) ℚ) (DOut ℚ ℚ)),
      cfg.warm = false ∧ cfg.arrPath () "loudspeaker" "error" = .ok Sp ∧ FastScene cfg q ∧ FastScene { cfg with B := 5 } q ∧
      2 * q.L + q.bs ≤ cfg.B + 1 ∧ cfg.B ≤ 5 ∧ ShortPaths q Sp ∧
      cfg.initWith (fastPrepare q) srcs () (fastInit q Sp) f0 [] = .ok st0 ∧ cfg.steps 3 st0 = .ok st ∧
      SimCfg.initWith { cfg with B := 5 } (fastPrepare q) srcs () (fastInit q Sp) f0 [] = .ok st0' ∧
      SimCfg.steps { cfg with B := 5 } 3 st0' = .ok st' ∧
      cfg.Produced st0 "loudspeaker" 0 4 (-37/12) ∧ SimCfg.Produced { cfg with B := 5 } st0' "loudspeaker" 0 4 (-26/9) := by
  have h1 : fastSample (fxCfg 4 3 (fxDemo 1 2 2 .block) [1, 2] [0, 1] [1]) (fxDemo 1 2 2 .block) [1] "loudspeaker" 3 =
      some (-37/12) := by decide +kernel
  have h2 : fastSample (fxCfg 5 3 (fxDemo 1 2 2 .block) [1, 2] [0, 1] [1]) (fxDemo 1 2 2 .block) [1] "loudspeaker" 3 =
      some (-26/9) := by decide +kernel
  obtain ⟨st0, st, g1, g2, g5⟩ := fastSample_produced h1
  obtain ⟨st0', st', g3, g4, g6⟩ := fastSample_produced h2
  exact ⟨fastCfg (fxCfg 4 3 (fxDemo 1 2 2 .block) [1, 2] [0, 1] [1]) (fxDemo 1 2 2 .block), fxDemo 1 2 2 .block, fxSec [1],
    fun _ => 0, demoFilt, st0, st0', st, st', rfl, rfl,
    fastCfg_scene (by decide) (by decide) (by decide) (by decide),
    fastCfg_scene (B := 5) (by decide) (by decide) (by decide) (by decide), by decide, by decide,
    fun _ _ _ _ => Nat.le_refl 2, g1, g2, g3, g4, g5, g6⟩

/-! ### Examples -/

theorem fastCfg_pos (B C : Nat) (q : FxPar ℚ) (a b s : List ℚ) : ∀ x ∈ (fastCfg (fxCfg B C q a b s) q).arrays, 0 < x.num := by
  intro x hx
  simp only [fastCfg, SimCfg.withProc, fxCfg, List.mem_cons, List.not_mem_nil, or_false] at hx
  rcases hx with rfl | rfl | rfl | rfl <;> decide

theorem fastCfg_shape (B C : Nat) (q : FxPar ℚ) (a b s : List ℚ) : (fastCfg (fxCfg B C q a b s) q).PathShape () := by
  intro n x _ y m h _ hm hp
  cases hp
  simp only [fastCfg, SimCfg.withProc, fxCfg, List.mem_cons, List.not_mem_nil, or_false] at hm
  rcases hm with rfl | rfl | rfl | rfl <;> rfl

/-- A simulation of the examples runs, so that there are states to compare. -/
theorem fastCfg_ran (B C bs L : Nat) (norm : FxNorm) (a b s : List ℚ) (h1 : 0 < L) (h2 : 0 < bs ∧ bs ∣ L) (h4 : 2 ≤ C)
    (h5 : 2 * L + bs ≤ B + 1) : ∃ st0 st,
    (fastCfg (fxCfg B C (fxDemo bs L L norm) a b s) (fxDemo bs L L norm)).initWith (fastPrepare (fxDemo bs L L norm))
      (fun _ => 0) () (fastInit (fxDemo bs L L norm) (fxSec s)) demoFilt (fastAll L) = .ok st0 ∧
    (fastCfg (fxCfg B C (fxDemo bs L L norm) a b s) (fxDemo bs L L norm)).steps (8 + bs) st0 = .ok st := by
  have hle : bs ≤ L := Nat.le_of_dvd h1 h2.2
  have hsc : FastScene (fastCfg (fxCfg B C (fxDemo bs L L norm) a b s) (fxDemo bs L L norm)) (fxDemo bs L L norm) :=
    fastCfg_scene h1 h2 ⟨by omega, .inl h4⟩ ⟨by omega, by omega⟩
  obtain ⟨fin, hr⟩ := C174_runs_through hsc (.inl (show 2 * L + bs ≤ B + 1 from h5)) (fastCfg_valid B C _ a b s)
    (fxSec s) demoFilt (by simp [fastAll]) (fastAll_fits B C bs L norm a b s h1) (fastAll_reads L)
  unfold SimCfg.runWith at hr
  split at hr
  · cases hr
  · rename_i st0 hst0
    split at hr
    · cases hr
    · rename_i st hst
      rw [hsc.mbs] at hst
      exact ⟨st0, st, hst0, hst⟩

/-- All block sizes, filter lengths and paths: chunks of any two sizes, and buffers with the same
remainder. -/
example (B B' C C' bs L : Nat) (norm : FxNorm) (a b s : List ℚ) (h1 : 0 < L) (h2 : 0 < bs ∧ bs ∣ L) (h4 : 2 ≤ C) (h4' : 2 ≤ C')
    (h5 : 2 * L + bs ≤ B + 1) (h5' : 2 * L + bs ≤ B' + 1) (hmod : B' % L = B % L) : ∃ st0 st st0' st',
    (fastCfg (fxCfg B C (fxDemo bs L L norm) a b s) (fxDemo bs L L norm)).steps (8 + bs) st0 = .ok st ∧
    (fastCfg (fxCfg B' C' (fxDemo bs L L norm) a b s) (fxDemo bs L L norm)).steps (8 + bs) st0' = .ok st' ∧
    (∀ t ≤ 8 + bs, ∀ v, (fastCfg (fxCfg B' C' (fxDemo bs L L norm) a b s) (fxDemo bs L L norm)).Produced st0' "error" 0 t v ↔
      (fastCfg (fxCfg B C (fxDemo bs L L norm) a b s) (fxDemo bs L L norm)).Produced st0 "error" 0 t v) ∧
    st'.eng.proc = st.eng.proc := by
  have hle : bs ≤ L := Nat.le_of_dvd h1 h2.2
  obtain ⟨st0, st, g1, g2⟩ := fastCfg_ran B C bs L norm a b s h1 h2 h4 h5
  obtain ⟨st0', st', g1', g2'⟩ := fastCfg_ran B' C' bs L norm a b s h1 h2 h4' h5'
  have hsc : ∀ B C, 2 ≤ C → 2 * L + bs ≤ B + 1 →
      FastScene (fastCfg (fxCfg B C (fxDemo bs L L norm) a b s) (fxDemo bs L L norm)) (fxDemo bs L L norm) := fun B C h4 h5 =>
    fastCfg_scene h1 h2 ⟨by omega, .inl h4⟩ ⟨by omega, by omega⟩
  have hr := C178_buffer_partial (B' := B') (C' := C') (hsc B C h4 h5) (hsc B' C' h4' h5') rfl rfl (fastCfg_pos _ _ _ _ _ _) (fastCfg_shape _ _ _ _ _ _) g1 g1'
    (.inr ⟨hmod, show 2 * L ≤ B by omega, show 2 * L ≤ B' by omega⟩) g2 g2'
  exact ⟨st0, st, st0', st', g2, g2', fun t ht v => hr.1 t ht "error" (by decide) 0 v, hr.2⟩

/-- The same for the chunk size alone. -/
example (B C C' bs L : Nat) (norm : FxNorm) (a b s : List ℚ) (h1 : 0 < L) (h2 : 0 < bs ∧ bs ∣ L) (h4 : 2 ≤ C) (h4' : 2 ≤ C')
    (h5 : 2 * L + bs ≤ B + 1) : ∃ st0 st st0' st',
    (fastCfg (fxCfg B C (fxDemo bs L L norm) a b s) (fxDemo bs L L norm)).steps (8 + bs) st0 = .ok st ∧
    (fastCfg (fxCfg B C' (fxDemo bs L L norm) a b s) (fxDemo bs L L norm)).steps (8 + bs) st0' = .ok st' ∧
    (∀ t ≤ 8 + bs, ∀ v, (fastCfg (fxCfg B C' (fxDemo bs L L norm) a b s) (fxDemo bs L L norm)).Produced st0' "error" 0 t v ↔
      (fastCfg (fxCfg B C (fxDemo bs L L norm) a b s) (fxDemo bs L L norm)).Produced st0 "error" 0 t v) ∧
    st'.eng.proc = st.eng.proc := by
  have hle : bs ≤ L := Nat.le_of_dvd h1 h2.2
  obtain ⟨st0, st, g1, g2⟩ := fastCfg_ran B C bs L norm a b s h1 h2 h4 h5
  obtain ⟨st0', st', g1', g2'⟩ := fastCfg_ran B C' bs L norm a b s h1 h2 h4' h5
  have hsc : ∀ C, 2 ≤ C →
      FastScene (fastCfg (fxCfg B C (fxDemo bs L L norm) a b s) (fxDemo bs L L norm)) (fxDemo bs L L norm) := fun C h4 =>
    fastCfg_scene h1 h2 ⟨by omega, .inl h4⟩ ⟨by omega, by omega⟩
  have hr := C178_chunk_partial (C' := C') (hsc C h4) (hsc C' h4') g1 g1' g2 g2'
  exact ⟨st0, st, st0', st', g2, g2', fun t ht v => hr.1 t ht "error" (by decide) 0 v, hr.2⟩

/-- A reference microphone that hears the source one sample late, and so nothing at time 0:
buffers of 4 and 5 samples give the same, and the control filter has learned something. -/
example : ∃ (st0 st st0' st' : SimSt ℚ (Fir ℚ) Nat Unit (FastSt ℚ) (DData ℚ (FastSt ℚ) ℚ) (DOut ℚ ℚ)),
    (fastCfg (fxCfg 4 3 (fxDemo 1 2 2 .block) [0, 2] [0, 1] [1]) (fxDemo 1 2 2 .block)).steps 5 st0 = .ok st ∧
    (fastCfg (fxCfg 5 3 (fxDemo 1 2 2 .block) [0, 2] [0, 1] [1]) (fxDemo 1 2 2 .block)).steps 5 st0' = .ok st' ∧
    st'.eng.proc = st.eng.proc := by
  have h1 : fastSample (fxCfg 4 3 (fxDemo 1 2 2 .block) [0, 2] [0, 1] [1]) (fxDemo 1 2 2 .block) [1] "ref" 5 =
      some 12 := by decide +kernel
  have h2 : fastSample (fxCfg 5 3 (fxDemo 1 2 2 .block) [0, 2] [0, 1] [1]) (fxDemo 1 2 2 .block) [1] "ref" 5 =
      some 12 := by decide +kernel
  have h3 : (match fastRun (fxCfg 4 3 (fxDemo 1 2 2 .block) [0, 2] [0, 1] [1]) (fxDemo 1 2 2 .block) [1] with
      | .error _ => none
      | .ok st0 => ((st0.eng.sig "ref").bind fun m => m[0]?).bind fun row => row[3]?) = some 0 := by decide +kernel
  obtain ⟨st0, st, g1, g2, -⟩ := fastSample_produced h1
  obtain ⟨st0', st', g3, g4, -⟩ := fastSample_produced h2
  rw [g1] at h3
  refine ⟨st0, st, st0', st', g2, g4, (C178_buffer_partial (B' := 5) (C' := 3)
    (fastCfg_scene (B := 4) (by decide) (by decide) (by decide) (by decide))
    (fastCfg_scene (B := 5) (by decide) (by decide) (by decide) (by decide)) rfl rfl (fastCfg_pos _ _ _ _ _ _) (fastCfg_shape _ _ _ _ _ _) g1 g3 (.inl ?_) g2 g4).2⟩
  intro c hc
  obtain rfl : c = 0 := by have : c < 1 := hc; omega
  exact at_of_row h3

end Verif

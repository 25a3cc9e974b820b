/-
C143, C144: whole runs with the adaptive filter `FxLMS`.
-/
import Mathlib.Tactic.IntervalCases
import Mathlib.Tactic.NormNum
import Verif.Lemmas.AdaptiveResize
import Verif.Props.Fxlms
namespace Verif

section
variable {R : Type} [Field R]

/-! ### From steps to time indices -/

theorem secIn_time (bs : Nat) (ρ : Nat → Int → R) (c : Nat) (t : Int) :
    secIn 0 bs (fun c t => ρ c (t + 1)) c t = skipped bs ρ c (t + 1) := by
  unfold secIn skipped
  by_cases h : t < 0
  · rw [if_pos (by omega), if_pos (by omega)]
  · rw [if_neg (by omega), if_neg (by omega)]
    show ρ c (t + ((0 : Nat) : Int) + (bs - 1) + 1) = ρ c (t + 1 + (bs - 1))
    congr 1
    omega

theorem secRef_time (S : IrMat R) (bs : Nat) (ρ : Nat → Int → R) (r l m : Nat) (t : Int) :
    filteredRef S bs (secIn 0 bs fun c t => ρ c (t + 1)) r l m t = filteredRef S bs (skipped bs ρ) r l m (t + 1) := by
  unfold filteredRef
  refine Finset.sum_congr rfl fun q _ => ?_
  rw [secIn_time]
  congr 2
  ring

theorem stepXf_time (S : IrMat R) (bs : Nat) (ρ : Nat → Int → R) (r l m : Nat) (t : Int) :
    stepXf S 0 bs (fun c t => ρ c (t + 1)) r l m t = storedRef S bs ρ r l m (t + 1) := by
  unfold stepXf storedRef
  by_cases h : t < 0
  · rw [if_pos (by omega), if_pos (by omega), secRef_time]
  · rw [if_neg (by omega), if_neg (show ¬ t + 1 ≤ 0 by omega)]
    by_cases h' : t < (bs : Int) - 1
    · rw [if_pos h', if_pos (show t + 1 < (bs : Int) by omega)]
    · rw [if_neg h', if_neg (show ¬ t + 1 < (bs : Int) by omega), secRef_time]
      congr 1
      omega

theorem lmsGrad_time (norm : FxNorm) (β : R) (nr nl ne L ub : Nat) {X X' : Nat → Nat → Nat → Int → R} {e e' : Nat → Int → R}
    (hX : ∀ r l m t, X' r l m t = X r l m (t + 1)) (he : ∀ m t, e' m t = e m (t + 1)) (t0 : Int) (r l q : Nat) :
    lmsGrad norm β nr nl ne L ub X' e' t0 r l q = lmsGrad norm β nr nl ne L ub X e (t0 + 1) r l q := by
  unfold lmsGrad
  refine Finset.sum_congr rfl fun i _ => ?_
  congr 1
  · refine Finset.sum_congr rfl fun m _ => ?_
    rw [hX, he, show t0 + i - q + 1 = t0 + 1 + i - q by ring, show t0 + i + 1 = t0 + 1 + i by ring]
  · unfold lmsWeight
    cases norm with
    | none => rfl
    | sample =>
      simp only
      congr 2
      refine Finset.sum_congr rfl fun r _ => Finset.sum_congr rfl fun l _ => Finset.sum_congr rfl fun m _ =>
        Finset.sum_congr rfl fun k _ => ?_
      rw [hX, show t0 + i - k + 1 = t0 + 1 + i - k by ring]
    | block =>
      simp only
      congr 2
      refine Finset.sum_congr rfl fun r _ => Finset.sum_congr rfl fun l _ => Finset.sum_congr rfl fun m _ =>
        Finset.sum_congr rfl fun k _ => ?_
      rw [hX, show t0 + k + 1 = t0 + 1 + k by ring]

theorem stepTaps_time (q : FxPar R) (hbs : 0 < q.bs) (S : IrMat R) (ρ e : Nat → Int → R) (r l x : Nat) : ∀ j,
    stepTaps q S 0 (fun c t => ρ c (t + 1)) (fun c t => e c (t + 1)) j r l x =
      lmsTaps q.norm q.beta q.mu q.nr q.nl q.ne q.L q.ub q.bs (storedRef S q.bs ρ) e j r l x
  | 0 => rfl
  | j + 1 => by
    have ih := stepTaps_time q hbs S ρ e r l x j
    unfold stepTaps at ih ⊢
    simp only [lmsTaps]
    rw [ih, lmsGrad_time q.norm q.beta q.nr q.nl q.ne q.L q.ub (fun r l m t => stepXf_time S q.bs ρ r l m t)
      (fun m t => rfl), show ((q.bs - 1 + j * q.ub : Nat) : Int) + 1 = ((q.bs + j * q.ub : Nat) : Int) by
        push_cast [Nat.cast_sub hbs]; omega]

theorem lmsTaps_congr {norm : FxNorm} {β μ : R} {nr nl ne L ub a : Nat} {X X' : Nat → Nat → Nat → Int → R}
    {e : Nat → Int → R} (h : ∀ r < nr, ∀ l < nl, ∀ m < ne, ∀ t, X r l m t = X' r l m t) {r l : Nat} (hr : r < nr)
    (hl : l < nl) (x : Nat) : ∀ j, lmsTaps norm β μ nr nl ne L ub a X e j r l x = lmsTaps norm β μ nr nl ne L ub a X' e j r l x
  | 0 => rfl
  | j + 1 => by
    simp only [lmsTaps]
    rw [lmsTaps_congr h hr hl x j, lmsGrad_congr (fun r hr l hl m hm t _ => h r hr l hl m hm t) (fun _ _ _ _ => rfl) hr hl]

/-- The stored filtered reference is the filtered reference if the blocks are of one
sample or nothing reaches the reference microphones during the first block. -/
theorem storedRef_eq (S : IrMat R) {bs : Nat} (hbs : 0 < bs) {ρ : Nat → Int → R} {r : Nat}
    (h : bs = 1 ∨ ∀ t < (bs : Int), ρ r t = 0) (l m : Nat) (t : Int) :
    storedRef S bs ρ r l m t = filteredRef S bs ρ r l m t := by
  unfold storedRef
  rcases h with rfl | h
  · have hs : ∀ t, skipped 1 ρ r t = ρ r t := by
      intro t
      unfold skipped
      split
      · rfl
      · simp
    have hf : ∀ t, filteredRef S 1 (skipped 1 ρ) r l m t = filteredRef S 1 ρ r l m t := by
      intro t
      unfold filteredRef
      exact Finset.sum_congr rfl fun q _ => by rw [hs]
    rw [hf, hf]
    split
    · rfl
    · rw [if_neg (by omega)]
      simp
  · have h0 : ∀ t : Int, t < 2 * bs → filteredRef S bs ρ r l m t = 0 := by
      intro t ht
      unfold filteredRef
      exact Finset.sum_eq_zero fun q _ => by rw [h _ (by omega), mul_zero]
    split
    · rename_i ht
      rw [h0 t (by omega)]
      unfold filteredRef skipped
      exact Finset.sum_eq_zero fun q _ => by rw [if_pos (by omega), h _ (by omega), mul_zero]
    · split
      · rw [h0 t (by omega)]
      · unfold filteredRef
        refine Finset.sum_congr rfl fun q _ => ?_
        congr 1
        unfold skipped
        split
        · rw [h _ (by omega), h _ (by omega)]
        · congr 1
          ring

end

section
variable {R IR F S A D O : Type} [Field R] {cfg : SimCfg R IR F S A (FxSt R) D O} {q : FxPar R}
  {Sp : IrMat R} {srcs : String → S} {arr : A} {f0 : F} {ds : List (Diag D)} {st0 st : SimSt R F S A (FxSt R) D O} {k : Nat}

/-- What was recorded, on the tape. -/
theorem recorded_iff (h : FxScene cfg q) (hN : Names cfg) {e0 te : Eng (Tape R) F S A (FxSt R)}
    (hI : GInv (fxTape (fx_dims h hN)) e0 0 st0 e0 (-(cfg.B : Int)) 0) (hk : cfg.steps k st0 = .ok st)
    (ht : cfg.gSteps (fxTape (fx_dims h hN)) k e0 = .ok te)
    (hz : ∀ nm, nm ≠ "xf" → ∀ c t, t < -(cfg.B : Int) → e0.sig nm c t = 0)
    {name : String} (hn : name ≠ "xf") {num : Nat} (hd : cfg.dims name = some num) {c : Nat} (hc : c < num) {t : Int}
    (htk : t ≤ k) {v : R} : cfg.Recorded st0 name c t v ↔ te.sig name c (t - 1) = v := by
  have hB := h.buffer.1
  unfold SimCfg.Recorded
  by_cases h0 : 0 ≤ t
  · rw [if_pos h0, gProduced_iff (fx_sizes h hN) hI hk ht (t := t.toNat) (by omega) (fx_past _ hn),
      show ((t.toNat : Nat) : Int) = t by omega]
    constructor
    · rintro ⟨_, _, _, h4⟩; exact h4
    · intro h4; exact ⟨num, hd, hc, h4⟩
  · rw [if_neg h0]
    have hp := gSteps_past (n := 0) (e := e0) rfl (fx_past (fx_dims h hN) hn) k (e' := te) (by rw [Nat.zero_add]; exact ht)
      c (t - 1) (by omega)
    rw [hp]
    by_cases h1 : -(cfg.B : Int) < t
    · rw [if_pos h1, hI.eng]
      show (cut cfg.dims e0.sig (-(cfg.B : Int)) (cfg.B + cfg.C)).At name c _ v ↔ _
      rw [cut_at, show -(cfg.B : Int) + (((cfg.B : Int) - 1 + t).toNat : Int) = t - 1 by omega]
      constructor
      · rintro ⟨_, _, _, _, h4⟩; exact h4
      · intro h4; exact ⟨num, hd, hc, by omega, h4⟩
    · rw [if_neg h1, hz name hn c (t - 1) (by omega)]
      exact eq_comm

/-- There is one recorded value at every time. -/
theorem fx_recorded (h : FxScene cfg q) (hi : cfg.initWith fxPrepare srcs arr (fxInit q Sp) f0 ds = .ok st0)
    (hk : cfg.steps k st0 = .ok st) : ∃ ρ e : Nat → Int → R,
      (∀ c < q.nr, ∀ t ≤ (k : Int), cfg.Recorded st0 "ref" c t (ρ c t)) ∧
      (∀ c < q.ne, ∀ t ≤ (k : Int), cfg.Recorded st0 "error" c t (e c t)) := by
  obtain ⟨hN, e, he, hI⟩ := fx_init h Sp hi
  obtain ⟨te, off, r, hT⟩ := GInv.steps (fx_sizes h hN) hI k hk
  have hd := fx_dims h hN
  have hB := h.buffer.1
  have hz : ∀ nm, nm ≠ "xf" → ∀ c t, t < -(cfg.B : Int) → (fxStart q cfg.B e).sig nm c t = 0 := by
    intro nm hn c t ht
    simp only [fxStart, Tape.write]
    rw [if_neg (fun hh => hn hh.1), tInit_before hN he _ _ _ (by omega) ht]
  exact ⟨fun c t => te.sig "ref" c (t - 1), fun c t => te.sig "error" c (t - 1),
    fun c hc t ht => (recorded_iff h hN hI hk hT.tape hz (by decide) hd.ref hc ht).2 rfl,
    fun c hc t ht => (recorded_iff h hN hI hk hT.tape hz (by decide) hd.err hc ht).2 rfl⟩

/-- C143 for every block size, with the filtered reference the processor stores: if the
reference and the error microphones have recorded `ρ` and `e`, the loudspeakers play
the reference one block late through the taps of the filtered-x LMS recursion, and
these are the taps of the control filter. -/
theorem C143_stored (h : FxScene cfg q) (hi : cfg.initWith fxPrepare srcs arr (fxInit q Sp) f0 ds = .ok st0)
    (hk : cfg.steps k st0 = .ok st) {ρ e : Nat → Int → R}
    (hρ : ∀ c < q.nr, ∀ t ≤ (k : Int), cfg.Recorded st0 "ref" c t (ρ c t))
    (he : ∀ c < q.ne, ∀ t ≤ (k : Int), cfg.Recorded st0 "error" c t (e c t)) :
    (∀ l < q.nl, ∀ t ≤ k, cfg.Produced st0 "loudspeaker" l t (adaptiveOut q.bs q.ub q.nr q.L
      (lmsTaps q.norm q.beta q.mu q.nr q.nl q.ne q.L q.ub q.bs (storedRef Sp q.bs ρ) e) ρ l t)) ∧
    (∀ r < q.nr, ∀ l < q.nl, st.eng.proc.ctrl.mat.ir r l = (List.range q.L).map
      (lmsTaps q.norm q.beta q.mu q.nr q.nl q.ne q.L q.ub q.bs (storedRef Sp q.bs ρ) e ((k / q.bs - 1) * q.bs / q.ub) r l)) := by
  obtain ⟨hN, e0, h0, hI⟩ := fx_init h Sp hi
  obtain ⟨te, off, r, hT⟩ := GInv.steps (fx_sizes h hN) hI k hk
  have hd := fx_dims h hN
  have hB := h.buffer.1
  have hbs := h.bs
  have hz : ∀ nm, nm ≠ "xf" → ∀ c t, t < -(cfg.B : Int) → (fxStart q cfg.B e0).sig nm c t = 0 := by
    intro nm hn c t ht
    simp only [fxStart, Tape.write]
    rw [if_neg (fun hh => hn hh.1), tInit_before hN h0 _ _ _ (by omega) ht]
  have hρ' : ∀ c < q.nr, ∀ t : Int, t < k → te.sig "ref" c t = ρ c (t + 1) := by
    intro c hc t ht
    have := (recorded_iff h hN hI hk hT.tape hz (by decide) hd.ref hc (by omega)).1 (hρ c hc (t + 1) (by omega))
    rwa [add_sub_cancel_right] at this
  have he' : ∀ c < q.ne, ∀ t : Int, t < k → te.sig "error" c t = e c (t + 1) := by
    intro c hc t ht
    have := (recorded_iff h hN hI hk hT.tape hz (by decide) hd.err hc (by omega)).1 (he c hc (t + 1) (by omega))
    rwa [add_sub_cancel_right] at this
  have hpast : ∀ c (t : Int), t < 0 → te.sig "ref" c t = e0.sig "ref" c t := by
    intro c t ht
    have := gSteps_past (n := 0) (e := fxStart q cfg.B e0) rfl (fx_past hd (name := "ref") (by decide)) k (e' := te)
      (by rw [Nat.zero_add]; exact hT.tape) c t ht
    rw [this]
    simp only [fxStart, Tape.write]
    rw [if_neg (by simp)]
  have hS := AInv.start (ε := fun c t => e c (t + 1)) h hN Sp h0 (ρ := fun c t => ρ c (t + 1))
    (fun c hc t ht => by rw [← hρ' c hc t (by omega), hpast c t (by omega), tInit_before hN h0 _ _ _ (by omega) ht])
    (fun c hc t _ ht => by rw [← hρ' c hc t (by omega), hpast c t ht])
  have hA := AInv.steps h hN Sp
    (fun c hc t ht => by rw [← hρ' c hc t (by omega), hpast c t (by omega), tInit_before hN h0 _ _ _ (by omega) ht]) hS k hT.tape hρ' he'
  constructor
  · intro l hl t ht
    rw [gProduced_iff (fx_sizes h hN) hI hk hT.tape ht (fx_past _ (by decide))]
    refine ⟨q.nl, hd.ls, hl, ?_⟩
    have hdm := Nat.div_add_mod k q.bs
    have hml := Nat.mod_lt k hbs
    rw [Nat.mul_comm] at hdm
    rw [hA.ls l hl ((t : Int) - 1) (by omega)]
    unfold adaptiveOut
    by_cases hb : t < q.bs
    · rw [if_pos (by omega), if_pos hb]
    · rw [if_neg (by omega), if_neg hb]
      unfold stepOut
      have hu : updates q (((t : Int) - 1 + 1).toNat / q.bs - 1) = (t / q.bs - 2) * q.bs / q.ub := by
        unfold updates
        rw [sub_add_cancel, Int.toNat_natCast, Nat.sub_sub]
      rw [hu]
      refine Finset.sum_congr rfl fun r _ => Finset.sum_congr rfl fun x _ => ?_
      rw [stepTaps_time q hbs]
      congr 1
      unfold fromZero
      by_cases hc : (t : Int) - q.bs - x < 0
      · rw [if_pos hc, if_pos (by omega)]
      · rw [if_neg hc, if_neg (by omega)]
        show ρ r ((t : Int) - 1 - q.bs - x + 1) = _
        congr 1
        omega
  · intro r hr l hl
    have := hA.taps r hr l hl
    rw [hT.eng]
    show te.proc.ctrl.mat.ir r l = _
    rw [this]
    exact List.map_congr_left fun x _ => stepTaps_time q hbs Sp ρ e r l x _

/-- C143 in part: blocks of one sample, or nothing reaches the reference microphones
before the end of the first block.  The loudspeakers play the reference one block
late through the taps of the filtered-x LMS recursion, with the reference filtered by
the secondary paths, and these are the taps of the control filter. -/
theorem C143_adaptive_partial (h : FxScene cfg q) (hi : cfg.initWith fxPrepare srcs arr (fxInit q Sp) f0 ds = .ok st0)
    (hk : cfg.steps k st0 = .ok st) {ρ e : Nat → Int → R}
    (hρ : ∀ c < q.nr, ∀ t ≤ (k : Int), cfg.Recorded st0 "ref" c t (ρ c t))
    (he : ∀ c < q.ne, ∀ t ≤ (k : Int), cfg.Recorded st0 "error" c t (e c t))
    (hb : q.bs = 1 ∨ ∀ c < q.nr, ∀ t < (q.bs : Int), ρ c t = 0) :
    (∀ l < q.nl, ∀ t ≤ k, cfg.Produced st0 "loudspeaker" l t (adaptiveOut q.bs q.ub q.nr q.L
      (lmsTaps q.norm q.beta q.mu q.nr q.nl q.ne q.L q.ub q.bs (filteredRef Sp q.bs ρ) e) ρ l t)) ∧
    (∀ r < q.nr, ∀ l < q.nl, st.eng.proc.ctrl.mat.ir r l = (List.range q.L).map
      (lmsTaps q.norm q.beta q.mu q.nr q.nl q.ne q.L q.ub q.bs (filteredRef Sp q.bs ρ) e ((k / q.bs - 1) * q.bs / q.ub) r l)) := by
  obtain ⟨h1, h2⟩ := C143_stored h hi hk hρ he
  have hx : ∀ r < q.nr, ∀ l < q.nl, ∀ m < q.ne, ∀ t, storedRef Sp q.bs ρ r l m t = filteredRef Sp q.bs ρ r l m t :=
    fun r hr l _ m _ t => storedRef_eq Sp h.bs (hb.imp_right fun g => g r hr) l m t
  constructor
  · intro l hl t ht
    have := h1 l hl t ht
    refine cast (congrArg (cfg.Produced st0 "loudspeaker" l t) ?_) this
    unfold adaptiveOut
    split
    · rfl
    · refine Finset.sum_congr rfl fun r hr => Finset.sum_congr rfl fun x _ => ?_
      rw [Finset.mem_range] at hr
      rw [lmsTaps_congr hx hr hl]
  · intro r hr l hl
    rw [h2 r hr l hl]
    exact List.map_congr_left fun x _ => lmsTaps_congr hx hr hl x _

/-- C144 in part, for the chunk size: two simulations with `FxLMS` that differ in
`sim_chunk_size` only produce the same samples of every signal but the processor's own
one and leave the processor in the same state. -/
theorem C144_chunk_partial {C' : Nat} {ds' : List (Diag D)} {st0' st' : SimSt R F S A (FxSt R) D O} (h : FxScene cfg q)
    (h' : FxScene { cfg with C := C' } q)
    (hi : cfg.initWith fxPrepare srcs arr (fxInit q Sp) f0 ds = .ok st0)
    (hi' : SimCfg.initWith { cfg with C := C' } fxPrepare srcs arr (fxInit q Sp) f0 ds' = .ok st0')
    (hk : cfg.steps k st0 = .ok st) (hk' : SimCfg.steps { cfg with C := C' } k st0' = .ok st') :
    (∀ t ≤ k, ∀ name ≠ "xf", ∀ c v, SimCfg.Produced { cfg with C := C' } st0' name c t v ↔ cfg.Produced st0 name c t v) ∧
      st'.eng.proc = st.eng.proc := by
  obtain ⟨hN, e, he, hI⟩ := fx_init h Sp hi
  obtain ⟨hN', e', he', hI'⟩ := fx_init h' Sp hi'
  obtain ⟨te, off, r, hT⟩ := GInv.steps (fx_sizes h hN) hI k hk
  obtain ⟨te', off', r', hT'⟩ := GInv.steps (fx_sizes h' hN') hI' k hk'
  have h1 : e' = e := by
    have : SimCfg.tInit { cfg with C := C' } srcs arr (fxInit q Sp) f0 = cfg.tInit srcs arr (fxInit q Sp) f0 := rfl
    rw [this, he] at he'
    cases he'
    rfl
  subst h1
  have h2 : te' = te := by
    have g1 := hT.tape
    have g2 := hT'.tape
    have : ∀ n e, SimCfg.gSteps { cfg with C := C' } (fxTape (fx_dims h' hN')) n e =
        cfg.gSteps (fxTape (fx_dims h hN)) n e := by
      intro n
      induction n with
      | zero => intro e; rfl
      | succ n ih =>
        intro e
        simp only [SimCfg.gSteps]
        rw [ih e]
        rfl
    rw [this] at g2
    rw [show (fxStart q ({ cfg with C := C' } : SimCfg R IR F S A (FxSt R) D O).B e') = fxStart q cfg.B e' from rfl, g1] at g2
    cases g2
    rfl
  subst h2
  constructor
  · intro t ht name hn c v
    rw [gProduced_iff (fx_sizes h hN) hI hk hT.tape ht (fx_past _ hn),
      gProduced_iff (fx_sizes h' hN') hI' hk' hT'.tape ht (fx_past _ hn)]
    rfl
  · rw [hT.eng, hT'.eng]
    rfl

/-- C144 in part, for the buffer and the chunk size: with `start_sources_before_0` false
and nothing at the reference microphones at time 0, two simulations with `FxLMS` that
differ in `sim_buffer` and `sim_chunk_size` only produce the same samples of every signal
but the processor's own one and leave the control filter the same. -/
theorem C144_buffer_partial {B' C' : Nat} {ds' : List (Diag D)} {cfg : SimCfg R (IrMat R) (Fir R) S A (FxSt R) D O}
    {f0 : Fir R} {st0 st st0' st' : SimSt R (Fir R) S A (FxSt R) D O} (h : FxScene cfg q)
    (h' : FxScene { cfg with B := B', C := C' } q) (hw : cfg.warm = false) (hfilt : cfg.filt = firOps R)
    (hpos : ∀ a ∈ cfg.arrays, 0 < a.num) (hsh : cfg.PathShape arr)
    (hi : cfg.initWith fxPrepare srcs arr (fxInit q Sp) f0 ds = .ok st0)
    (hi' : SimCfg.initWith { cfg with B := B', C := C' } fxPrepare srcs arr (fxInit q Sp) f0 ds' = .ok st0')
    (h0 : ∀ c < q.nr, cfg.Produced st0 "ref" c 0 0)
    (hk : cfg.steps k st0 = .ok st) (hk' : SimCfg.steps { cfg with B := B', C := C' } k st0' = .ok st') :
    (∀ t ≤ k, ∀ name ≠ "xf", ∀ c v,
      SimCfg.Produced { cfg with B := B', C := C' } st0' name c t v ↔ cfg.Produced st0 name c t v) ∧
      st'.eng.proc.ctrl = st.eng.proc.ctrl := by
  obtain ⟨hN, e, he, hI⟩ := fx_init h Sp hi
  obtain ⟨hN', e', he', hI'⟩ := fx_init h' Sp hi'
  obtain ⟨te, off, r, hT⟩ := GInv.steps (fx_sizes h hN) hI k hk
  obtain ⟨te', off', r', hT'⟩ := GInv.steps (fx_sizes h' hN') hI' k hk'
  have hB := h.buffer.1
  have hB' : q.bs + 1 ≤ B' := h'.buffer.1
  have hbs := h.bs
  have hL := h.L
  have hA := tInit_agr (.inl hw) (by omega) (by omega) he he'
  obtain ⟨a, ha, han, hak, hanum⟩ := h.ref
  have ham : a ∈ micsOf cfg.arrays := by
    unfold micsOf; rw [List.mem_filter]; exact ⟨ha, by simpa using hak⟩
  have hconst : ∀ c < q.nr, ∀ t : Int, -(cfg.B : Int) ≤ t → t < 0 → e.sig "ref" c t = e.sig "ref" c (-1) := by
    intro c hc t h1 h2
    obtain ⟨ir, g1, g2⟩ := prep_fir cfg hN hfilt hpos hsh (by omega) ham he
    have a1 := g2 c (t + cfg.B).toNat (by omega) (by omega)
    have a2 := g2 c (cfg.B - 1) (by omega) (by omega)
    simp only [hw, Bool.false_eq_true, ↓reduceIte] at a1 a2
    rw [← han, show t = (((t + cfg.B).toNat : Nat) : Int) - cfg.B by omega,
      show (-1 : Int) = ((cfg.B - 1 : Nat) : Int) - cfg.B by omega, a1, a2]
  have haft : ∀ n, SimCfg.arrAfter { cfg with B := B', C := C' } arr n = cfg.arrAfter arr n := by
    intro n
    induction n with
    | zero => rfl
    | succ n ih => simp only [SimCfg.arrAfter, ih]
  have hsh' : SimCfg.PathShape { cfg with B := B', C := C' } arr := by
    intro n x hx
    rw [haft] at hx
    exact hsh n x hx
  have hconst' : ∀ c < q.nr, ∀ t : Int, -(B' : Int) ≤ t → t < 0 → e'.sig "ref" c t = e'.sig "ref" c (-1) := by
    intro c hc t h1 h2
    obtain ⟨ir, g1, g2⟩ := prep_fir { cfg with B := B', C := C' } hN' hfilt hpos hsh'
      (show 1 ≤ B' by omega) ham he'
    have a1 := g2 c (t + B').toNat (by omega) (show (t + B').toNat < B' by omega)
    have a2 := g2 c (B' - 1) (by omega) (show B' - 1 < B' by omega)
    simp only [hw, Bool.false_eq_true, ↓reduceIte] at a1 a2
    rw [← han, show t = (((t + B').toNat : Nat) : Int) - B' by omega,
      show (-1 : Int) = ((B' - 1 : Nat) : Int) - B' by omega, a1, a2]
  have hm1 : ∀ c < q.nr, e.sig "ref" c (-1) = 0 := by
    intro c hc
    have := (gProduced_iff (fx_sizes h hN) hI (k := 0) (by rfl) (by rfl) (Nat.zero_le 0) (fx_past (fx_dims h hN)
      (name := "ref") (by decide))).1 (h0 c hc)
    obtain ⟨_, _, _, g⟩ := this
    simp only [fxStart, Tape.write] at g
    rw [if_neg (by simp)] at g
    exact g
  have hm1' : ∀ c < q.nr, e'.sig "ref" c (-1) = 0 := by
    intro c hc
    rw [hA.sig _ _ _ (by omega), hm1 c hc]
  have hS := fxStart_same h hN hN' he he' hA (fun c hc t h1 h2 => by rw [hconst c hc t h1 h2, hm1 c hc])
    (fun c hc t h1 h2 => by rw [hconst' c hc t h1 h2, hm1' c hc])
  have hE := gSteps_same (fx_dims h hN) (fx_dims h' hN') (m := min cfg.B B') (by omega) hS k (fun j hj v v' hv hv' hb hev hev' => by
      have h1 := h.looked hN hI hk hj hv hb hev
      have h2 := h'.looked hN' hI' hk' hj hv' hb hev'
      dsimp only at h2
      omega) hT.tape hT'.tape
  constructor
  · intro t ht name hn c v
    rw [gProduced_iff (fx_sizes h hN) hI hk hT.tape ht (fx_past _ hn),
      gProduced_iff (fx_sizes h' hN') hI' hk' hT'.tape ht (fx_past _ hn)]
    rw [hE.sig _ _ _ (by omega)]
    rfl
  · rw [hT.eng, hT'.eng]
    exact hE.proc.ctrl

end

section
/-- The scene of the examples: a counting source, `FxLMS` with the parameters `q`,
paths from the source to the reference microphone (`a`), from the source and from the
loudspeaker to the error microphone (`b` and `s`). -/
def fxCfg (B C : Nat) (q : FxPar ℚ) (a b s : List ℚ) :
    SimCfg ℚ (IrMat ℚ) (Fir ℚ) Nat Unit (FxSt ℚ) (DData ℚ (FxSt ℚ) ℚ) (DOut ℚ ℚ) where
  B := B
  C := C
  tot := 8
  warm := false
  contrib := false
  plotNone := false
  arrays := [⟨"ref", 1, .mic, false⟩, ⟨"error", 1, .mic, false⟩, ⟨"noise", 1, .free, false⟩,
    ⟨"loudspeaker", 1, .ctrl, false⟩]
  srcGet := fun p n => .ok (p + n, [(List.range n).map fun k => ((p + k + 1 : Nat) : ℚ)])
  filt := firOps ℚ
  arrUpdate := fun _ _ => .ok ()
  arrPath := fun _ x m => .ok ⟨1, 1, fun _ _ => if m = "ref" then (if x = "noise" then a else [0])
    else if x = "noise" then b else s⟩
  proc := some (fxProc q)
  diag := diagOps ℚ (FxSt ℚ) ℚ

/-- The sizes of the examples. -/
def fxDemo (bs ub L : Nat) (norm : FxNorm) : FxPar ℚ := ⟨bs, ub, L, 1, 1, 1, 1/2, 1, norm⟩

def fxSec (s : List ℚ) : IrMat ℚ := ⟨1, 1, fun _ _ => s⟩

theorem regular_pos {b : ℚ} (hb : 0 < b) (l : List ℚ) : (l.map fun x => x * x).sum + b ≠ 0 :=
  (add_pos_of_nonneg_of_pos (List.sum_nonneg fun y hy => by
    obtain ⟨x, -, rfl⟩ := List.mem_map.mp hy; exact mul_self_nonneg x) hb).ne'

theorem fxCfg_scene {B C bs ub L : Nat} {norm : FxNorm} {a b s : List ℚ} (h1 : 0 < L) (h2 : 0 < bs) (h3 : 0 < ub ∧ bs ∣ ub)
    (h4 : 1 ≤ C ∧ (2 ≤ C ∨ bs ≤ C)) (h5 : bs + 1 ≤ B ∧ L ≤ B + C) :
    FxScene (fxCfg B C (fxDemo bs ub L norm) a b s) (fxDemo bs ub L norm) where
  proc := rfl
  ref := ⟨⟨"ref", 1, .mic, false⟩, by simp [fxCfg], rfl, rfl, rfl⟩
  err := ⟨⟨"error", 1, .mic, false⟩, by simp [fxCfg], rfl, rfl, rfl⟩
  ls := ⟨⟨"loudspeaker", 1, .ctrl, false⟩, by simp [fxCfg], rfl, rfl, rfl⟩
  own := by
    intro x hx
    simp only [fxCfg, List.mem_cons, List.not_mem_nil, or_false] at hx
    rcases hx with rfl | rfl | rfl | rfl <;> decide
  nr := Nat.one_pos
  nl := Nat.one_pos
  ne := Nat.one_pos
  L := h1
  bs := h2
  ub := h3
  chunk := h4
  buffer := h5
  regular := .inr (regular_pos one_pos)

/-- The runs of the examples. -/
def fxRun (cfg : SimCfg ℚ (IrMat ℚ) (Fir ℚ) Nat Unit (FxSt ℚ) (DData ℚ (FxSt ℚ) ℚ) (DOut ℚ ℚ)) (q : FxPar ℚ) (s : List ℚ) :
    Except PyErr (SimSt ℚ (Fir ℚ) Nat Unit (FxSt ℚ) (DData ℚ (FxSt ℚ) ℚ) (DOut ℚ ℚ)) :=
  cfg.initWith fxPrepare (fun _ => 0) () (fxInit q (fxSec s)) demoFilt []

/-- The first channel of a signal before the first step. -/
def fxRow0 (cfg : SimCfg ℚ (IrMat ℚ) (Fir ℚ) Nat Unit (FxSt ℚ) (DData ℚ (FxSt ℚ) ℚ) (DOut ℚ ℚ)) (q : FxPar ℚ) (s : List ℚ)
    (name : String) (i : Nat) : Option ℚ :=
  match fxRun cfg q s with
  | .error _ => none
  | .ok st0 => ((st0.eng.sig name).bind fun m => m[0]?).bind fun row => row[i]?

/-- A sample of the first channel of a signal. -/
def fxSample (cfg : SimCfg ℚ (IrMat ℚ) (Fir ℚ) Nat Unit (FxSt ℚ) (DData ℚ (FxSt ℚ) ℚ) (DOut ℚ ℚ)) (q : FxPar ℚ) (s : List ℚ)
    (name : String) : Nat → Option ℚ
  | 0 => fxRow0 cfg q s name (cfg.B - 1)
  | n + 1 =>
    match fxRun cfg q s with
    | .error _ => none
    | .ok st0 =>
      match cfg.steps n st0 with
      | .error _ => none
      | .ok st =>
        match cfg.engine st.n st.idx st.eng with
        | .error _ => none
        | .ok e => if 0 ≤ st.idx then ((e.sig name).bind fun m => m[0]?).bind fun row => row[st.idx.toNat]? else none

theorem at_of_row {S : Sigs ℚ} {name : String} {i : Nat} {v : ℚ}
    (h : (((S name).bind fun m => m[0]?).bind fun row => row[i]?) = some v) : S.At name 0 i v := by
  rw [Option.bind_eq_some_iff] at h
  obtain ⟨row, h1, h2⟩ := h
  rw [Option.bind_eq_some_iff] at h1
  obtain ⟨m, h3, h4⟩ := h1
  exact ⟨m, row, h3, h4, h2⟩

theorem fxSample_produced {cfg : SimCfg ℚ (IrMat ℚ) (Fir ℚ) Nat Unit (FxSt ℚ) (DData ℚ (FxSt ℚ) ℚ) (DOut ℚ ℚ)} {q : FxPar ℚ}
    {s : List ℚ} {st0 : SimSt ℚ (Fir ℚ) Nat Unit (FxSt ℚ) (DData ℚ (FxSt ℚ) ℚ) (DOut ℚ ℚ)} (h0 : fxRun cfg q s = .ok st0)
    {name : String} {n : Nat} {v : ℚ} (h : fxSample cfg q s name n = some v) : cfg.Produced st0 name 0 n v := by
  cases n with
  | zero =>
    simp only [fxSample, fxRow0, h0] at h
    exact at_of_row h
  | succ n =>
    simp only [fxSample, h0] at h
    split at h
    · cases h
    · rename_i st hs
      split at h
      · cases h
      · rename_i e he
        split at h
        · rename_i hi
          exact ⟨st, e, hs, he, hi, at_of_row h⟩
        · cases h

theorem fxSample_recorded {cfg : SimCfg ℚ (IrMat ℚ) (Fir ℚ) Nat Unit (FxSt ℚ) (DData ℚ (FxSt ℚ) ℚ) (DOut ℚ ℚ)} {q : FxPar ℚ}
    {s : List ℚ} {st0 : SimSt ℚ (Fir ℚ) Nat Unit (FxSt ℚ) (DData ℚ (FxSt ℚ) ℚ) (DOut ℚ ℚ)} (h0 : fxRun cfg q s = .ok st0)
    {name : String} {k : Nat} {x : Int → ℚ} (h1 : ∀ t ≤ -(cfg.B : Int), x t = 0)
    (h2 : ∀ i < cfg.B - 1, fxRow0 cfg q s name i = some (x ((i : Int) + 1 - cfg.B)))
    (h3 : ∀ n ≤ k, fxSample cfg q s name n = some (x n)) :
    ∀ c < 1, ∀ t ≤ (k : Int), cfg.Recorded st0 name c t ((fun _ => x) c t) := by
  intro c hc t ht
  obtain rfl : c = 0 := by omega
  unfold SimCfg.Recorded
  split
  · have := fxSample_produced h0 (h3 t.toNat (by omega))
    rwa [show ((t.toNat : Nat) : Int) = t by omega] at this
  · split
    · have := h2 ((cfg.B : Int) - 1 + t).toNat (by omega)
      rw [show ((((cfg.B : Int) - 1 + t).toNat : Nat) : Int) + 1 - cfg.B = t by omega] at this
      simp only [fxRow0, h0] at this
      exact at_of_row this
    · exact h1 t (by omega)

theorem fxRun_steps {cfg : SimCfg ℚ (IrMat ℚ) (Fir ℚ) Nat Unit (FxSt ℚ) (DData ℚ (FxSt ℚ) ℚ) (DOut ℚ ℚ)} {q : FxPar ℚ}
    {s : List ℚ} {name : String} {n : Nat} {v : ℚ} (h : fxSample cfg q s name (n + 1) = some v) :
    ∃ st0 st, fxRun cfg q s = .ok st0 ∧ cfg.steps n st0 = .ok st := by
  simp only [fxSample] at h
  split at h
  · cases h
  · rename_i st0 h0
    split at h
    · cases h
    · rename_i st hs
      exact ⟨st0, st, h0, hs⟩

/-- C143 does not hold for blocks of two samples: the reference sample at time 1 does
not reach the filtered reference.  Everything hears the source at once; the first
step of the filter is `-7/2`, it should be `-11/2`. -/
theorem C143_violated : ∃ (cfg : SimCfg ℚ (IrMat ℚ) (Fir ℚ) Nat Unit (FxSt ℚ) (DData ℚ (FxSt ℚ) ℚ) (DOut ℚ ℚ)) (q : FxPar ℚ)
    (Sp : IrMat ℚ) (srcs : String → Nat) (f0 : Fir ℚ) (st0 st : SimSt ℚ (Fir ℚ) Nat Unit (FxSt ℚ) (DData ℚ (FxSt ℚ) ℚ) (DOut ℚ ℚ))
    (ρ e : Nat → Int → ℚ), FxScene cfg q ∧ q.ub + q.L + q.bs ≤ cfg.B + 2 ∧ q.bs = 2 ∧
      cfg.initWith fxPrepare srcs () (fxInit q Sp) f0 [] = .ok st0 ∧
      cfg.steps 6 st0 = .ok st ∧ cfg.arrPath () "loudspeaker" "error" = .ok Sp ∧
      (∀ c < q.nr, ∀ t ≤ (6 : Int), cfg.Recorded st0 "ref" c t (ρ c t)) ∧
      (∀ c < q.ne, ∀ t ≤ (6 : Int), cfg.Recorded st0 "error" c t (e c t)) ∧
      cfg.Produced st0 "loudspeaker" 0 6 (-35/2) ∧
      adaptiveOut q.bs q.ub q.nr q.L
        (lmsTaps q.norm q.beta q.mu q.nr q.nl q.ne q.L q.ub q.bs (filteredRef Sp q.bs ρ) e) ρ 0 6 = -55/2 := by
  have hs : fxSample (fxCfg 4 3 (fxDemo 2 2 1 .none) [1] [1] [1]) (fxDemo 2 2 1 .none) [1] "loudspeaker" 6 = some (-35/2) := by
    decide +kernel
  obtain ⟨st0, -, h0, -⟩ := fxRun_steps hs
  have hs7 : fxSample (fxCfg 4 3 (fxDemo 2 2 1 .none) [1] [1] [1]) (fxDemo 2 2 1 .none) [1] "ref" 7 = some 8 := by
    decide +kernel
  obtain ⟨st0', st, h0', hk⟩ := fxRun_steps hs7
  rw [h0] at h0'
  cases h0'
  refine ⟨fxCfg 4 3 (fxDemo 2 2 1 .none) [1] [1] [1], fxDemo 2 2 1 .none, fxSec [1], fun _ => 0, demoFilt, st0, st,
    fun _ t => if t ≤ -4 then 0 else if t < 0 then 1 else t + 1,
    fun _ t => if t ≤ -4 then 0 else if t < 0 then 1 else if t < 6 then t + 1 else -21/2,
    fxCfg_scene (by decide) (by decide) (by decide) (by decide) (by decide), by decide, rfl, h0, hk, rfl,
    fxSample_recorded h0 (fun t ht => if_pos ht) ?_ ?_, fxSample_recorded h0 (fun t ht => if_pos ht) ?_ ?_,
    fxSample_produced h0 hs, ?_⟩
  · intro i hi
    change i < 3 at hi
    interval_cases i <;> decide +kernel
  · intro i hi
    interval_cases i <;> decide +kernel
  · intro i hi
    change i < 3 at hi
    interval_cases i <;> decide +kernel
  · intro i hi
    interval_cases i <;> decide +kernel
  · simp only [fxDemo, fxSec, adaptiveOut, lmsTaps, lmsGrad, lmsWeight, filteredRef]
    norm_num [Finset.sum_range_succ]

/-- C144 does not hold for the buffer size: at a cold start the whole history of the
reference microphones holds the sample of time 0, the processor takes it for what was
recorded before, and the first step of the filter depends on how long that history
is. -/
theorem C144_violated : ∃ (cfg : SimCfg ℚ (IrMat ℚ) (Fir ℚ) Nat Unit (FxSt ℚ) (DData ℚ (FxSt ℚ) ℚ) (DOut ℚ ℚ)) (q : FxPar ℚ)
    (Sp : IrMat ℚ) (srcs : String → Nat) (f0 : Fir ℚ)
    (st0 st0' st st' : SimSt ℚ (Fir ℚ) Nat Unit (FxSt ℚ) (DData ℚ (FxSt ℚ) ℚ) (DOut ℚ ℚ)),
      cfg.warm = false ∧ cfg.arrPath () "loudspeaker" "error" = .ok Sp ∧ FxScene cfg q ∧ FxScene { cfg with B := 5 } q ∧
      q.ub + q.L + q.bs ≤ cfg.B + 2 ∧ cfg.B ≤ 5 ∧
      cfg.initWith fxPrepare srcs () (fxInit q Sp) f0 [] = .ok st0 ∧ cfg.steps 4 st0 = .ok st ∧
      SimCfg.initWith { cfg with B := 5 } fxPrepare srcs () (fxInit q Sp) f0 [] = .ok st0' ∧
      SimCfg.steps { cfg with B := 5 } 4 st0' = .ok st' ∧
      cfg.Produced st0 "loudspeaker" 0 3 0 ∧ SimCfg.Produced { cfg with B := 5 } st0' "loudspeaker" 0 3 (-3) := by
  have h1 : fxSample (fxCfg 4 3 (fxDemo 1 1 1 .none) [1] [1] [0, 0, 0, 0, 1]) (fxDemo 1 1 1 .none) [0, 0, 0, 0, 1]
      "loudspeaker" 3 = some 0 := by decide +kernel
  have h2 : fxSample (fxCfg 5 3 (fxDemo 1 1 1 .none) [1] [1] [0, 0, 0, 0, 1]) (fxDemo 1 1 1 .none) [0, 0, 0, 0, 1]
      "loudspeaker" 3 = some (-3) := by decide +kernel
  have h3 : fxSample (fxCfg 4 3 (fxDemo 1 1 1 .none) [1] [1] [0, 0, 0, 0, 1]) (fxDemo 1 1 1 .none) [0, 0, 0, 0, 1]
      "ref" 5 = some 6 := by decide +kernel
  have h4 : fxSample (fxCfg 5 3 (fxDemo 1 1 1 .none) [1] [1] [0, 0, 0, 0, 1]) (fxDemo 1 1 1 .none) [0, 0, 0, 0, 1]
      "ref" 5 = some 6 := by decide +kernel
  obtain ⟨st0, st, g1, g2⟩ := fxRun_steps h3
  obtain ⟨st0', st', g3, g4⟩ := fxRun_steps h4
  exact ⟨fxCfg 4 3 (fxDemo 1 1 1 .none) [1] [1] [0, 0, 0, 0, 1], fxDemo 1 1 1 .none, fxSec [0, 0, 0, 0, 1], fun _ => 0,
    demoFilt, st0, st0', st, st', rfl, rfl,
    fxCfg_scene (by decide) (by decide) (by decide) (by decide) (by decide),
    fxCfg_scene (B := 5) (by decide) (by decide) (by decide) (by decide) (by decide), by decide, by decide, g1, g2, g3, g4,
    fxSample_produced g1 h1, fxSample_produced g3 h2⟩

/-- Blocks of one sample, normalised, two taps, updates after every second sample;
the source is heard again in the error microphone by way of the loudspeaker. -/
example : ∃ (st0 st : SimSt ℚ (Fir ℚ) Nat Unit (FxSt ℚ) (DData ℚ (FxSt ℚ) ℚ) (DOut ℚ ℚ)) (ρ e : Nat → Int → ℚ),
    (fxCfg 5 3 (fxDemo 1 2 2 .sample) [1, 2] [0, 1] [1, -1]).steps 7 st0 = .ok st ∧ st.eng.proc.ctrl.mat.ir 0 0 ≠ [0, 0] ∧
    (∀ t ≤ 7, (fxCfg 5 3 (fxDemo 1 2 2 .sample) [1, 2] [0, 1] [1, -1]).Produced st0 "loudspeaker" 0 t
      (adaptiveOut 1 2 1 2 (lmsTaps .sample 1 (1/2) 1 1 1 2 2 1 (filteredRef (fxSec [1, -1]) 1 ρ) e) ρ 0 t)) ∧
    st.eng.proc.ctrl.mat.ir 0 0 =
      (List.range 2).map (lmsTaps .sample 1 (1/2) 1 1 1 2 2 1 (filteredRef (fxSec [1, -1]) 1 ρ) e 3 0 0) := by
  have h1 : (match fxRun (fxCfg 5 3 (fxDemo 1 2 2 .sample) [1, 2] [0, 1] [1, -1]) (fxDemo 1 2 2 .sample) [1, -1] with
      | .error _ => none
      | .ok st0 => match (fxCfg 5 3 (fxDemo 1 2 2 .sample) [1, 2] [0, 1] [1, -1]).steps 7 st0 with
        | .error _ => none
        | .ok st => some (decide (st.eng.proc.ctrl.mat.ir 0 0 ≠ [0, 0]))) = some true := by decide +kernel
  split at h1
  · cases h1
  · rename_i st0 h0
    split at h1
    · cases h1
    · rename_i st hk
      have hsc : FxScene (fxCfg 5 3 (fxDemo 1 2 2 .sample) [1, 2] [0, 1] [1, -1]) (fxDemo 1 2 2 .sample) :=
        fxCfg_scene (by decide) (by decide) (by decide) (by decide) (by decide)
      obtain ⟨ρ, e, hρ, he⟩ := fx_recorded hsc h0 hk
      obtain ⟨g1, g2⟩ := C143_adaptive_partial hsc h0 hk hρ he (.inl rfl)
      exact ⟨st0, st, ρ, e, hk, of_decide_eq_true (Option.some.inj h1), g1 0 (by decide), g2 0 (by decide) 0 (by decide)⟩

/-- Blocks of two samples: the noise reaches the reference microphone after two
samples, so the filtered reference is complete. -/
example : ∃ (st0 : SimSt ℚ (Fir ℚ) Nat Unit (FxSt ℚ) (DData ℚ (FxSt ℚ) ℚ) (DOut ℚ ℚ)) (ρ e : Nat → Int → ℚ),
    (fxCfg 5 3 (fxDemo 2 2 1 .block) [0, 0, 1] [1, 0, 0, 2] [1]).Produced st0 "loudspeaker" 0 8 (-55/4) ∧
    (fxCfg 5 3 (fxDemo 2 2 1 .block) [0, 0, 1] [1, 0, 0, 2] [1]).Produced st0 "loudspeaker" 0 8
      (adaptiveOut 2 2 1 1 (lmsTaps .block 1 (1/2) 1 1 1 1 2 2 (filteredRef (fxSec [1]) 2 ρ) e) ρ 0 8) := by
  have h1 : fxSample (fxCfg 5 3 (fxDemo 2 2 1 .block) [0, 0, 1] [1, 0, 0, 2] [1]) (fxDemo 2 2 1 .block) [1]
      "loudspeaker" 9 = some (-33/2) := by decide +kernel
  have h2 : fxSample (fxCfg 5 3 (fxDemo 2 2 1 .block) [0, 0, 1] [1, 0, 0, 2] [1]) (fxDemo 2 2 1 .block) [1]
      "loudspeaker" 8 = some (-55/4) := by decide +kernel
  obtain ⟨st0, st, h0, hk⟩ := fxRun_steps h1
  have hsc : FxScene (fxCfg 5 3 (fxDemo 2 2 1 .block) [0, 0, 1] [1, 0, 0, 2] [1]) (fxDemo 2 2 1 .block) :=
    fxCfg_scene (by decide) (by decide) (by decide) (by decide) (by decide)
  obtain ⟨-, e, -, he⟩ := fx_recorded hsc h0 hk
  obtain ⟨g1, -⟩ := C143_adaptive_partial (ρ := fun _ t => if t < 2 then 0 else t - 1) hsc h0 hk
    (fxSample_recorded h0 (fun t ht => if_pos (by change t ≤ -5 at ht; omega))
      (by intro i hi; change i < 4 at hi; interval_cases i <;> decide +kernel)
      (by intro i hi; interval_cases i <;> decide +kernel)) he
    (.inr fun c _ t ht => if_pos (by change t < 2 at ht; exact ht))
  exact ⟨st0, _, e, fxSample_produced h0 h2, g1 0 (by decide) 8 (by decide)⟩

/-- The scene of `C143_violated`: what the processor has stored accounts for what the
loudspeaker plays. -/
example : ∃ (st0 : SimSt ℚ (Fir ℚ) Nat Unit (FxSt ℚ) (DData ℚ (FxSt ℚ) ℚ) (DOut ℚ ℚ)) (ρ e : Nat → Int → ℚ),
    (fxCfg 4 3 (fxDemo 2 2 1 .none) [1] [1] [1]).Produced st0 "loudspeaker" 0 6 (-35/2) ∧
    (fxCfg 4 3 (fxDemo 2 2 1 .none) [1] [1] [1]).Produced st0 "loudspeaker" 0 6
      (adaptiveOut 2 2 1 1 (lmsTaps .none 1 (1/2) 1 1 1 1 2 2 (storedRef (fxSec [1]) 2 ρ) e) ρ 0 6) := by
  have h1 : fxSample (fxCfg 4 3 (fxDemo 2 2 1 .none) [1] [1] [1]) (fxDemo 2 2 1 .none) [1] "ref" 7 = some 8 := by
    decide +kernel
  have h2 : fxSample (fxCfg 4 3 (fxDemo 2 2 1 .none) [1] [1] [1]) (fxDemo 2 2 1 .none) [1] "loudspeaker" 6 = some (-35/2) := by
    decide +kernel
  obtain ⟨st0, st, h0, hk⟩ := fxRun_steps h1
  have hsc : FxScene (fxCfg 4 3 (fxDemo 2 2 1 .none) [1] [1] [1]) (fxDemo 2 2 1 .none) :=
    fxCfg_scene (by decide) (by decide) (by decide) (by decide) (by decide)
  obtain ⟨ρ, e, hρ, he⟩ := fx_recorded hsc h0 hk
  exact ⟨st0, ρ, e, fxSample_produced h0 h2, (C143_stored hsc h0 hk hρ he).1 0 (by decide) 6 (by decide)⟩

/-- Chunks of three and of eight samples. -/
example : ∃ (st0 st0' : SimSt ℚ (Fir ℚ) Nat Unit (FxSt ℚ) (DData ℚ (FxSt ℚ) ℚ) (DOut ℚ ℚ)),
    (fxCfg 4 3 (fxDemo 2 2 1 .none) [1] [1] [1]).Produced st0 "error" 0 6 (-21/2) ∧
    (fxCfg 4 8 (fxDemo 2 2 1 .none) [1] [1] [1]).Produced st0' "error" 0 6 (-21/2) := by
  have h1 : fxSample (fxCfg 4 3 (fxDemo 2 2 1 .none) [1] [1] [1]) (fxDemo 2 2 1 .none) [1] "ref" 7 = some 8 := by
    decide +kernel
  have h2 : fxSample (fxCfg 4 8 (fxDemo 2 2 1 .none) [1] [1] [1]) (fxDemo 2 2 1 .none) [1] "ref" 7 = some 8 := by
    decide +kernel
  have h3 : fxSample (fxCfg 4 3 (fxDemo 2 2 1 .none) [1] [1] [1]) (fxDemo 2 2 1 .none) [1] "error" 6 = some (-21/2) := by
    decide +kernel
  obtain ⟨st0, st, h0, hk⟩ := fxRun_steps h1
  obtain ⟨st0', st', h0', hk'⟩ := fxRun_steps h2
  have hsc : FxScene (fxCfg 4 3 (fxDemo 2 2 1 .none) [1] [1] [1]) (fxDemo 2 2 1 .none) :=
    fxCfg_scene (by decide) (by decide) (by decide) (by decide) (by decide)
  have hsc' : FxScene (fxCfg 4 8 (fxDemo 2 2 1 .none) [1] [1] [1]) (fxDemo 2 2 1 .none) :=
    fxCfg_scene (by decide) (by decide) (by decide) (by decide) (by decide)
  have hp := fxSample_produced h0 h3
  exact ⟨st0, st0', hp, ((C144_chunk_partial (C' := 8) hsc hsc' h0 h0' hk hk').1 6 (by decide) "error" (by decide) 0 _).2 hp⟩

/-- Buffers of 5 and of 9 samples; the sound arrives at the reference microphone one
sample later. -/
example : ∃ (st0 st0' : SimSt ℚ (Fir ℚ) Nat Unit (FxSt ℚ) (DData ℚ (FxSt ℚ) ℚ) (DOut ℚ ℚ)),
    (fxCfg 5 3 (fxDemo 1 2 2 .sample) [0, 1] [1, 2] [1, 0, 0, 0, 0, 2]).Produced st0 "error" 0 6 (-2615/336) ∧
    (fxCfg 9 4 (fxDemo 1 2 2 .sample) [0, 1] [1, 2] [1, 0, 0, 0, 0, 2]).Produced st0' "error" 0 6 (-2615/336) := by
  have h1 : fxSample (fxCfg 5 3 (fxDemo 1 2 2 .sample) [0, 1] [1, 2] [1, 0, 0, 0, 0, 2]) (fxDemo 1 2 2 .sample)
      [1, 0, 0, 0, 0, 2] "ref" 7 = some 7 := by decide +kernel
  have h2 : fxSample (fxCfg 9 4 (fxDemo 1 2 2 .sample) [0, 1] [1, 2] [1, 0, 0, 0, 0, 2]) (fxDemo 1 2 2 .sample)
      [1, 0, 0, 0, 0, 2] "ref" 7 = some 7 := by decide +kernel
  have h3 : fxSample (fxCfg 5 3 (fxDemo 1 2 2 .sample) [0, 1] [1, 2] [1, 0, 0, 0, 0, 2]) (fxDemo 1 2 2 .sample)
      [1, 0, 0, 0, 0, 2] "error" 6 = some (-2615/336) := by decide +kernel
  have h4 : fxSample (fxCfg 5 3 (fxDemo 1 2 2 .sample) [0, 1] [1, 2] [1, 0, 0, 0, 0, 2]) (fxDemo 1 2 2 .sample)
      [1, 0, 0, 0, 0, 2] "ref" 0 = some 0 := by decide +kernel
  obtain ⟨st0, st, h0, hk⟩ := fxRun_steps h1
  obtain ⟨st0', st', h0', hk'⟩ := fxRun_steps h2
  have hsc : FxScene (fxCfg 5 3 (fxDemo 1 2 2 .sample) [0, 1] [1, 2] [1, 0, 0, 0, 0, 2]) (fxDemo 1 2 2 .sample) :=
    fxCfg_scene (by decide) (by decide) (by decide) (by decide) (by decide)
  have hsc' : FxScene (fxCfg 9 4 (fxDemo 1 2 2 .sample) [0, 1] [1, 2] [1, 0, 0, 0, 0, 2]) (fxDemo 1 2 2 .sample) :=
    fxCfg_scene (by decide) (by decide) (by decide) (by decide) (by decide)
  have hp := fxSample_produced h0 h3
  refine ⟨st0, st0', hp, ((C144_buffer_partial (B' := 9) (C' := 4) hsc hsc' rfl rfl ?_ ?_ h0 h0' ?_ hk hk').1 6 (by decide)
    "error" (by decide) 0 _).2 hp⟩
  · intro a ha
    simp only [fxCfg, List.mem_cons, List.not_mem_nil, or_false] at ha
    rcases ha with rfl | rfl | rfl | rfl <;> decide
  · intro n a _ s m h hs hm hp
    cases hp
    simp only [fxCfg, List.mem_cons, List.not_mem_nil, or_false] at hm
    rcases hm with rfl | rfl | rfl | rfl <;> rfl
  · intro c hc
    change c < 1 at hc
    obtain rfl : c = 0 := by omega
    exact fxSample_produced h0 h4

end
end Verif

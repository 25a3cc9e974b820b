/-
C179: simulations with `FastBlockFxLMS` with step size zero and with silent sources.
-/
import Verif.Props.AdaptiveScene
import Verif.Props.FastResize
namespace Verif

section
variable {R S A D O : Type} [Field R] {cfg : SimCfg R (IrMat R) (Fir R) S A (FastSt R) D O} {q : FxPar R} {Sp : IrMat R}
  {srcs : String → S} {arr : A} {f0 : Fir R} {ds : List (Diag D)} {st0 st : SimSt R (Fir R) S A (FastSt R) D O} {k : Nat}

/-- C179. With step size 0 the filter never changes: the loudspeakers are silent and every
microphone hears the free sources alone, as in a simulation without processors. -/
theorem C179_step_size_zero (h : FastScene cfg q) (hi : cfg.initWith (fastPrepare q) srcs arr (fastInit q Sp) f0 ds = .ok st0)
    (hk : cfg.steps k st0 = .ok st) (hfilt : cfg.filt = firOps R) (hpos : ∀ a ∈ cfg.arrays, 0 < a.num)
    (hsh : cfg.PathShape arr) {x : String → Nat → Nat → R}
    (hx : ∀ a ∈ cfg.arrays, a.kind = .free → IsStream cfg.srcGet (srcs a.name) a.num (x a.name)) (hmu : q.mu = 0) :
    (∀ l < q.nl, ∀ t ≤ k, cfg.Produced st0 "loudspeaker" l t 0) ∧
    (∀ r < q.nr, ∀ l < q.nl, st.eng.proc.ctrl.mat.ir r l = List.replicate q.L 0) ∧
    ∀ m ∈ cfg.arrays, m.kind = .mic → ∀ t ≤ k, ∃ ir : String → IrMat R,
      (∀ s ∈ cfg.arrays, s.kind ≠ .mic → cfg.IrAt arr s m t (ir s.name)) ∧
      ∀ c < m.num, cfg.Produced st0 m.name c t (convSum (cfg.arrays.filter fun s => s.kind != .mic) ir (cfg.played x) c t) := by
  obtain ⟨ρ, e, hρ, he⟩ := fast_recorded h hi hk
  obtain ⟨h1, h2⟩ := C175_adaptive h hi hk hρ he
  have hout : ∀ l t, adaptiveOut q.bs q.L q.nr q.L
      (lmsTaps .block q.beta q.mu q.nr q.nl q.ne q.L q.L q.bs (storedFrom (Sp.firstTaps (q.L - q.bs)) (cfg.B % q.L) q.bs ρ) e) ρ l t = 0 := by
    intro l t
    unfold adaptiveOut
    split
    · rfl
    · refine Finset.sum_eq_zero fun r _ => Finset.sum_eq_zero fun y _ => ?_
      rw [hmu, lmsTaps_mu_zero, zero_mul]
  refine ⟨?_, ?_, ?_⟩
  · intro l hl t ht
    have := h1 l hl t ht
    rwa [hout] at this
  · intro r hr l hl
    rw [h2 r hr l hl, hmu]
    refine List.ext_getElem (by simp) fun i _ _ => ?_
    simp [lmsTaps_mu_zero]
  · intro m hm hmic t ht
    obtain ⟨ir, g1, g2⟩ := C175_closed_loop h hi hk hfilt hpos hsh hx hρ he hm hmic t ht
    refine ⟨ir, g1, fun c hc => ?_⟩
    have := (g2 c hc).1
    rwa [convSum_upto (v := cfg.played x)] at this
    intro s hs i _ r _
    unfold SimCfg.playedWith
    split
    · rename_i hn
      rw [hout, ite_self]
      unfold SimCfg.played
      rw [if_neg]
      rintro ⟨⟨a, b1, b2, b3⟩, -⟩
      obtain ⟨hN, -⟩ := fast_begin h Sp hi
      exact fastLs_ne h hN b1 (by rw [b3]; decide) (b2.trans hn)
    · rfl

theorem fast_unique (h : FastScene cfg q) (hi : cfg.initWith (fastPrepare q) srcs arr (fastInit q Sp) f0 ds = .ok st0)
    (hk : cfg.steps k st0 = .ok st) {name : String} (hn : name ≠ "xf") {c t : Nat} (ht : t ≤ k) {v w : R}
    (hv : cfg.Produced st0 name c t v) (hw : cfg.Produced st0 name c t w) : v = w := by
  obtain ⟨hN, e0, he0, hI⟩ := fast_begin h Sp hi
  obtain ⟨te, off, r, hT⟩ := GInv.steps (fast_sizes h hN) hI k hk
  rw [gProduced_iff (fast_sizes h hN) hI hk hT.tape ht (fast_past _ _ hn)] at hv hw
  obtain ⟨_, _, _, g⟩ := hv
  obtain ⟨_, _, _, g'⟩ := hw
  rw [← g, ← g']

/-- C179. When the free sources are silent everything stays silent, and the taps stay 0. -/
theorem C179_silence (h : FastScene cfg q) (hi : cfg.initWith (fastPrepare q) srcs arr (fastInit q Sp) f0 ds = .ok st0)
    (hk : cfg.steps k st0 = .ok st) (hfilt : cfg.filt = firOps R) (hpos : ∀ a ∈ cfg.arrays, 0 < a.num)
    (hsh : cfg.PathShape arr)
    (hx : ∀ a ∈ cfg.arrays, a.kind = .free → IsStream cfg.srcGet (srcs a.name) a.num fun _ _ => 0) :
    (∀ l < q.nl, ∀ t ≤ k, cfg.Produced st0 "loudspeaker" l t 0) ∧
    (∀ m ∈ cfg.arrays, m.kind = .mic → ∀ c < m.num, ∀ t ≤ k, cfg.Produced st0 m.name c t 0) ∧
    ∀ r < q.nr, ∀ l < q.nl, st.eng.proc.ctrl.mat.ir r l = List.replicate q.L 0 := by
  obtain ⟨ρ, e, hρ, he⟩ := fast_recorded h hi hk
  obtain ⟨h1, h2⟩ := C175_adaptive h hi hk hρ he
  have hbs := h.bs
  have hrec : ∀ {name : String} {c t : Nat} {v : R}, cfg.Recorded st0 name c t v → cfg.Produced st0 name c t v := by
    intro name c t v hv
    unfold SimCfg.Recorded at hv
    rwa [if_pos (by omega), Int.toNat_natCast] at hv
  have hout : ∀ (W : Nat → Nat → Nat → Nat → R) (t : Nat), (∀ r < q.nr, ∀ t' < t, ρ r (t' : Nat) = 0) → ∀ l, ∀ t' ≤ t,
      adaptiveOut q.bs q.L q.nr q.L W ρ l t' = 0 := by
    intro W t hz l t' ht'
    unfold adaptiveOut
    split
    · rfl
    · refine Finset.sum_eq_zero fun r hr => Finset.sum_eq_zero fun y _ => ?_
      split
      · rw [mul_zero]
      · have := hz r (Finset.mem_range.1 hr) ((t' : Int) - q.bs - y).toNat (by omega)
        rw [Int.toNat_of_nonneg (by omega)] at this
        rw [this, mul_zero]
  have hplay : ∀ (W : Nat → Nat → Nat → Nat → R) (t : Nat), (∀ r < q.nr, ∀ t' < t, ρ r (t' : Nat) = 0) →
      ∀ (s : String) i, ∀ r ≤ (t : Int), cfg.playedWith (fun _ _ _ => 0) (adaptiveOut q.bs q.L q.nr q.L W ρ) s i r = 0 := by
    intro W t hz s i r hr
    unfold SimCfg.playedWith
    split
    · split
      · rfl
      · exact hout W t hz i r.toNat (by omega)
    · unfold SimCfg.played
      rw [ite_self]
  have hmic : ∀ (t : Nat), t ≤ k → (∀ r < q.nr, ∀ t' < t, ρ r (t' : Nat) = 0) → ∀ m ∈ cfg.arrays, m.kind = .mic →
      ∀ c < m.num, cfg.Produced st0 m.name c t 0 := by
    intro t ht hz m hm hmm c hc
    obtain ⟨ir, g1, g2⟩ := C175_closed_loop (x := fun _ _ _ => 0) h hi hk hfilt hpos hsh hx hρ he hm hmm t ht
    have := (g2 c hc).1
    rwa [convSum_zero fun s _ i _ r hr => hplay _ t hz s.name i r hr] at this
  have hz : ∀ t : Nat, t ≤ k → ∀ r < q.nr, ∀ t' < t + 1, ρ r (t' : Nat) = 0 := by
    intro t
    induction t with
    | zero =>
      intro ht r hr t' ht'
      obtain rfl : t' = 0 := by omega
      obtain ⟨a, ha, hn, hka, hnum⟩ := h.ref
      have g := hmic 0 ht (fun _ _ t' ht' => absurd ht' (Nat.not_lt_zero _)) a ha hka r (by omega)
      rw [hn] at g
      exact fast_unique h hi hk (by decide) ht (hrec (hρ r hr ((0 : Nat) : Int) (by omega))) g
    | succ t ih =>
      intro ht r hr t' ht'
      by_cases hlt : t' < t + 1
      · exact ih (by omega) r hr t' hlt
      · obtain rfl : t' = t + 1 := by omega
        obtain ⟨a, ha, hn, hka, hnum⟩ := h.ref
        have g := hmic (t + 1) ht (ih (by omega)) a ha hka r (by omega)
        rw [hn] at g
        exact fast_unique h hi hk (by decide) ht (hrec (hρ r hr ((t + 1 : Nat) : Int) (by omega))) g
  have hz' : ∀ t : Nat, t ≤ k → ∀ r < q.nr, ∀ t' < t, ρ r (t' : Nat) = 0 :=
    fun t ht r hr t' ht' => hz t ht r hr t' (by omega)
  refine ⟨?_, fun m hm hmm c hc t ht => hmic t ht (hz' t ht) m hm hmm c hc, ?_⟩
  · intro l hl t ht
    have := h1 l hl t ht
    rwa [hout _ t (hz' t ht) l t (le_refl _)] at this
  · intro r hr l hl
    have he0 : ∀ c < q.ne, ∀ t : Nat, t ≤ k → e c t = 0 := by
      intro c hc t ht
      obtain ⟨a, ha, hn, hka, hnum⟩ := h.err
      have g := hmic t ht (hz' t ht) a ha hka c (by omega)
      rw [hn] at g
      exact fast_unique h hi hk (by decide) ht (hrec (he c hc (t : Int) (by omega))) g
    have htap : ∀ (X : Nat → Nat → Nat → Int → R) (j : Nat), q.bs + j * q.L ≤ k + 1 → ∀ y,
        lmsTaps .block q.beta q.mu q.nr q.nl q.ne q.L q.L q.bs X e j r l y = 0 := by
      intro X j
      induction j with
      | zero => intro _ y; rfl
      | succ j ih =>
        intro hj y
        rw [Nat.add_mul, Nat.one_mul] at hj
        simp only [lmsTaps]
        rw [ih (by omega) y]
        have hg : lmsGrad .block q.beta q.nr q.nl q.ne q.L q.L X e ((q.bs + j * q.L : Nat) : Int) r l y = 0 := by
          unfold lmsGrad
          refine Finset.sum_eq_zero fun i hi => ?_
          have hi' := Finset.mem_range.1 hi
          rw [Finset.sum_eq_zero, zero_mul]
          intro c hc
          have := he0 c (Finset.mem_range.1 hc) (q.bs + j * q.L + i) (by omega)
          rw [show ((q.bs + j * q.L : Nat) : Int) + i = ((q.bs + j * q.L + i : Nat) : Int) by push_cast; ring, this, mul_zero]
        rw [hg, zero_mul, sub_zero]
    rw [h2 r hr l hl]
    refine List.ext_getElem (by simp) fun i _ _ => ?_
    simp only [List.getElem_map, List.getElem_range, List.getElem_replicate]
    by_cases hj : (k / q.bs - 1) * q.bs / q.L = 0
    · rw [hj]; rfl
    · refine htap _ _ ?_ i
      have a1 := Nat.div_mul_le_self ((k / q.bs - 1) * q.bs) q.L
      have a2 := Nat.div_mul_le_self k q.bs
      have a3 : 1 ≤ k / q.bs := by
        by_contra hlt
        apply hj
        rw [show k / q.bs - 1 = 0 by omega, Nat.zero_mul, Nat.zero_div]
      have a4 : (k / q.bs - 1) * q.bs + q.bs = k / q.bs * q.bs := by
        rw [Nat.sub_mul, Nat.one_mul]
        have := Nat.mul_le_mul_right q.bs a3
        omega
      omega

end

section
theorem fastLoop_scene (mu g : ℚ) : FastScene (fastCfg (loopCfg mu g) (loopPar mu)) (loopPar mu) := by
  have h : FastScene (fastCfg (fxCfg 5 3 (fxDemo 1 2 2 .sample) [1, 2] [0, 1] [1, -1]) (fxDemo 1 2 2 .sample)) (fxDemo 1 2 2 .sample) :=
    fastCfg_scene (by decide) (by decide) (by decide) (by decide)
  exact ⟨rfl, h.ref, h.err, h.ls, h.own, h.nr, h.nl, h.ne, h.L, h.bs, h.ub, h.chunk, h.buffer, h.regular⟩

theorem fastLoop_shape (mu g : ℚ) : (fastCfg (loopCfg mu g) (loopPar mu)).PathShape () := by
  intro n a _ s m h hs hm hp
  cases hp
  simp only [fastCfg, SimCfg.withProc, loopCfg, fxCfg, List.mem_cons, List.not_mem_nil, or_false] at hm
  rcases hm with rfl | rfl | rfl | rfl <;> rfl

/-- Step size 0: the error microphone hears the source alone, one sample late; with step
size 1/2 it hears something else. -/
example : ∃ (st0 st1 : SimSt ℚ (Fir ℚ) Nat Unit (FastSt ℚ) (DData ℚ (FastSt ℚ) ℚ) (DOut ℚ ℚ)),
    (fastCfg (loopCfg 0 1) (loopPar 0)).Produced st0 "loudspeaker" 0 7 0 ∧
    (fastCfg (loopCfg 0 1) (loopPar 0)).Produced st0 "error" 0 7 7 ∧
    (fastCfg (loopCfg (1/2) 1) (loopPar (1/2))).Produced st1 "loudspeaker" 0 7 (-5891/675) ∧
    ∃ ir : String → IrMat ℚ, convSum [⟨"noise", 1, .free, false⟩, ⟨"loudspeaker", 1, .ctrl, false⟩] ir
      ((fastCfg (loopCfg 0 1) (loopPar 0)).played fun _ _ t => 1 * ((t + 1 : Nat) : ℚ)) 0 7 = 7 := by
  have h1 : fastSample (loopCfg 0 1) (loopPar 0) [1, -1] "error" 7 = some 8 := by decide +kernel
  have h2 : fastSample (loopCfg 0 1) (loopPar 0) [1, -1] "error" 6 = some 7 := by decide +kernel
  have h3 : fastSample (loopCfg (1/2) 1) (loopPar (1/2)) [1, -1] "loudspeaker" 6 = some (-5891/675) := by decide +kernel
  obtain ⟨st0, st, h0, hk, -⟩ := fastSample_produced h1
  obtain ⟨st0', _, h0', -, p1⟩ := fastSample_produced h2
  obtain ⟨st1, _, -, -, p2⟩ := fastSample_produced h3
  rw [h0] at h0'
  cases h0'
  have hsc := fastLoop_scene 0 1
  obtain ⟨g1, -, g3⟩ := C179_step_size_zero (x := fun _ _ t => 1 * ((t + 1 : Nat) : ℚ)) hsc h0 hk rfl (loop_pos 0 1)
    (fastLoop_shape 0 1) (loop_stream 0 1) rfl
  obtain ⟨ir, -, g⟩ := g3 ⟨"error", 1, .mic, false⟩ (by simp [fastCfg, SimCfg.withProc, loopCfg, fxCfg]) rfl 7 (by decide)
  exact ⟨st0, st1, g1 0 (by decide) 7 (by decide), p1, p2, ir, fast_unique hsc h0 hk (by decide) (by decide) (g 0 (by decide)) p1⟩

/-- A silent source. -/
example : ∃ (st0 st : SimSt ℚ (Fir ℚ) Nat Unit (FastSt ℚ) (DData ℚ (FastSt ℚ) ℚ) (DOut ℚ ℚ)),
    (fastCfg (loopCfg (1/2) 0) (loopPar (1/2))).steps 7 st0 = .ok st ∧
    (fastCfg (loopCfg (1/2) 0) (loopPar (1/2))).Produced st0 "error" 0 7 0 ∧
    st.eng.proc.ctrl.mat.ir 0 0 = [0, 0] := by
  have h1 : fastSample (loopCfg (1/2) 0) (loopPar (1/2)) [1, -1] "error" 7 = some 0 := by decide +kernel
  obtain ⟨st0, st, h0, hk, -⟩ := fastSample_produced h1
  obtain ⟨-, g2, g3⟩ := C179_silence (fastLoop_scene (1/2) 0) h0 hk rfl (loop_pos (1/2) 0) (fastLoop_shape (1/2) 0) (by
    have := loop_stream (1/2) 0
    simp only [zero_mul] at this
    exact this)
  exact ⟨st0, st, hk, g2 ⟨"error", 1, .mic, false⟩ (by simp [fastCfg, SimCfg.withProc, loopCfg, fxCfg]) rfl 0 (by decide) 7 (by decide),
    g3 0 (by decide) 0 (by decide)⟩

end
end Verif

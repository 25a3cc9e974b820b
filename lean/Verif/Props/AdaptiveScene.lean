/-
C148, C149: the microphones and the sources in runs with the adaptive filter `FxLMS`.
-/
import Verif.Lemmas.AdaptiveMic
import Verif.Props.Adaptive
namespace Verif

section
variable {R : Type} [Field R]

theorem convSum_upto {l : List ArrInfo} {ir : String → IrMat R} {u v : String → Nat → Int → R} {c : Nat} {t : Int}
    (h : ∀ s ∈ l, ∀ i < s.num, ∀ r ≤ t, u s.name i r = v s.name i r) : convSum l ir u c t = convSum l ir v c t := by
  unfold convSum
  congr 1
  refine List.map_congr_left fun s hs => ?_
  congr 1
  refine List.map_congr_left fun i hi => ?_
  congr 1
  refine List.map_congr_left fun j _ => ?_
  rw [h s hs i (by simpa using hi) _ (by omega)]

theorem convSum_zero {l : List ArrInfo} {ir : String → IrMat R} {u : String → Nat → Int → R} {c : Nat} {t : Int}
    (h : ∀ s ∈ l, ∀ i < s.num, ∀ r ≤ t, u s.name i r = 0) : convSum l ir u c t = 0 := by
  rw [convSum_upto (v := fun _ _ _ => 0) h]
  unfold convSum
  refine List.sum_eq_zero fun x hx => ?_
  obtain ⟨s, _, rfl⟩ := List.mem_map.1 hx
  refine List.sum_eq_zero fun x hx => ?_
  obtain ⟨i, _, rfl⟩ := List.mem_map.1 hx
  refine List.sum_eq_zero fun x hx => ?_
  obtain ⟨j, _, rfl⟩ := List.mem_map.1 hx
  exact mul_zero _

theorem lmsTaps_mu_zero {norm : FxNorm} {β : R} {nr nl ne L ub a : Nat} {X : Nat → Nat → Nat → Int → R}
    {e : Nat → Int → R} : ∀ j r l x, lmsTaps norm β 0 nr nl ne L ub a X e j r l x = 0
  | 0, _, _, _ => rfl
  | j + 1, r, l, x => by
    simp only [lmsTaps]
    rw [lmsTaps_mu_zero j r l x, mul_zero, sub_zero]

end

section
variable {R S A D O : Type} [Field R] {cfg : SimCfg R (IrMat R) (Fir R) S A (FxSt R) D O} {q : FxPar R} {Sp : IrMat R}
  {srcs : String → S} {arr : A} {f0 : Fir R} {ds : List (Diag D)} {st0 st : SimSt R (Fir R) S A (FxSt R) D O} {k : Nat}

/-- C148. A simulation with `FxLMS`: the reference and the error microphones have
recorded `ρ` and `e`.  Then every microphone hears, at every time index, the sum over all
sources of their signals through the impulse responses in force, where the sources play
their streams and the loudspeakers what the adaptive filter makes of `ρ` and `e`, and
with `save_source_contributions` every contribution is the part of one source.  The
arrays may move. -/
theorem C148_closed_loop (h : FxScene cfg q) (hi : cfg.initWith fxPrepare srcs arr (fxInit q Sp) f0 ds = .ok st0)
    (hk : cfg.steps k st0 = .ok st) (hfilt : cfg.filt = firOps R) (hpos : ∀ a ∈ cfg.arrays, 0 < a.num)
    (hsh : cfg.PathShape arr) {x : String → Nat → Nat → R}
    (hx : ∀ a ∈ cfg.arrays, a.kind = .free → IsStream cfg.srcGet (srcs a.name) a.num (x a.name)) {ρ e : Nat → Int → R}
    (hρ : ∀ c < q.nr, ∀ t ≤ (k : Int), cfg.Recorded st0 "ref" c t (ρ c t))
    (he : ∀ c < q.ne, ∀ t ≤ (k : Int), cfg.Recorded st0 "error" c t (e c t))
    {m : ArrInfo} (hm : m ∈ cfg.arrays) (hmic : m.kind = .mic) :
    ∀ t ≤ k, ∃ ir : String → IrMat R,
      (∀ s ∈ cfg.arrays, s.kind ≠ .mic → cfg.IrAt arr s m t (ir s.name)) ∧
      ∀ c < m.num,
        cfg.Produced st0 m.name c t (convSum (cfg.arrays.filter fun s => s.kind != .mic) ir
          (cfg.playedWith x (adaptiveOut q.bs q.ub q.nr q.L
            (lmsTaps q.norm q.beta q.mu q.nr q.nl q.ne q.L q.ub q.bs (storedRef Sp q.bs ρ) e) ρ)) c t) ∧
        (cfg.contrib = true → ∀ s ∈ cfg.arrays, s.kind ≠ .mic →
          cfg.Produced st0 (s.name ++ "~" ++ m.name) c t (convSum [s] ir
            (cfg.playedWith x (adaptiveOut q.bs q.ub q.nr q.L
              (lmsTaps q.norm q.beta q.mu q.nr q.nl q.ne q.L q.ub q.bs (storedRef Sp q.bs ρ) e) ρ)) c t)) := by
  obtain ⟨hlsp, -⟩ := C143_stored h hi hk hρ he
  obtain ⟨hN, e0, he0, hI⟩ := fx_init h Sp hi
  obtain ⟨te, off, r, hT⟩ := GInv.steps (fx_sizes h hN) hI k hk
  have hd := fx_dims h hN
  have hB := h.buffer.1
  have hmm : m ∈ micsOf cfg.arrays := by
    unfold micsOf; rw [List.mem_filter]; exact ⟨hm, by simpa using hmic⟩
  generalize hY : adaptiveOut q.bs q.ub q.nr q.L
    (lmsTaps q.norm q.beta q.mu q.nr q.nl q.ne q.L q.ub q.bs (storedRef Sp q.bs ρ) e) ρ = Y at hlsp ⊢
  have hlst : ∀ l < q.nl, ∀ t : Int, t ≤ k → te.sig "loudspeaker" l (t - 1) = if t < 0 then 0 else Y l t.toNat := by
    intro l hl t ht
    by_cases h0 : t < 0
    · rw [if_pos h0]
      have := gSteps_past (n := 0) (e := fxStart q cfg.B e0) rfl (fx_past hd (name := "loudspeaker") (by decide)) k (e' := te)
        (by rw [Nat.zero_add]; exact hT.tape) l (t - 1) (by simp; omega)
      rw [this, fxStart_sig (by decide), tInit_unwritten hN he0 (ls_unwritten h hN)]
    · rw [if_neg h0]
      have := hlsp l hl t.toNat (by omega)
      rw [gProduced_iff (fx_sizes h hN) hI hk hT.tape (by omega) (fx_past _ (by decide))] at this
      obtain ⟨_, _, _, g⟩ := this
      rwa [Int.toNat_of_nonneg (by omega)] at g
  have hsrc : ∀ s ∈ sourcesOf cfg.arrays, ∀ i < s.num, ∀ t : Int, t ≤ k →
      (if -(cfg.prepNum : Int) < t then te.sig s.name i (t - 1) else 0) = cfg.playedWith x Y s.name i t := by
    intro s hs i hi t ht
    unfold SimCfg.playedWith
    by_cases hn : s.name = "loudspeaker"
    · have hnum : s.num = q.nl := by
        have h1 := hN.arr s (mem_sourcesOf hs).1
        rw [hn, hd.ls] at h1
        exact (Option.some.inj h1).symm
      have hpn : 1 ≤ cfg.prepNum := by unfold SimCfg.prepNum; split <;> omega
      rw [if_pos hn, hn, hlst i (by omega) t ht]
      by_cases h0 : t < 0
      · rw [if_pos h0, ite_self]
      · rw [if_neg h0, if_pos (by omega)]
    · rw [if_neg hn]
      exact fx_played h hN hx he0 hT.tape hs hn hi ht
  have hval : ∀ s ∈ sourcesOf cfg.arrays, ∀ (ir : IrMat R) (t c : Nat), t ≤ k → ir.numIn = s.num →
      firOut ir (histAt te.sig s cfg.prepNum t) c = ((List.range s.num).map fun i =>
        ((List.range (ir.ir i c).length).map fun k =>
          (ir.ir i c).getD k 0 * cfg.playedWith x Y s.name i (t - k)).sum).sum := by
    intro s hs ir t c ht hin
    rw [firOut_histAt _ _ _ _ _ _ hin]
    congr 1
    refine List.map_congr_left fun i hi => ?_
    congr 1
    refine List.map_congr_left fun j _ => ?_
    congr 1
    rw [← hsrc s hs i (by simpa using hi) _ (by omega)]
    by_cases hj : (j : Int) < t + cfg.prepNum
    · rw [if_pos hj, if_pos (by omega)]
      exact congrArg (te.sig s.name i) (by omega)
    · rw [if_neg hj, if_neg (by omega)]
  intro t ht
  obtain ⟨ir, g1, g2⟩ := fx_fir h hN hfilt hpos hsh hmm he0 hT.tape ht
  have hmem : ∀ s ∈ cfg.arrays, s.kind ≠ .mic → s ∈ sourcesOf cfg.arrays := by
    intro s hs hsk
    unfold sourcesOf; rw [List.mem_filter]; exact ⟨hs, by simpa using hsk⟩
  refine ⟨ir, fun s hs hsk => (g1 s (hmem s hs hsk)).1, ?_⟩
  intro c hc
  refine ⟨?_, ?_⟩
  · rw [gProduced_iff (fx_sizes h hN) hI hk hT.tape ht (fx_past _ (h.own m hm))]
    refine ⟨m.num, hN.arr m hm, hc, ?_⟩
    rw [g2 c hc]
    unfold convSum
    congr 1
    exact List.map_congr_left fun s hs => hval s hs _ t c ht (g1 s hs).2
  · intro hcon s hs hsk
    have hss := hmem s hs hsk
    obtain ⟨ir', q1, q2, q3⟩ := fx_pair h hN hcon hfilt hpos hsh hmm hss he0 hT.tape ht
    have hq : ir' = ir s.name := IrAt.unique q1 (g1 s hss).1
    subst hq
    refine (gProduced_iff (fx_sizes h hN) hI hk hT.tape ht (fx_past _ (contribName_ne_xf s m).symm)).2 ?_
    refine ⟨m.num, hN.con hcon (s, m) (mem_combosOf.2 ⟨hss, hmm⟩), hc, ?_⟩
    refine (q3 c hc).trans ?_
    unfold convSum
    rw [List.map_singleton, List.sum_singleton]
    exact hval s hss _ t c ht q2

/-- C149. With step size 0 the filter never changes: the loudspeakers are silent and every
microphone hears the free sources alone, as in a simulation without processors. -/
theorem C149_step_size_zero (h : FxScene cfg q) (hi : cfg.initWith fxPrepare srcs arr (fxInit q Sp) f0 ds = .ok st0)
    (hk : cfg.steps k st0 = .ok st) (hfilt : cfg.filt = firOps R) (hpos : ∀ a ∈ cfg.arrays, 0 < a.num)
    (hsh : cfg.PathShape arr) {x : String → Nat → Nat → R}
    (hx : ∀ a ∈ cfg.arrays, a.kind = .free → IsStream cfg.srcGet (srcs a.name) a.num (x a.name)) (hmu : q.mu = 0) :
    (∀ l < q.nl, ∀ t ≤ k, cfg.Produced st0 "loudspeaker" l t 0) ∧
    (∀ r < q.nr, ∀ l < q.nl, st.eng.proc.ctrl.mat.ir r l = List.replicate q.L 0) ∧
    ∀ m ∈ cfg.arrays, m.kind = .mic → ∀ t ≤ k, ∃ ir : String → IrMat R,
      (∀ s ∈ cfg.arrays, s.kind ≠ .mic → cfg.IrAt arr s m t (ir s.name)) ∧
      ∀ c < m.num, cfg.Produced st0 m.name c t (convSum (cfg.arrays.filter fun s => s.kind != .mic) ir (cfg.played x) c t) := by
  obtain ⟨ρ, e, hρ, he⟩ := fx_recorded h hi hk
  obtain ⟨h1, h2⟩ := C143_stored h hi hk hρ he
  have hout : ∀ l t, adaptiveOut q.bs q.ub q.nr q.L
      (lmsTaps q.norm q.beta q.mu q.nr q.nl q.ne q.L q.ub q.bs (storedRef Sp q.bs ρ) e) ρ l t = 0 := by
    intro l t
    unfold adaptiveOut
    split
    · rfl
    · refine Finset.sum_eq_zero fun r _ => Finset.sum_eq_zero fun y _ => ?_
      rw [hmu, lmsTaps_mu_zero, zero_mul]
  refine ⟨?_, ?_, ?_⟩
  · intro l hl t ht
    have := h1 l hl t ht
    rwa [hout] at this
  · intro r hr l hl
    rw [h2 r hr l hl, hmu]
    refine List.ext_getElem (by simp) fun i _ _ => ?_
    simp [lmsTaps_mu_zero]
  · intro m hm hmic t ht
    obtain ⟨ir, g1, g2⟩ := C148_closed_loop h hi hk hfilt hpos hsh hx hρ he hm hmic t ht
    refine ⟨ir, g1, fun c hc => ?_⟩
    have := (g2 c hc).1
    rwa [convSum_upto (v := cfg.played x)] at this
    intro s hs i _ r _
    unfold SimCfg.playedWith
    split
    · rename_i hn
      rw [hout, ite_self]
      unfold SimCfg.played
      rw [if_neg]
      rintro ⟨⟨a, b1, b2, b3⟩, -⟩
      obtain ⟨hN, -⟩ := fx_init h Sp hi
      exact ls_ne h hN b1 (by rw [b3]; decide) (b2.trans hn)
    · rfl

theorem fx_unique (h : FxScene cfg q) (hi : cfg.initWith fxPrepare srcs arr (fxInit q Sp) f0 ds = .ok st0)
    (hk : cfg.steps k st0 = .ok st) {name : String} (hn : name ≠ "xf") {c t : Nat} (ht : t ≤ k) {v w : R}
    (hv : cfg.Produced st0 name c t v) (hw : cfg.Produced st0 name c t w) : v = w := by
  obtain ⟨hN, e0, he0, hI⟩ := fx_init h Sp hi
  obtain ⟨te, off, r, hT⟩ := GInv.steps (fx_sizes h hN) hI k hk
  rw [gProduced_iff (fx_sizes h hN) hI hk hT.tape ht (fx_past _ hn)] at hv hw
  obtain ⟨_, _, _, g⟩ := hv
  obtain ⟨_, _, _, g'⟩ := hw
  rw [← g, ← g']

/-- C149. When the free sources are silent everything stays silent, and the taps stay 0. -/
theorem C149_silence (h : FxScene cfg q) (hi : cfg.initWith fxPrepare srcs arr (fxInit q Sp) f0 ds = .ok st0)
    (hk : cfg.steps k st0 = .ok st) (hfilt : cfg.filt = firOps R) (hpos : ∀ a ∈ cfg.arrays, 0 < a.num)
    (hsh : cfg.PathShape arr)
    (hx : ∀ a ∈ cfg.arrays, a.kind = .free → IsStream cfg.srcGet (srcs a.name) a.num fun _ _ => 0) :
    (∀ l < q.nl, ∀ t ≤ k, cfg.Produced st0 "loudspeaker" l t 0) ∧
    (∀ m ∈ cfg.arrays, m.kind = .mic → ∀ c < m.num, ∀ t ≤ k, cfg.Produced st0 m.name c t 0) ∧
    ∀ r < q.nr, ∀ l < q.nl, st.eng.proc.ctrl.mat.ir r l = List.replicate q.L 0 := by
  obtain ⟨ρ, e, hρ, he⟩ := fx_recorded h hi hk
  obtain ⟨h1, h2⟩ := C143_stored h hi hk hρ he
  have hbs := h.bs
  have hrec : ∀ {name : String} {c t : Nat} {v : R}, cfg.Recorded st0 name c t v → cfg.Produced st0 name c t v := by
    intro name c t v hv
    unfold SimCfg.Recorded at hv
    rwa [if_pos (by omega), Int.toNat_natCast] at hv
  have hout : ∀ (W : Nat → Nat → Nat → Nat → R) (t : Nat), (∀ r < q.nr, ∀ t' < t, ρ r (t' : Nat) = 0) → ∀ l, ∀ t' ≤ t,
      adaptiveOut q.bs q.ub q.nr q.L W ρ l t' = 0 := by
    intro W t hz l t' ht'
    unfold adaptiveOut
    split
    · rfl
    · refine Finset.sum_eq_zero fun r hr => Finset.sum_eq_zero fun y _ => ?_
      split
      · rw [mul_zero]
      · have := hz r (Finset.mem_range.1 hr) ((t' : Int) - q.bs - y).toNat (by omega)
        rw [Int.toNat_of_nonneg (by omega)] at this
        rw [this, mul_zero]
  have hplay : ∀ (W : Nat → Nat → Nat → Nat → R) (t : Nat), (∀ r < q.nr, ∀ t' < t, ρ r (t' : Nat) = 0) →
      ∀ (s : String) i, ∀ r ≤ (t : Int), cfg.playedWith (fun _ _ _ => 0) (adaptiveOut q.bs q.ub q.nr q.L W ρ) s i r = 0 := by
    intro W t hz s i r hr
    unfold SimCfg.playedWith
    split
    · split
      · rfl
      · exact hout W t hz i r.toNat (by omega)
    · unfold SimCfg.played
      rw [ite_self]
  have hmic : ∀ (t : Nat), t ≤ k → (∀ r < q.nr, ∀ t' < t, ρ r (t' : Nat) = 0) → ∀ m ∈ cfg.arrays, m.kind = .mic →
      ∀ c < m.num, cfg.Produced st0 m.name c t 0 := by
    intro t ht hz m hm hmm c hc
    obtain ⟨ir, g1, g2⟩ := C148_closed_loop (x := fun _ _ _ => 0) h hi hk hfilt hpos hsh hx hρ he hm hmm t ht
    have := (g2 c hc).1
    rwa [convSum_zero fun s _ i _ r hr => hplay _ t hz s.name i r hr] at this
  have hz : ∀ t : Nat, t ≤ k → ∀ r < q.nr, ∀ t' < t + 1, ρ r (t' : Nat) = 0 := by
    intro t
    induction t with
    | zero =>
      intro ht r hr t' ht'
      obtain rfl : t' = 0 := by omega
      obtain ⟨a, ha, hn, hka, hnum⟩ := h.ref
      have g := hmic 0 ht (fun _ _ t' ht' => absurd ht' (Nat.not_lt_zero _)) a ha hka r (by omega)
      rw [hn] at g
      exact fx_unique h hi hk (by decide) ht (hrec (hρ r hr ((0 : Nat) : Int) (by omega))) g
    | succ t ih =>
      intro ht r hr t' ht'
      by_cases hlt : t' < t + 1
      · exact ih (by omega) r hr t' hlt
      · obtain rfl : t' = t + 1 := by omega
        obtain ⟨a, ha, hn, hka, hnum⟩ := h.ref
        have g := hmic (t + 1) ht (ih (by omega)) a ha hka r (by omega)
        rw [hn] at g
        exact fx_unique h hi hk (by decide) ht (hrec (hρ r hr ((t + 1 : Nat) : Int) (by omega))) g
  have hz' : ∀ t : Nat, t ≤ k → ∀ r < q.nr, ∀ t' < t, ρ r (t' : Nat) = 0 :=
    fun t ht r hr t' ht' => hz t ht r hr t' (by omega)
  refine ⟨?_, fun m hm hmm c hc t ht => hmic t ht (hz' t ht) m hm hmm c hc, ?_⟩
  · intro l hl t ht
    have := h1 l hl t ht
    rwa [hout _ t (hz' t ht) l t (le_refl _)] at this
  · intro r hr l hl
    have he0 : ∀ c < q.ne, ∀ t : Nat, t ≤ k → e c t = 0 := by
      intro c hc t ht
      obtain ⟨a, ha, hn, hka, hnum⟩ := h.err
      have g := hmic t ht (hz' t ht) a ha hka c (by omega)
      rw [hn] at g
      exact fx_unique h hi hk (by decide) ht (hrec (he c hc (t : Int) (by omega))) g
    have htap : ∀ (X : Nat → Nat → Nat → Int → R) (j : Nat), q.bs + j * q.ub ≤ k + 1 → ∀ y,
        lmsTaps q.norm q.beta q.mu q.nr q.nl q.ne q.L q.ub q.bs X e j r l y = 0 := by
      intro X j
      induction j with
      | zero => intro _ y; rfl
      | succ j ih =>
        intro hj y
        rw [Nat.add_mul, Nat.one_mul] at hj
        simp only [lmsTaps]
        rw [ih (by omega) y]
        have hg : lmsGrad q.norm q.beta q.nr q.nl q.ne q.L q.ub X e ((q.bs + j * q.ub : Nat) : Int) r l y = 0 := by
          unfold lmsGrad
          refine Finset.sum_eq_zero fun i hi => ?_
          have hi' := Finset.mem_range.1 hi
          rw [Finset.sum_eq_zero, zero_mul]
          intro c hc
          have := he0 c (Finset.mem_range.1 hc) (q.bs + j * q.ub + i) (by omega)
          rw [show ((q.bs + j * q.ub : Nat) : Int) + i = ((q.bs + j * q.ub + i : Nat) : Int) by push_cast; ring, this, mul_zero]
        rw [hg, zero_mul, sub_zero]
    rw [h2 r hr l hl]
    refine List.ext_getElem (by simp) fun i _ _ => ?_
    simp only [List.getElem_map, List.getElem_range, List.getElem_replicate]
    by_cases hj : (k / q.bs - 1) * q.bs / q.ub = 0
    · rw [hj]; rfl
    · refine htap _ _ ?_ i
      have a1 := Nat.div_mul_le_self ((k / q.bs - 1) * q.bs) q.ub
      have a2 := Nat.div_mul_le_self k q.bs
      have a3 : 1 ≤ k / q.bs := by
        by_contra hlt
        apply hj
        rw [show k / q.bs - 1 = 0 by omega, Nat.zero_mul, Nat.zero_div]
      have a4 : (k / q.bs - 1) * q.bs + q.bs = k / q.bs * q.bs := by
        rw [Nat.sub_mul, Nat.one_mul]
        have := Nat.mul_le_mul_right q.bs a3
        omega
      omega

end
section
/-- The scene of the examples, with the contributions of the sources, a step size and
a source that counts in multiples of `g`. -/
def loopCfg (mu g : ℚ) : SimCfg ℚ (IrMat ℚ) (Fir ℚ) Nat Unit (FxSt ℚ) (DData ℚ (FxSt ℚ) ℚ) (DOut ℚ ℚ) :=
  { fxCfg 5 3 { fxDemo 1 2 2 .sample with mu := mu } [1, 2] [0, 1] [1, -1] with
    contrib := true
    srcGet := fun p n => .ok (p + n, [(List.range n).map fun k => g * ((p + k + 1 : Nat) : ℚ)]) }

def loopPar (mu : ℚ) : FxPar ℚ := { fxDemo 1 2 2 .sample with mu := mu }

theorem loop_scene (mu g : ℚ) : FxScene (loopCfg mu g) (loopPar mu) := by
  have h : FxScene (fxCfg 5 3 (fxDemo 1 2 2 .sample) [1, 2] [0, 1] [1, -1]) (fxDemo 1 2 2 .sample) :=
    fxCfg_scene (by decide) (by decide) (by decide) (by decide) (by decide)
  exact ⟨rfl, h.ref, h.err, h.ls, h.own, h.nr, h.nl, h.ne, h.L, h.bs, h.ub, h.chunk, h.buffer, h.regular⟩

theorem loop_pos (mu g : ℚ) : ∀ a ∈ (loopCfg mu g).arrays, 0 < a.num := by
  intro a ha
  simp only [loopCfg, fxCfg, List.mem_cons, List.not_mem_nil, or_false] at ha
  rcases ha with rfl | rfl | rfl | rfl <;> decide

theorem loop_shape (mu g : ℚ) : (loopCfg mu g).PathShape () := by
  intro n a _ s m h hs hm hp
  cases hp
  simp only [loopCfg, fxCfg, List.mem_cons, List.not_mem_nil, or_false] at hm
  rcases hm with rfl | rfl | rfl | rfl <;> rfl

theorem loop_stream (mu g : ℚ) : ∀ a ∈ (loopCfg mu g).arrays, a.kind = .free →
    IsStream (loopCfg mu g).srcGet ((fun _ => 0 : String → Nat) a.name) a.num fun _ t => g * ((t + 1 : Nat) : ℚ) := by
  intro a ha hk
  simp only [loopCfg, fxCfg, List.mem_cons, List.not_mem_nil, or_false] at ha
  have key : ∀ p0 : Nat, IsStream (loopCfg mu g).srcGet p0 1 fun _ t => g * ((p0 + t + 1 : Nat) : ℚ) := by
    intro p0
    refine isStream_of_inv (fun off s => s = p0 + off) rfl ?_
    rintro off s n rfl
    refine ⟨p0 + off + n, ?_, by omega⟩
    simp only [loopCfg, blockOf, List.range_one, List.map_cons, List.map_nil, Nat.add_assoc]
  rcases ha with rfl | rfl | rfl | rfl
  · cases hk
  · cases hk
  · have := key 0
    simp only [Nat.zero_add] at this
    exact this
  · cases hk

/-- The error microphone hears the source and the loudspeaker, each through its path. -/
example : ∃ (st0 : SimSt ℚ (Fir ℚ) Nat Unit (FxSt ℚ) (DData ℚ (FxSt ℚ) ℚ) (DOut ℚ ℚ)) (ρ e : Nat → Int → ℚ)
    (ir : String → IrMat ℚ) (Y : Nat → Nat → ℚ),
    Y = adaptiveOut 1 2 1 2 (lmsTaps .sample 1 (1/2) 1 1 1 2 2 1 (storedRef (fxSec [1, -1]) 1 ρ) e) ρ ∧
    (loopCfg (1/2) 1).Produced st0 "error" 0 6 (-771/190) ∧
    (loopCfg (1/2) 1).Produced st0 "loudspeaker~error" 0 6 (-1911/190) ∧
    convSum [⟨"noise", 1, .free, false⟩, ⟨"loudspeaker", 1, .ctrl, false⟩] ir
      ((loopCfg (1/2) 1).playedWith (fun _ _ t => 1 * ((t + 1 : Nat) : ℚ)) Y) 0 6 = -771/190 ∧
    convSum [⟨"loudspeaker", 1, .ctrl, false⟩] ir
      ((loopCfg (1/2) 1).playedWith (fun _ _ t => 1 * ((t + 1 : Nat) : ℚ)) Y) 0 6 = -1911/190 := by
  have h1 : fxSample (loopCfg (1/2) 1) (loopPar (1/2)) [1, -1] "error" 7 = some (799/190) := by decide +kernel
  have h2 : fxSample (loopCfg (1/2) 1) (loopPar (1/2)) [1, -1] "error" 6 = some (-771/190) := by decide +kernel
  have h3 : fxSample (loopCfg (1/2) 1) (loopPar (1/2)) [1, -1] "loudspeaker~error" 6 = some (-1911/190) := by
    decide +kernel
  obtain ⟨st0, st, h0, hk⟩ := fxRun_steps h1
  have hsc := loop_scene (1/2) 1
  obtain ⟨ρ, e, hρ, he⟩ := fx_recorded hsc h0 hk
  obtain ⟨ir, -, g⟩ := C148_closed_loop (x := fun _ _ t => 1 * ((t + 1 : Nat) : ℚ)) hsc h0 hk rfl (loop_pos _ _) (loop_shape _ _)
    (loop_stream _ _) hρ he (m := ⟨"error", 1, .mic, false⟩) (by simp [loopCfg, fxCfg]) rfl 6 (by decide)
  obtain ⟨g1, g2⟩ := g 0 (by decide)
  have g3 := g2 rfl ⟨"loudspeaker", 1, .ctrl, false⟩ (by simp [loopCfg, fxCfg]) (by decide)
  have p1 := fxSample_produced h0 h2
  have p2 := fxSample_produced h0 h3
  exact ⟨st0, ρ, e, ir, _, rfl, p1, p2, fx_unique hsc h0 hk (by decide) (by decide) g1 p1,
    fx_unique hsc h0 hk (by decide) (by decide) g3 p2⟩

/-- Step size 0: the error microphone hears the source alone, one sample late. -/
example : ∃ (st0 : SimSt ℚ (Fir ℚ) Nat Unit (FxSt ℚ) (DData ℚ (FxSt ℚ) ℚ) (DOut ℚ ℚ)),
    (loopCfg 0 1).Produced st0 "loudspeaker" 0 6 0 ∧ (loopCfg 0 1).Produced st0 "error" 0 6 6 ∧
    ∃ ir : String → IrMat ℚ, convSum [⟨"noise", 1, .free, false⟩, ⟨"loudspeaker", 1, .ctrl, false⟩] ir
      ((loopCfg 0 1).played fun _ _ t => 1 * ((t + 1 : Nat) : ℚ)) 0 6 = 6 := by
  have h1 : fxSample (loopCfg 0 1) (loopPar 0) [1, -1] "error" 7 = some 7 := by decide +kernel
  have h2 : fxSample (loopCfg 0 1) (loopPar 0) [1, -1] "error" 6 = some 6 := by decide +kernel
  obtain ⟨st0, st, h0, hk⟩ := fxRun_steps h1
  have hsc := loop_scene 0 1
  obtain ⟨g1, -, g3⟩ := C149_step_size_zero (x := fun _ _ t => 1 * ((t + 1 : Nat) : ℚ)) hsc h0 hk rfl (loop_pos _ _)
    (loop_shape _ _) (loop_stream _ _) rfl
  have p1 := fxSample_produced h0 h2
  obtain ⟨ir, -, g⟩ := g3 ⟨"error", 1, .mic, false⟩ (by simp [loopCfg, fxCfg]) rfl 6 (by decide)
  exact ⟨st0, g1 0 (by decide) 6 (by decide), p1, ir, fx_unique hsc h0 hk (by decide) (by decide) (g 0 (by decide)) p1⟩

/-- A silent source. -/
example : ∃ (st0 st : SimSt ℚ (Fir ℚ) Nat Unit (FxSt ℚ) (DData ℚ (FxSt ℚ) ℚ) (DOut ℚ ℚ)),
    (loopCfg (1/2) 0).steps 6 st0 = .ok st ∧ (loopCfg (1/2) 0).Produced st0 "error" 0 6 0 ∧
    st.eng.proc.ctrl.mat.ir 0 0 = [0, 0] := by
  have h1 : fxSample (loopCfg (1/2) 0) (loopPar (1/2)) [1, -1] "error" 7 = some 0 := by decide +kernel
  obtain ⟨st0, st, h0, hk⟩ := fxRun_steps h1
  have hsc := loop_scene (1/2) 0
  obtain ⟨-, g2, g3⟩ := C149_silence hsc h0 hk rfl (loop_pos _ _) (loop_shape _ _) (by
    have := loop_stream (1/2) 0
    simpa only [zero_mul] using this)
  exact ⟨st0, st, hk, g2 ⟨"error", 1, .mic, false⟩ (by simp [loopCfg, fxCfg]) rfl 0 (by decide) 6 (by decide),
    g3 0 (by decide) 0 (by decide)⟩

end
end Verif

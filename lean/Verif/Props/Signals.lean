/-
C10, C11, C12, C14 (the part about filtering), C15, C16: the signals produced by
sources and paths.
-/
import Verif.Lemmas.Started
import Verif.Lemmas.Processor
import Verif.Demo.Small
namespace Verif

section
variable {R IR F S A P V : Type} [Field R] [DecidableEq R]
  {cfg : SimCfg R IR F S A P (DData R P V) (DOut R V)} {lp : ProcView R P}
  {srcs : String → S} {arr : A} {proc : P} {f0 : F} {ds0 : List (Diag (DData R P V))}
  {st0 st : SimSt R F S A P (DData R P V) (DOut R V)} {k : Nat}

/-- C12. The signal of a free source at time index `t` is the `t`-th sample its
source object delivers, or the `(sim_buffer - 1 + t)`-th with
`start_sources_before_0`, whatever the processor does. -/
theorem C12_source_order (h : Started cfg lp srcs arr proc f0 ds0 st0) (hk : cfg.steps k st0 = .ok st)
    {a : ArrInfo} (ha : a ∈ cfg.arrays) (hfree : a.kind = .free) {x : Nat → Nat → R}
    (hx : IsStream cfg.srcGet (srcs a.name) a.num x) :
    ∀ t ≤ k, ∀ c v, cfg.Produced st0 a.name c t v ↔
      c < a.num ∧ v = x c ((if cfg.warm then cfg.B - 1 else 0) + t) := by
  obtain ⟨e0, te, he0, _, hte, _, hprod⟩ := h.tape hk
  have ham : a ∈ freeOf cfg.arrays := by
    unfold freeOf; rw [List.mem_filter]; exact ⟨ha, by simpa using hfree⟩
  obtain ⟨g1, g2⟩ := tInit_source cfg h.nm he0 ham hx
  obtain ⟨_, g4⟩ := tSteps_source cfg h.nm ham g1 g2 k hte
  have hB := h.posB
  intro t ht c v
  have hd := h.nm.arr a ha
  have hval : c < a.num → te.sig a.name c ((t : Int) - 1) =
      x c ((if cfg.warm then cfg.B - 1 else 0) + t) := by
    intro hc
    have := g4 c (cfg.prepNum - 1 + t) hc (by unfold SimCfg.prepNum; split <;> omega)
    have e1 : (((cfg.prepNum - 1 + t : Nat) : Int) - cfg.prepNum) = (t : Int) - 1 := by
      unfold SimCfg.prepNum; split <;> omega
    rw [e1] at this
    rw [this]
    congr 1
    unfold SimCfg.prepNum
    split <;> omega
  rw [hprod t ht]
  constructor
  · rintro ⟨num, h1, h2, rfl⟩
    rw [hd] at h1
    cases h1
    exact ⟨h2, hval h2⟩
  · rintro ⟨h1, rfl⟩
    exact ⟨a.num, hd, h1, hval h1⟩

/-- C11. With `save_source_contributions`, the contribution signals of a
microphone array add up to its signal, at every time index and channel, if the
processor does not write the microphone signal. -/
theorem C11_contributions (h : Started cfg lp srcs arr proc f0 ds0 st0) (hk : cfg.steps k st0 = .ok st)
    (hcon : cfg.contrib = true) {m : ArrInfo} (hm : m ∈ cfg.arrays) (hmic : m.kind = .mic)
    (hkeep : ∀ p, cfg.proc = some p → p.Keeps m.name) :
    ∀ t ≤ k, ∀ c < m.num, ∃ v : String → R,
      (∀ s ∈ cfg.arrays, s.kind ≠ .mic →
        cfg.Produced st0 (s.name ++ "~" ++ m.name) c t (v s.name)) ∧
      cfg.Produced st0 m.name c t
        (((cfg.arrays.filter fun s => s.kind != .mic).map fun s => v s.name).sum) := by
  obtain ⟨e0, te, he0, _, hte, _, hprod⟩ := h.tape hk
  have hmm : m ∈ micsOf cfg.arrays := by
    unfold micsOf; rw [List.mem_filter]; exact ⟨hm, by simpa using hmic⟩
  intro t ht c hc
  refine ⟨fun s => te.sig (s ++ "~" ++ m.name) c ((t : Int) - 1), ?_, ?_⟩
  · intro s hs hsk
    have hsm : s ∈ sourcesOf cfg.arrays := by
      unfold sourcesOf; rw [List.mem_filter]; exact ⟨hs, by simpa using hsk⟩
    rw [hprod t ht]
    exact ⟨m.num, h.nm.con hcon (s, m) (mem_combosOf.2 ⟨hsm, hmm⟩), hc, rfl⟩
  · rw [hprod t ht]
    refine ⟨m.num, h.nm.arr m hm, hc, ?_⟩
    exact tape_contrib cfg h.nm h.sizes.valid hcon h.posB hmm hkeep he0 k hte t ht c hc

end

section
variable {R S A P V : Type} [Field R] [DecidableEq R]
  {cfg : SimCfg R (IrMat R) (Fir R) S A P (DData R P V) (DOut R V)} {lp : ProcView R P}
  {srcs : String → S} {arr : A} {proc : P} {f0 : Fir R} {ds0 : List (Diag (DData R P V))}
  {st0 st : SimSt R (Fir R) S A P (DData R P V) (DOut R V)} {k : Nat}

/-- C14, filtering: the microphone sample with time index `t` is the convolution
of the source signals with the impulse responses in force for `t` (`IrAt`:
the ones of the array collection after the update of iteration `t-1` for pairs
with a moving array, the initial ones for all others). -/
theorem C14_filtering (h : Started cfg lp srcs arr proc f0 ds0 st0) (hk : cfg.steps k st0 = .ok st)
    (hfilt : cfg.filt = firOps R) (hpos : ∀ a ∈ cfg.arrays, 0 < a.num) (hsh : cfg.PathShape arr)
    {m : ArrInfo} (hm : m ∈ cfg.arrays) (hmic : m.kind = .mic)
    (hkeep : ∀ p, cfg.proc = some p → p.Keeps m.name) :
    ∃ u : String → Nat → Int → R,
      (∀ s ∈ cfg.arrays, s.kind ≠ .mic → ∀ i < s.num, ∀ t ≤ (k : Int),
        cfg.Emitted st0 s.name i t (u s.name i t)) ∧
      ∀ t ≤ k, ∃ ir : String → IrMat R,
        (∀ s ∈ cfg.arrays, s.kind ≠ .mic → cfg.IrAt arr s m t (ir s.name)) ∧
        ∀ c < m.num, cfg.Produced st0 m.name c t
          (convSum (cfg.arrays.filter fun s => s.kind != .mic) ir u c t) := by
  obtain ⟨e0, te, he0, h0, hte, _, hprod⟩ := h.tape hk
  have hmm : m ∈ micsOf cfg.arrays := by
    unfold micsOf; rw [List.mem_filter]; exact ⟨hm, by simpa using hmic⟩
  refine ⟨fun s i t => if -(cfg.prepNum : Int) < t then te.sig s i (t - 1) else 0, ?_, ?_⟩
  · intro s hs _ i hi t ht
    exact h.emitted h0 hte hprod (h.nm.arr s hs) hi ht
  · intro t ht
    obtain ⟨ir, g1, g2⟩ := tape_fir cfg h.nm h.sizes.valid hfilt hpos hsh h.posB hmm hkeep he0 k hte t ht
    refine ⟨ir, ?_, ?_⟩
    · intro s hs hsk
      exact (g1 s (by unfold sourcesOf; rw [List.mem_filter]; exact ⟨hs, by simpa using hsk⟩)).1
    · intro c hc
      rw [hprod t ht]
      refine ⟨m.num, h.nm.arr m hm, hc, ?_⟩
      rw [g2 c hc]
      unfold convSum
      congr 1
      refine List.map_congr_left fun s hs => ?_
      rw [firOut_histAt _ _ _ _ _ _ (g1 s hs).2]
      congr 1
      refine List.map_congr_left fun i _ => ?_
      congr 1
      refine List.map_congr_left fun j _ => ?_
      congr 1
      beta_reduce
      by_cases hj : (j : Int) < t + cfg.prepNum
      · rw [if_pos hj, if_pos (by omega)]
        exact congrArg (te.sig s.name i) (by omega)
      · rw [if_neg hj, if_neg (by omega)]

/-- C10. With arrays that stand still, the signal of a microphone array is the
sum over all sources, channels and taps of the impulse responses times the
source samples. -/
theorem C10_convolution (h : Started cfg lp srcs arr proc f0 ds0 st0) (hk : cfg.steps k st0 = .ok st)
    (hfilt : cfg.filt = firOps R) (hpos : ∀ a ∈ cfg.arrays, 0 < a.num) (hsh : cfg.PathShape arr)
    (hstat : ∀ a ∈ cfg.arrays, a.dynamic = false)
    {m : ArrInfo} (hm : m ∈ cfg.arrays) (hmic : m.kind = .mic)
    (hkeep : ∀ p, cfg.proc = some p → p.Keeps m.name) {ir : String → IrMat R}
    (hir : ∀ s ∈ cfg.arrays, s.kind ≠ .mic → cfg.arrPath arr s.name m.name = .ok (ir s.name)) :
    ∃ u : String → Nat → Int → R,
      (∀ s ∈ cfg.arrays, s.kind ≠ .mic → ∀ i < s.num, ∀ t ≤ (k : Int),
        cfg.Emitted st0 s.name i t (u s.name i t)) ∧
      ∀ t ≤ k, ∀ c < m.num, cfg.Produced st0 m.name c t
          (convSum (cfg.arrays.filter fun s => s.kind != .mic) ir u c t) := by
  obtain ⟨u, h1, h2⟩ := C14_filtering h hk hfilt hpos hsh hm hmic hkeep
  refine ⟨u, h1, ?_⟩
  intro t ht c hc
  obtain ⟨ir', g1, g2⟩ := h2 t ht
  have := g2 c hc
  have heq : convSum (cfg.arrays.filter fun s => s.kind != .mic) ir' u c t =
      convSum (cfg.arrays.filter fun s => s.kind != .mic) ir u c t := by
    unfold convSum
    congr 1
    refine List.map_congr_left fun s hs => ?_
    rw [List.mem_filter] at hs
    have hsk : s.kind ≠ .mic := by simpa using hs.2
    have e1 := hir s hs.1 hsk
    have e2 := g1 s hs.1 hsk
    have e3 : cfg.arrPath arr s.name m.name = .ok (ir' s.name) := by
      cases t with
      | zero => exact e2
      | succ t =>
        change if _ then _ else _ at e2
        rw [if_neg (by rw [hstat s hs.1, hstat m hm]; simp)] at e2
        exact e2
    rw [e1] at e3
    rw [Except.ok.inj e3]
  rw [← heq]
  exact this

/-- C16. With `start_sources_before_0` the `sim_buffer` samples before the first
step hold the first `sim_buffer` samples of the sources (zero for loudspeakers),
and the microphone history is their convolution with the initial paths. -/
theorem C16_warm_history (h : Started cfg lp srcs arr proc f0 ds0 st0) (hw : cfg.warm = true)
    (hfilt : cfg.filt = firOps R) (hpos : ∀ a ∈ cfg.arrays, 0 < a.num) (hsh : cfg.PathShape arr)
    {x : String → Nat → Nat → R}
    (hx : ∀ a ∈ cfg.arrays, a.kind = .free → IsStream cfg.srcGet (srcs a.name) a.num (x a.name)) :
    (∀ a ∈ cfg.arrays, a.kind = .free → ∀ c < a.num, ∀ i < cfg.B,
      st0.eng.sig.At a.name c i (x a.name c i)) ∧
    (∀ a ∈ cfg.arrays, a.kind = .ctrl → ∀ c < a.num, ∀ i < cfg.B, st0.eng.sig.At a.name c i 0) ∧
    ∀ m ∈ cfg.arrays, m.kind = .mic → ∃ ir : String → IrMat R,
      (∀ s ∈ cfg.arrays, s.kind ≠ .mic → cfg.arrPath arr s.name m.name = .ok (ir s.name)) ∧
      ∀ c < m.num, ∀ i < cfg.B, st0.eng.sig.At m.name c i
        (convSum (cfg.arrays.filter fun s => s.kind == .free) ir
          (fun s j t => if 0 ≤ t then x s j t.toNat else 0) c i) := by
  obtain ⟨e0, he0, h0⟩ := h.start
  have hpn : cfg.prepNum = cfg.B := by unfold SimCfg.prepNum; rw [if_pos hw]
  have hsrc : ∀ a ∈ cfg.arrays, a.kind = .free → ∀ c < a.num, ∀ i < cfg.B,
      e0.sig a.name c ((i : Int) - cfg.B) = x a.name c i := by
    intro a ha hf c hc i hi
    have ham : a ∈ freeOf cfg.arrays := by
      unfold freeOf; rw [List.mem_filter]; exact ⟨ha, by simpa using hf⟩
    have := (tInit_source cfg h.nm he0 ham (hx a ha hf)).2 c i hc (by rw [hpn]; exact hi)
    rw [hpn] at this
    exact this
  have hctrl : ∀ a ∈ cfg.arrays, a.kind = .ctrl → ∀ c t, e0.sig a.name c t = 0 := by
    intro a ha hf c t
    obtain ⟨fs, e1, W, g1, g2, g3⟩ := tInit_parts cfg h.nm he0
    have ham : a ∈ sourcesOf cfg.arrays := by
      unfold sourcesOf; rw [List.mem_filter]; exact ⟨ha, by rw [hf]; rfl⟩
    obtain ⟨n1, n2⟩ := src_ne h.nm ham
    rw [g3.old a.name c _ (fun hc => .inl (n1 hc)) (.inr (.inr n2)), g2.sig a.name c _ (.inl ?_)]
    intro y hy he
    obtain ⟨y1, y2⟩ := mem_freeOf hy
    have := h.nm.inj a ha y y1 he
    rw [this, y2] at hf
    cases hf
  refine ⟨?_, ?_, ?_⟩
  · intro a ha hf c hc i hi
    rw [h.buffer h0 (h.nm.arr a ha) hc hi]
    exact hsrc a ha hf c hc i hi
  · intro a ha hf c hc i hi
    rw [h.buffer h0 (h.nm.arr a ha) hc hi]
    exact hctrl a ha hf c _
  · intro m hm hmic
    have hmm : m ∈ micsOf cfg.arrays := by
      unfold micsOf; rw [List.mem_filter]; exact ⟨hm, by simpa using hmic⟩
    obtain ⟨ir, g1, g2⟩ := prep_fir cfg h.nm hfilt hpos hsh h.posB hmm he0
    refine ⟨ir, ?_, ?_⟩
    · intro s hs hsk
      exact (g1 s (by unfold sourcesOf; rw [List.mem_filter]; exact ⟨hs, by simpa using hsk⟩)).1
    · intro c hc i hi
      rw [h.buffer h0 (h.nm.arr m hm) hc hi, g2 c i hc hi, if_pos hw, if_pos hw]
      unfold convSum
      have hterm : ∀ s ∈ sourcesOf cfg.arrays, firOut (ir s.name)
          ((List.range (i + 1)).map fun d : Nat => colAt e0.sig s ((i : Int) - cfg.B - d)) c =
          if s.kind = .free then ((List.range s.num).map fun j =>
            ((List.range ((ir s.name).ir j c).length).map fun k =>
              ((ir s.name).ir j c).getD k 0 *
                (if 0 ≤ (i : Int) - k then x s.name j ((i : Int) - k).toNat else 0)).sum).sum else 0 := by
        intro s hs
        obtain ⟨hs1, hs2⟩ := mem_sourcesOf hs
        unfold firOut
        rw [(g1 s hs).2]
        have hval : ∀ j < s.num, ∀ k : Nat, (((List.range (i + 1)).map fun d : Nat => colAt e0.sig s
            ((i : Int) - cfg.B - d)).getD k []).getD j 0 =
            if s.kind = .free then (if 0 ≤ (i : Int) - k then x s.name j ((i : Int) - k).toNat else 0)
              else 0 := by
          intro j hj k
          by_cases hki : k < i + 1
          · have e1 : ((List.range (i + 1)).map fun d : Nat => colAt e0.sig s
                ((i : Int) - cfg.B - d)).getD k [] = colAt e0.sig s ((i : Int) - cfg.B - k) := by
              simp [List.getD_eq_getElem?_getD, hki]
            rw [e1]
            have e2 : (colAt e0.sig s ((i : Int) - cfg.B - k)).getD j 0 =
                e0.sig s.name j ((i : Int) - cfg.B - k) := by simp [colAt, hj]
            rw [e2, if_pos (by omega : 0 ≤ (i : Int) - k)]
            split
            · rename_i hfr
              rw [← hsrc s hs1 hfr j hj ((i : Int) - k).toNat (by omega)]
              exact congrArg (e0.sig s.name j) (by omega)
            · rename_i hfr
              have hct : s.kind = .ctrl := by
                cases hkd : s.kind with
                | mic => exact absurd hkd hs2
                | free => exact absurd hkd hfr
                | ctrl => rfl
              exact hctrl s hs1 hct j _
          · have e1 : ((List.range (i + 1)).map fun d : Nat => colAt e0.sig s
                ((i : Int) - cfg.B - d)).getD k [] = [] := by
              rw [List.getD_eq_default]; simp; omega
            rw [e1, if_neg (by omega : ¬ 0 ≤ (i : Int) - k)]
            simp
        split
        · rename_i hfr
          congr 1
          refine List.map_congr_left fun j hj => ?_
          congr 1
          refine List.map_congr_left fun k _ => ?_
          rw [hval j (by simpa using hj) k, if_pos hfr]
        · rename_i hfr
          apply List.sum_eq_zero
          intro v hv
          obtain ⟨j, hj, rfl⟩ := List.mem_map.1 hv
          apply List.sum_eq_zero
          intro v hv
          obtain ⟨k, hk, rfl⟩ := List.mem_map.1 hv
          rw [hval j (by simpa using hj) k, if_neg hfr, mul_zero]
      rw [List.map_congr_left hterm]
      have hsum : ∀ (l : List ArrInfo) (g : ArrInfo → R), (∀ a ∈ l, a.kind = .free → a.kind ≠ .mic) →
          ((l.filter fun s => s.kind != .mic).map fun s => if s.kind = .free then g s else 0).sum =
          ((l.filter fun s => s.kind == .free).map g).sum := by
        intro l g
        induction l with
        | nil => intro _; rfl
        | cons a l ih =>
          intro hl
          have := ih fun b hb => hl b (by simp [hb])
          cases hka : a.kind with
          | mic => simp [List.filter_cons, hka, this]
          | free => simp [List.filter_cons, hka, this]
          | ctrl => simp [List.filter_cons, hka, this]
      exact hsum cfg.arrays _ fun a _ hf => by rw [hf]; decide

/-- C15, partial: before the sources start (`start_sources_before_0 = False`),
all source signals are zero, but the microphone history is filled with the
sample of time index 0; it is silent exactly if that sample is zero.  Missing:
silence in general, which does not hold (`C15_violated`). -/
theorem C15_cold_history_partial (h : Started cfg lp srcs arr proc f0 ds0 st0) (hw : cfg.warm = false)
    (hfilt : cfg.filt = firOps R) (hpos : ∀ a ∈ cfg.arrays, 0 < a.num) (hsh : cfg.PathShape arr) :
    (∀ a ∈ cfg.arrays, a.kind ≠ .mic → ∀ c < a.num, ∀ i < cfg.B - 1, st0.eng.sig.At a.name c i 0) ∧
    ∀ m ∈ cfg.arrays, m.kind = .mic → ∀ c < m.num, ∃ v, cfg.Produced st0 m.name c 0 v ∧
      ∀ i < cfg.B, st0.eng.sig.At m.name c i v := by
  obtain ⟨e0, he0, h0⟩ := h.start
  have hB := h.posB
  constructor
  · intro a ha hk c hc i hi
    rw [h.buffer h0 (h.nm.arr a ha) hc (by omega)]
    obtain ⟨fs, e1, W, g1, g2, g3⟩ := tInit_parts cfg h.nm he0
    have ham : a ∈ sourcesOf cfg.arrays := by
      unfold sourcesOf; rw [List.mem_filter]; exact ⟨ha, by simpa using hk⟩
    obtain ⟨n1, n2⟩ := src_ne h.nm ham
    have hpn : cfg.prepNum = 1 := by unfold SimCfg.prepNum; rw [if_neg (by simp [hw])]
    rw [g3.old a.name c _ (fun hc => .inl (n1 hc)) (.inr (.inr n2)),
      g2.sig a.name c _ (.inr (.inl (by rw [hpn]; push_cast; omega)))]
  · intro m hm hmic c hc
    have hmm : m ∈ micsOf cfg.arrays := by
      unfold micsOf; rw [List.mem_filter]; exact ⟨hm, by simpa using hmic⟩
    obtain ⟨ir, g1, g2⟩ := prep_fir cfg h.nm hfilt hpos hsh h.posB hmm he0
    have hall : ∀ i < cfg.B, st0.eng.sig.At m.name c i (((sourcesOf cfg.arrays).map fun s =>
        firOut (ir s.name) ((List.range 1).map fun d : Nat => colAt e0.sig s (-1 - d)) c).sum) := by
      intro i hi
      rw [h.buffer h0 (h.nm.arr m hm) hc hi, g2 c i hc hi]
      simp only [hw, Bool.false_eq_true, ↓reduceIte]
    exact ⟨_, hall (cfg.B - 1) (by omega), hall⟩

end

/-! ### Concrete runs meeting the hypotheses -/

/-- Its source delivers 1, 2, 3, ... -/
theorem demo_stream (B C tot : Nat) :
    IsStream (demoCfg B C tot).srcGet 0 1 (fun _ t => ((t + 1 : Nat) : ℚ)) :=
  isStream_of_inv (fun k s => s = k) rfl fun k s n hs => by
    subst hs
    refine ⟨s + n, ?_, rfl⟩
    show Except.ok (s + n, [_]) = _
    rfl

theorem demo_shape (B C tot : Nat) (arr) : (demoCfg B C tot).PathShape arr := by
  intro n a _ s m h hs hm hp
  cases hp
  simp only [demoCfg, List.mem_cons, List.not_mem_nil, or_false] at hm
  rcases hm with rfl | rfl | rfl <;> rfl

example : ∃ st0 : DemoSt, ∀ t ≤ 8, ∀ c v, (demoCfg 4 2 6).Produced st0 "src" c t v ↔
    c < 1 ∧ v = ((0 + t + 1 : Nat) : ℚ) := by
  obtain ⟨st0, st, h, hk⟩ := demo_started
  exact ⟨st0, C12_source_order h hk (a := ⟨"src", 1, .free, false⟩) (by simp [demoCfg]) rfl
    (demo_stream 4 2 6)⟩

example : ∃ st0 : DemoSt, ∀ t ≤ 8, ∃ v : String → ℚ,
    (demoCfg 4 2 6).Produced st0 "src~mic" 0 t (v "src") ∧
    (demoCfg 4 2 6).Produced st0 "loudspeaker~mic" 0 t (v "loudspeaker") ∧
    (demoCfg 4 2 6).Produced st0 "mic" 0 t (v "src" + (v "loudspeaker" + 0)) := by
  obtain ⟨st0, st, h, hk⟩ := demo_started
  refine ⟨st0, fun t ht => ?_⟩
  obtain ⟨v, h1, h2⟩ := C11_contributions h hk rfl (m := ⟨"mic", 1, .mic, false⟩) (by simp [demoCfg]) rfl
    (by rintro p ⟨⟩; exact debug_keeps 6 2 (by decide)) t ht 0 (by decide)
  exact ⟨v, h1 ⟨"src", 1, .free, false⟩ (by simp [demoCfg]) (by decide),
    h1 ⟨"loudspeaker", 1, .ctrl, false⟩ (by simp [demoCfg]) (by decide), h2⟩

example : ∃ (st0 : DemoSt) (u : String → Nat → Int → ℚ),
    (∀ t ≤ (8 : Int), (demoCfg 4 2 6).Emitted st0 "src" 0 t (u "src" 0 t)) ∧
    ∀ t ≤ 8, (demoCfg 4 2 6).Produced st0 "mic" 0 t
      (((1 * u "src" 0 (t - (0 : Nat)) + (2 * u "src" 0 (t - (1 : Nat)) + 0)) + 0) +
        (((0 * u "loudspeaker" 0 (t - (0 : Nat)) + (3 * u "loudspeaker" 0 (t - (1 : Nat)) + 0)) + 0) + 0)) := by
  obtain ⟨st0, st, h, hk⟩ := demo_started
  obtain ⟨u, h1, h2⟩ := C10_convolution h hk rfl
    (by intro a ha; simp only [demoCfg, List.mem_cons, List.not_mem_nil, or_false] at ha
        rcases ha with rfl | rfl | rfl <;> decide) (demo_shape 4 2 6 _)
    (by intro a ha; simp only [demoCfg, List.mem_cons, List.not_mem_nil, or_false] at ha
        rcases ha with rfl | rfl | rfl <;> rfl)
    (m := ⟨"mic", 1, .mic, false⟩) (by simp [demoCfg]) rfl
    (by rintro p ⟨⟩; exact debug_keeps 6 2 (by decide))
    (ir := fun s => ⟨1, 1, fun _ _ => if s = "src" then [1, 2] else [0, 3]⟩) (fun s _ _ => rfl)
  exact ⟨st0, u, fun t ht => h1 ⟨"src", 1, .free, false⟩ (by simp [demoCfg]) (by decide) 0 (by decide) t ht,
    fun t ht => h2 t ht 0 (by decide)⟩

/-- C15 does not hold: in the demonstration run the microphone history is
filled with the value 1 before the source has started. -/
theorem C15_violated : ∃ st0 : DemoSt,
    (demoCfg 4 2 6).init (fun _ => 0) () demoProc demoFilt demoDs = .ok st0 ∧
    (demoCfg 4 2 6).warm = false ∧ ∀ i < 4, st0.eng.sig.At "mic" 0 i 1 := by
  refine ⟨_, rfl, rfl, ?_⟩
  intro i hi
  refine ⟨[[1, 1, 1, 1, 0, 0]], [1, 1, 1, 1, 0, 0], by decide +kernel, by rfl, ?_⟩
  match i, hi with
  | 0, _ => rfl
  | 1, _ => rfl
  | 2, _ => rfl
  | 3, _ => rfl

example : ∃ st0 : DemoSt, (∀ i < 3, st0.eng.sig.At "src" 0 i 0) ∧
    ∃ v, (demoCfg 4 2 6).Produced st0 "mic" 0 0 v ∧ ∀ i < 4, st0.eng.sig.At "mic" 0 i v := by
  obtain ⟨st0, st, h, hk⟩ := demo_started
  obtain ⟨h1, h2⟩ := C15_cold_history_partial h rfl rfl
    (by intro a ha; simp only [demoCfg, List.mem_cons, List.not_mem_nil, or_false] at ha
        rcases ha with rfl | rfl | rfl <;> decide) (demo_shape 4 2 6 _)
  exact ⟨st0, h1 ⟨"src", 1, .free, false⟩ (by simp [demoCfg]) (by decide) 0 (by decide),
    h2 ⟨"mic", 1, .mic, false⟩ (by simp [demoCfg]) rfl 0 (by decide)⟩

/-- The same simulation with `start_sources_before_0`. -/
def warmCfg : SimCfg ℚ (IrMat ℚ) (Fir ℚ) Nat Unit (DebugSt ℚ) DemoD DemoO :=
  { demoCfg 4 2 6 with warm := true }

theorem warm_started : ∃ st0, Started warmCfg ((debugProc 6 2).view 2) (fun _ => 0) ()
    demoProc demoFilt demoDs st0 := by
  refine ⟨_, ⟨demo_admissible.block, demo_admissible.buffer, demo_admissible.chunk,
    demo_admissible.proc, demo_admissible.valid⟩, rfl, by decide, rfl⟩

example : ∃ st0 : DemoSt, (∀ i < 4, st0.eng.sig.At "src" 0 i ((i + 1 : Nat) : ℚ)) ∧
    (∀ i < 4, st0.eng.sig.At "loudspeaker" 0 i 0) ∧
    ∀ i < 4, ∃ v, st0.eng.sig.At "mic" 0 i v := by
  obtain ⟨st0, h⟩ := warm_started
  obtain ⟨h1, h2, h3⟩ := C16_warm_history h rfl rfl
    (by intro a ha; change a ∈ (demoCfg 4 2 6).arrays at ha
        simp only [demoCfg, List.mem_cons, List.not_mem_nil, or_false] at ha
        rcases ha with rfl | rfl | rfl <;> decide)
    (by intro n a _ s m h hs hm hp
        cases hp
        change m ∈ (demoCfg 4 2 6).arrays at hm
        simp only [demoCfg, List.mem_cons, List.not_mem_nil, or_false] at hm
        rcases hm with rfl | rfl | rfl <;> rfl)
    (x := fun _ _ t => ((t + 1 : Nat) : ℚ))
    (by intro a ha hf; change a ∈ (demoCfg 4 2 6).arrays at ha
        simp only [demoCfg, List.mem_cons, List.not_mem_nil, or_false] at ha
        rcases ha with rfl | rfl | rfl
        · cases hf
        · exact demo_stream 4 2 6
        · cases hf)
  refine ⟨st0, h1 ⟨"src", 1, .free, false⟩ (by simp [warmCfg, demoCfg]) rfl 0 (by decide),
    h2 ⟨"loudspeaker", 1, .ctrl, false⟩ (by simp [warmCfg, demoCfg]) rfl 0 (by decide), ?_⟩
  obtain ⟨ir, _, g⟩ := h3 ⟨"mic", 1, .mic, false⟩ (by simp [warmCfg, demoCfg]) rfl
  exact fun i hi => ⟨_, g 0 (by decide) i hi⟩

/-- A moving free source without processor; the impulse response after the
update of iteration `n` is `[n + 1, 1]`. -/
def movCfg : SimCfg ℚ (IrMat ℚ) (Fir ℚ) Nat Nat Unit (DData ℚ Unit ℚ) (DOut ℚ ℚ) where
  B := 4
  C := 2
  tot := 6
  warm := false
  contrib := false
  plotNone := false
  arrays := [⟨"mic", 1, .mic, false⟩, ⟨"src", 1, .free, true⟩]
  srcGet := fun p n => .ok (p + n, [(List.range n).map fun k => ((p + k + 1 : Nat) : ℚ)])
  filt := firOps ℚ
  arrUpdate := fun _ n => .ok (n + 1)
  arrPath := fun a _ _ => .ok ⟨1, 1, fun _ _ => [(a : ℚ), 1]⟩
  proc := none
  diag := diagOps ℚ Unit ℚ

theorem mov_started : ∃ st0 st, Started movCfg ⟨0, fun p _ => .ok (p, fun _ _ _ => 0)⟩ (fun _ => 0) 0
    () demoFilt [] st0 ∧ movCfg.steps 3 st0 = .ok st := by
  refine ⟨_, _, ⟨⟨by decide, by decide, by decide, ?_, ?_⟩, rfl, by decide, rfl⟩, rfl⟩
  · rintro p ⟨⟩
  · rintro p ⟨⟩

example : ∃ (st0 : SimSt ℚ (Fir ℚ) Nat Nat Unit (DData ℚ Unit ℚ) (DOut ℚ ℚ)) (u : Int → ℚ),
    (∀ t ≤ (3 : Int), movCfg.Emitted st0 "src" 0 t (u t)) ∧
    ∀ t ≤ 3, movCfg.Produced st0 "mic" 0 t
      (((((t : Nat) : ℚ) * u (t - (0 : Nat)) + (1 * u (t - (1 : Nat)) + 0)) + 0) + 0) := by
  obtain ⟨st0, st, h, hk⟩ := mov_started
  obtain ⟨u, h1, h2⟩ := C14_filtering h hk rfl
    (by intro a ha; simp only [movCfg, List.mem_cons, List.not_mem_nil, or_false] at ha
        rcases ha with rfl | rfl <;> decide)
    (by intro n a _ s m h hs hm hp
        cases hp
        simp only [movCfg, List.mem_cons, List.not_mem_nil, or_false] at hm
        rcases hm with rfl | rfl <;> rfl)
    (m := ⟨"mic", 1, .mic, false⟩) (by simp [movCfg]) rfl (by rintro p ⟨⟩)
  refine ⟨st0, fun t => u "src" 0 t,
    fun t ht => h1 ⟨"src", 1, .free, true⟩ (by simp [movCfg]) (by decide) 0 (by decide) t ht,
    fun t ht => ?_⟩
  obtain ⟨ir, g1, g2⟩ := h2 t ht
  have h3 := g2 0 (by decide)
  have h4 := g1 ⟨"src", 1, .free, true⟩ (by simp [movCfg]) (by decide)
  have h5 : ir "src" = ⟨1, 1, fun _ _ => [(t : ℚ), 1]⟩ := by
    cases t with
    | zero => exact (Except.ok.inj h4).symm
    | succ n =>
      dsimp only [SimCfg.IrAt] at h4
      rw [if_pos (Or.inl rfl)] at h4
      obtain ⟨a, ha, hb⟩ := h4
      have ha' : a = n + 1 := by
        unfold SimCfg.arrAfter at ha
        split at ha
        · cases ha
        · exact (Except.ok.inj ha).symm
      subst ha'
      exact (Except.ok.inj hb).symm
  have e : (movCfg.arrays.filter fun s => s.kind != .mic) = [⟨"src", 1, .free, true⟩] := rfl
  rw [e] at h3
  unfold convSum at h3
  simp only [List.map_cons, List.map_nil, h5] at h3
  exact h3

end Verif

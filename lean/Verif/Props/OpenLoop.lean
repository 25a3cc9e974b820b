/-
C18, and the part of C11 about the single contribution signals.
-/
import Verif.Lemmas.OpenLoop
import Verif.Props.Signals
namespace Verif

section
variable {R S A P V : Type} [Field R] [DecidableEq R]
  {cfg : SimCfg R (IrMat R) (Fir R) S A P (DData R P V) (DOut R V)} {lp : ProcView R P}
  {srcs srcs1 srcs2 srcs3 : String → S} {arr : A} {proc : P} {f0 : Fir R}
  {ds0 ds1 ds2 ds3 : List (Diag (DData R P V))}
  {st0 st sta1 sta2 sta3 stb1 stb2 stb3 : SimSt R (Fir R) S A P (DData R P V) (DOut R V)} {k : Nat}

/-- C11. The signal `source~microphone` is what this source alone contributes: its
samples convolved with the path in force, whatever the processor does. -/
theorem C11_each_contribution (h : Started cfg lp srcs arr proc f0 ds0 st0) (hk : cfg.steps k st0 = .ok st)
    (hcon : cfg.contrib = true) (hfilt : cfg.filt = firOps R) (hpos : ∀ a ∈ cfg.arrays, 0 < a.num)
    (hsh : cfg.PathShape arr) {s m : ArrInfo} (hm : m ∈ cfg.arrays) (hmic : m.kind = .mic) (hs : s ∈ cfg.arrays)
    (hsrc : s.kind ≠ .mic) :
    ∃ u : String → Nat → Int → R,
      (∀ i < s.num, ∀ t ≤ (k : Int), cfg.Emitted st0 s.name i t (u s.name i t)) ∧
      ∀ t ≤ k, ∃ ir : String → IrMat R, cfg.IrAt arr s m t (ir s.name) ∧
        ∀ c < m.num, cfg.Produced st0 (s.name ++ "~" ++ m.name) c t (convSum [s] ir u c t) := by
  obtain ⟨e0, te, he0, h0, hte, _, hprod⟩ := h.tape hk
  have hmm : m ∈ micsOf cfg.arrays := by
    unfold micsOf; rw [List.mem_filter]; exact ⟨hm, by simpa using hmic⟩
  have hss : s ∈ sourcesOf cfg.arrays := by
    unfold sourcesOf; rw [List.mem_filter]; exact ⟨hs, by simpa using hsrc⟩
  refine ⟨fun s i t => if -(cfg.prepNum : Int) < t then te.sig s i (t - 1) else 0,
    fun i hi t ht => h.emitted h0 hte hprod (h.nm.arr s hs) hi ht, ?_⟩
  intro t ht
  obtain ⟨ir, g1, g2, g3⟩ := tape_pair_fir cfg h.nm hcon hfilt hpos hsh h.posB hmm hss he0 k hte t ht
  refine ⟨fun _ => ir, g1, ?_⟩
  intro c hc
  rw [hprod t ht]
  refine ⟨m.num, h.nm.con hcon (s, m) (mem_combosOf.2 ⟨hss, hmm⟩), hc, ?_⟩
  refine (g3 c hc).trans ?_
  unfold convSum
  rw [List.map_singleton, List.sum_singleton, firOut_histAt _ _ _ _ _ _ g2]
  congr 1
  refine List.map_congr_left fun i _ => ?_
  congr 1
  refine List.map_congr_left fun j _ => ?_
  congr 1
  beta_reduce
  by_cases hj : (j : Int) < t + cfg.prepNum
  · rw [if_pos hj, if_pos (by omega)]
    exact congrArg (te.sig s.name i) (by omega)
  · rw [if_neg hj, if_neg (by omega)]

/-- Without processors every microphone signal and contribution signal is an
explicit function of the streams the free sources deliver. -/
theorem C18_open_loop (h : Started cfg lp srcs arr proc f0 ds0 st0) (hk : cfg.steps k st0 = .ok st)
    (hproc : cfg.proc = none) (hfilt : cfg.filt = firOps R) (hpos : ∀ a ∈ cfg.arrays, 0 < a.num)
    (hsh : cfg.PathShape arr) {x : String → Nat → Nat → R}
    (hx : ∀ a ∈ cfg.arrays, a.kind = .free → IsStream cfg.srcGet (srcs a.name) a.num (x a.name))
    {m : ArrInfo} (hm : m ∈ cfg.arrays) (hmic : m.kind = .mic) :
    ∀ t ≤ k, ∃ ir : String → IrMat R,
      (∀ s ∈ cfg.arrays, s.kind ≠ .mic → cfg.IrAt arr s m t (ir s.name)) ∧
      ∀ c < m.num,
        cfg.Produced st0 m.name c t (convSum (cfg.arrays.filter fun s => s.kind != .mic) ir (cfg.played x) c t) ∧
        (cfg.contrib = true → ∀ s ∈ cfg.arrays, s.kind ≠ .mic →
          cfg.Produced st0 (s.name ++ "~" ++ m.name) c t (convSum [s] ir (cfg.played x) c t)) := by
  obtain ⟨e0, te, he0, h0, hte, _, hprod⟩ := h.tape hk
  have hmm : m ∈ micsOf cfg.arrays := by
    unfold micsOf; rw [List.mem_filter]; exact ⟨hm, by simpa using hmic⟩
  have hval : ∀ s ∈ sourcesOf cfg.arrays, ∀ (ir : IrMat R) (t c : Nat), t ≤ k → ir.numIn = s.num →
      firOut ir (histAt te.sig s cfg.prepNum t) c = ((List.range s.num).map fun i =>
        ((List.range (ir.ir i c).length).map fun k =>
          (ir.ir i c).getD k 0 * cfg.played x s.name i (t - k)).sum).sum := by
    intro s hs ir t c ht hin
    rw [firOut_histAt _ _ _ _ _ _ hin]
    congr 1
    refine List.map_congr_left fun i hi => ?_
    congr 1
    refine List.map_congr_left fun j _ => ?_
    congr 1
    rw [← tape_played cfg h.nm hproc he0 hx hte hs (by simpa using hi) (by omega)]
    by_cases hj : (j : Int) < t + cfg.prepNum
    · rw [if_pos hj, if_pos (by omega)]
      exact congrArg (te.sig s.name i) (by omega)
    · rw [if_neg hj, if_neg (by omega)]
  intro t ht
  obtain ⟨ir, g1, g2⟩ := tape_fir cfg h.nm h.sizes.valid hfilt hpos hsh h.posB hmm
    (by intro p hp; rw [hproc] at hp; cases hp) he0 k hte t ht
  have hmem : ∀ s ∈ cfg.arrays, s.kind ≠ .mic → s ∈ sourcesOf cfg.arrays := by
    intro s hs hsk
    unfold sourcesOf; rw [List.mem_filter]; exact ⟨hs, by simpa using hsk⟩
  refine ⟨ir, fun s hs hsk => (g1 s (hmem s hs hsk)).1, ?_⟩
  intro c hc
  refine ⟨?_, ?_⟩
  · rw [hprod t ht]
    refine ⟨m.num, h.nm.arr m hm, hc, ?_⟩
    rw [g2 c hc]
    unfold convSum
    congr 1
    exact List.map_congr_left fun s hs => hval s hs _ t c ht (g1 s hs).2
  · intro hcon s hs hsk
    have hss := hmem s hs hsk
    obtain ⟨ir', q1, q2, q3⟩ := tape_pair_fir cfg h.nm hcon hfilt hpos hsh h.posB hmm hss he0 k hte t ht
    have he : ir' = ir s.name := IrAt.unique q1 (g1 s hss).1
    subst he
    rw [hprod t ht]
    refine ⟨m.num, h.nm.con hcon (s, m) (mem_combosOf.2 ⟨hss, hmm⟩), hc, ?_⟩
    refine (q3 c hc).trans ?_
    unfold convSum
    rw [List.map_singleton, List.sum_singleton]
    exact hval s hss _ t c ht q2

/-- C18. Three simulations without processors that differ in the source objects
only, and the streams of the third are `a` times those of the first plus `b`
times those of the second: every microphone signal and every contribution signal
is, at every time index, the same combination.  The paths may change over
time. -/
theorem C18_linearity (h1 : Started cfg lp srcs1 arr proc f0 ds1 sta1)
    (h2 : Started cfg lp srcs2 arr proc f0 ds2 sta2) (h3 : Started cfg lp srcs3 arr proc f0 ds3 sta3)
    (hk1 : cfg.steps k sta1 = .ok stb1) (hk2 : cfg.steps k sta2 = .ok stb2) (hk3 : cfg.steps k sta3 = .ok stb3)
    (hproc : cfg.proc = none) (hfilt : cfg.filt = firOps R) (hpos : ∀ a ∈ cfg.arrays, 0 < a.num)
    (hsh : cfg.PathShape arr) {x y z : String → Nat → Nat → R} {a b : R}
    (hx : ∀ a ∈ cfg.arrays, a.kind = .free → IsStream cfg.srcGet (srcs1 a.name) a.num (x a.name))
    (hy : ∀ a ∈ cfg.arrays, a.kind = .free → IsStream cfg.srcGet (srcs2 a.name) a.num (y a.name))
    (hz : ∀ a ∈ cfg.arrays, a.kind = .free → IsStream cfg.srcGet (srcs3 a.name) a.num (z a.name))
    (hxyz : ∀ s ∈ cfg.arrays, s.kind = .free → ∀ i < s.num, ∀ j,
      z s.name i j = a * x s.name i j + b * y s.name i j)
    {m : ArrInfo} (hm : m ∈ cfg.arrays) (hmic : m.kind = .mic) {name : String}
    (hname : name = m.name ∨ (cfg.contrib = true ∧ ∃ s ∈ cfg.arrays, s.kind ≠ .mic ∧ name = s.name ++ "~" ++ m.name)) :
    ∀ t ≤ k, ∀ c < m.num, ∃ v w, cfg.Produced sta1 name c t v ∧ cfg.Produced sta2 name c t w ∧
      cfg.Produced sta3 name c t (a * v + b * w) := by
  intro t ht c hc
  obtain ⟨i1, p1, q1⟩ := C18_open_loop h1 hk1 hproc hfilt hpos hsh hx hm hmic t ht
  obtain ⟨i2, p2, q2⟩ := C18_open_loop h2 hk2 hproc hfilt hpos hsh hy hm hmic t ht
  obtain ⟨i3, p3, q3⟩ := C18_open_loop h3 hk3 hproc hfilt hpos hsh hz hm hmic t ht
  have e2 : ∀ s ∈ cfg.arrays, s.kind ≠ .mic → i2 s.name = i1 s.name := fun s hs hk =>
    IrAt.unique (p2 s hs hk) (p1 s hs hk)
  have e3 : ∀ s ∈ cfg.arrays, s.kind ≠ .mic → i3 s.name = i1 s.name := fun s hs hk =>
    IrAt.unique (p3 s hs hk) (p1 s hs hk)
  have hplay : ∀ s ∈ cfg.arrays, ∀ i < s.num, ∀ t, cfg.played z s.name i t =
      a * cfg.played x s.name i t + b * cfg.played y s.name i t := by
    intro s hs i hi t
    unfold SimCfg.played
    generalize (if cfg.warm then cfg.B else 1 : Nat) = pn
    split
    · rename_i hf
      obtain ⟨⟨s', b1, b2, b3⟩, _⟩ := hf
      rw [h1.nm.inj s' b1 s hs b2] at b3
      exact hxyz s hs b3 i hi _
    · ring
  rcases hname with rfl | ⟨hcon, s, hs, hsk, rfl⟩
  · refine ⟨_, _, (q1 c hc).1, (q2 c hc).1, ?_⟩
    have hl : ∀ s ∈ cfg.arrays.filter (fun s => s.kind != .mic), s ∈ cfg.arrays ∧ s.kind ≠ .mic := by
      intro s hs
      rw [List.mem_filter] at hs
      exact ⟨hs.1, by simpa using hs.2⟩
    have := (q3 c hc).1
    rw [convSum_linear _ i3 (cfg.played x) (cfg.played y) (cfg.played z) a b
        (fun s hs => hplay s (hl s hs).1),
      convSum_ir _ _ (fun s hs => e3 s (hl s hs).1 (hl s hs).2),
      convSum_ir _ (cfg.played y) (fun s hs => e3 s (hl s hs).1 (hl s hs).2)] at this
    rw [convSum_ir _ (cfg.played y) (fun s hs => e2 s (hl s hs).1 (hl s hs).2)]
    exact this
  · refine ⟨_, _, (q1 c hc).2 hcon s hs hsk, (q2 c hc).2 hcon s hs hsk, ?_⟩
    have := (q3 c hc).2 hcon s hs hsk
    rw [convSum_linear _ i3 (cfg.played x) (cfg.played y) (cfg.played z) a b
        (fun s' hs' => by rw [List.mem_singleton.1 hs']; exact hplay s hs),
      convSum_ir (ir' := i1) [s] (cfg.played x) (fun s' hs' => by rw [List.mem_singleton.1 hs']; exact e3 s hs hsk),
      convSum_ir (ir' := i1) [s] (cfg.played y) (fun s' hs' => by rw [List.mem_singleton.1 hs']; exact e3 s hs hsk)] at this
    rw [convSum_ir (ir' := i1) [s] (cfg.played y) (fun s' hs' => by rw [List.mem_singleton.1 hs']; exact e2 s hs hsk)]
    exact this

end

/-! ### Cases that meet the hypotheses -/

/-- A moving source with contribution signals and without processor. -/
def openCfg : SimCfg ℚ (IrMat ℚ) (Fir ℚ) Nat Nat Unit (DData ℚ Unit ℚ) (DOut ℚ ℚ) :=
  { movCfg with contrib := true }

theorem open_started (p0 : Nat) (h : p0 = 0 ∨ p0 = 1 ∨ p0 = 2) :
    ∃ st0 st, Started openCfg ⟨0, fun p _ => .ok (p, fun _ _ _ => 0)⟩ (fun _ => p0) 0
      () demoFilt [] st0 ∧ openCfg.steps 3 st0 = .ok st := by
  rcases h with rfl | rfl | rfl <;>
  · refine ⟨_, _, ⟨⟨by decide, by decide, by decide, ?_, ?_⟩, rfl, by decide, rfl⟩, rfl⟩
    · rintro p ⟨⟩
    · rintro p ⟨⟩

theorem open_stream (p0 : Nat) : IsStream openCfg.srcGet p0 1 fun _ t => ((p0 + t + 1 : Nat) : ℚ) := by
  refine isStream_of_inv (fun off s => s = p0 + off) rfl ?_
  rintro off s n rfl
  refine ⟨p0 + off + n, ?_, by omega⟩
  simp only [openCfg, movCfg, blockOf, List.range_one, List.map_cons, List.map_nil, Nat.add_assoc]

theorem open_free {a : ArrInfo} (ha : a ∈ openCfg.arrays) (hf : a.kind = .free) : a = ⟨"src", 1, .free, true⟩ := by
  simp only [openCfg, movCfg, List.mem_cons, List.not_mem_nil, or_false] at ha
  rcases ha with rfl | rfl
  · cases hf
  · rfl

theorem open_pos : ∀ a ∈ openCfg.arrays, 0 < a.num := by
  intro a ha
  simp only [openCfg, movCfg, List.mem_cons, List.not_mem_nil, or_false] at ha
  rcases ha with rfl | rfl <;> decide

theorem open_shape (arr) : openCfg.PathShape arr := by
  intro n a _ s m h hs hm hp
  cases hp
  simp only [openCfg, movCfg, List.mem_cons, List.not_mem_nil, or_false] at hm
  rcases hm with rfl | rfl <;> rfl

/-- Sources playing `1, 2, ...` and `2, 3, ...` and the combination `3, 4, ...`. -/
example : ∃ s1 s2 s3 : SimSt ℚ (Fir ℚ) Nat Nat Unit (DData ℚ Unit ℚ) (DOut ℚ ℚ),
    ∀ t ≤ 3, ∃ v w, openCfg.Produced s1 "src~mic" 0 t v ∧ openCfg.Produced s2 "src~mic" 0 t w ∧
      openCfg.Produced s3 "src~mic" 0 t (-1 * v + 2 * w) := by
  obtain ⟨s1, e1, h1, k1⟩ := open_started 0 (by omega)
  obtain ⟨s2, e2, h2, k2⟩ := open_started 1 (by omega)
  obtain ⟨s3, e3, h3, k3⟩ := open_started 2 (by omega)
  refine ⟨s1, s2, s3, fun t ht => ?_⟩
  refine C18_linearity h1 h2 h3 k1 k2 k3 rfl rfl open_pos (open_shape _) (a := -1) (b := 2)
    (x := fun _ _ t => ((0 + t + 1 : Nat) : ℚ)) (y := fun _ _ t => ((1 + t + 1 : Nat) : ℚ))
    (z := fun _ _ t => ((2 + t + 1 : Nat) : ℚ)) ?_ ?_ ?_ ?_ (m := ⟨"mic", 1, .mic, false⟩)
    (by simp [openCfg, movCfg]) rfl (.inr ⟨rfl, ⟨"src", 1, .free, true⟩, by simp [openCfg, movCfg], by decide, rfl⟩)
    t ht 0 (by decide)
  · intro a ha hf; rw [open_free ha hf]; exact open_stream 0
  · intro a ha hf; rw [open_free ha hf]; exact open_stream 1
  · intro a ha hf; rw [open_free ha hf]; exact open_stream 2
  · intro s _ _ i _ j
    push_cast
    ring

example : ∃ (st0 : SimSt ℚ (Fir ℚ) Nat Nat Unit (DData ℚ Unit ℚ) (DOut ℚ ℚ)) (u : String → Nat → Int → ℚ),
    (∀ t ≤ (3 : Int), openCfg.Emitted st0 "src" 0 t (u "src" 0 t)) ∧
    ∀ t ≤ 3, ∃ ir : String → IrMat ℚ,
      openCfg.Produced st0 "src~mic" 0 t (convSum [⟨"src", 1, .free, true⟩] ir u 0 t) := by
  obtain ⟨st0, st, h, hk⟩ := open_started 0 (by omega)
  obtain ⟨u, g1, g2⟩ := C11_each_contribution h hk rfl rfl open_pos (open_shape _) (m := ⟨"mic", 1, .mic, false⟩)
    (s := ⟨"src", 1, .free, true⟩) (by simp [openCfg, movCfg]) rfl (by simp [openCfg, movCfg]) (by decide)
  refine ⟨st0, u, fun t ht => g1 0 (by decide) t ht, fun t ht => ?_⟩
  obtain ⟨ir, _, g3⟩ := g2 t ht
  exact ⟨ir, g3 0 (by decide)⟩

end Verif

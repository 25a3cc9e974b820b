/-
C132: with a fixed control filter the closed loop is linear in the free sources.
-/
import Verif.Props.Blockwise
import Verif.Props.OpenLoop
namespace Verif

section
variable {R S A P D O : Type} [AddMonoid R] (cfg : SimCfg R (IrMat R) (Fir R) S A P D O) {lp : ProcView R P}

/-- A loudspeaker that the processor does not touch is silent. -/
theorem tape_untouched (hN : Names cfg) (hv : lp.Valid cfg.dims cfg.proc) {l : ArrInfo} (hl : l ∈ cfg.arrays)
    (hk : l.kind = .ctrl) (hkeep : ∀ p, cfg.proc = some p → p.Keeps l.name) {srcs : String → S} {arr : A} {proc : P}
    {f0 : Fir R} {e0 : Eng (Tape R) (Fir R) S A P} (hi : cfg.tInit srcs arr proc f0 = .ok e0) :
    ∀ k {e}, cfg.tSteps lp k e0 = .ok e → ∀ c < l.num, ∀ t, e.sig l.name c t = 0
  | 0, e, h, c, _, t => by
    cases h
    obtain ⟨fs, e1, W, g1, g2, g3⟩ := tInit_parts cfg hN hi
    obtain ⟨n1, n2⟩ := src_ne hN (playedSource hl hk)
    rw [g3.old _ c t (fun hc => .inl (n1 hc)) (.inr (.inr n2)), g2.sig _ c t (.inl (playedNe hN hl hk))]
  | k + 1, e, h, c, hc, t => by
    simp only [SimCfg.tSteps] at h
    split at h
    · cases h
    · rename_i e1 h1
      obtain ⟨arr', e2, e3, e4, W, p1, p2, p3, p4, p5⟩ := tEngine_parts cfg hN h
      obtain ⟨n1, n2⟩ := src_ne hN (playedSource hl hk)
      rw [p5.old _ c t (fun hc => .inl (n1 hc)) (.inr (.inr n2)), p4.sig,
        p3.sig _ c t (.inl (playedNe hN hl hk)), tProc_keeps cfg hv hkeep (hN.arr l hl) p2 hc]
      exact tape_untouched hN hv hl hk hkeep hi k h1 c hc t

/-- A free source on the tape, whatever the processor does. -/
theorem tape_free (hN : Names cfg) {x : Nat → Nat → R}
    {srcs : String → S} {arr : A} {proc : P} {f0 : Fir R} {e0 : Eng (Tape R) (Fir R) S A P}
    (hi : cfg.tInit srcs arr proc f0 = .ok e0) {s : ArrInfo} (hs : s ∈ cfg.arrays) (hkind : s.kind = .free)
    (hx : IsStream cfg.srcGet (srcs s.name) s.num x)
    {k : Nat} {e} (h : cfg.tSteps lp k e0 = .ok e) {i : Nat} (hc : i < s.num) {t : Int}
    (h0 : -(cfg.prepNum : Int) < t) (ht : t ≤ k) :
    e.sig s.name i (t - 1) = x i (t + cfg.prepNum - 1).toNat := by
  have ham : s ∈ freeOf cfg.arrays := by
    unfold freeOf; rw [List.mem_filter]; exact ⟨hs, by simpa using hkind⟩
  obtain ⟨g1, g2⟩ := tInit_source cfg hN hi ham hx
  obtain ⟨_, g4⟩ := tSteps_source cfg hN ham g1 g2 k h
  have := g4 i (t + cfg.prepNum - 1).toNat hc (by omega)
  rw [← this]
  exact congrArg (e.sig s.name i) (by omega)

end

section
variable {R : Type} [Field R]

theorem convSum_linear_upto (l : List ArrInfo) (ir : String → IrMat R) (u v w : String → Nat → Int → R) (a b : R)
    (c : Nat) (t : Int)
    (hw : ∀ s ∈ l, ∀ i < s.num, ∀ r ≤ t, w s.name i r = a * u s.name i r + b * v s.name i r) :
    convSum l ir w c t = a * convSum l ir u c t + b * convSum l ir v c t := by
  have hcut : ∀ z : String → Nat → Int → R, convSum l ir (fun s i r => if r ≤ t then z s i r else 0) c t =
      convSum l ir z c t := by
    intro z
    unfold convSum
    congr 1
    refine List.map_congr_left fun s _ => ?_
    congr 1
    refine List.map_congr_left fun i _ => ?_
    congr 1
    refine List.map_congr_left fun q _ => ?_
    beta_reduce
    rw [if_pos (show t - (q : Int) ≤ t by omega)]
  rw [← hcut u, ← hcut v, ← hcut w]
  apply convSum_linear
  intro s hs i hi r
  by_cases hr : r ≤ t
  · simp only [if_pos hr]
    exact hw s hs i hi r hr
  · simp only [if_neg hr]
    ring

theorem filtered_linear (W : IrMat R) (x y z : Nat → Nat → R) (a b : R) (l n : Nat)
    (h : ∀ s < W.numIn, ∀ q ≤ n, z s q = a * x s q + b * y s q) :
    filtered W z l n = a * filtered W x l n + b * filtered W y l n := by
  have hsum : ∀ {α : Type} (l : List α) (f g h : α → R), (∀ x ∈ l, h x = a * f x + b * g x) →
      (l.map h).sum = a * (l.map f).sum + b * (l.map g).sum := by
    intro α l f g h H
    induction l with
    | nil => simp
    | cons x l ih =>
      simp only [List.map_cons, List.sum_cons]
      rw [H x (by simp), ih fun y hy => H y (by simp [hy])]
      ring
  unfold filtered
  apply hsum
  intro s hs
  rw [List.mem_range] at hs
  apply hsum
  intro q _
  by_cases hq : q ≤ n
  · simp only [if_pos hq]
    rw [h s hs _ (by omega)]
    ring
  · simp only [if_neg hq]
    ring

end

section
variable {R S A V : Type} [Field R] [DecidableEq R]
  {cfg : SimCfg R (IrMat R) (Fir R) S A (Fir R) (DData R (Fir R) V) (DOut R V)}
  {srcs srcs1 srcs2 srcs3 : String → S} {arr : A} {f0 : Fir R} {ds0 ds1 ds2 ds3 : List (Diag (DData R (Fir R) V))}
  {st0 st sta1 sta2 sta3 stb1 stb2 stb3 : SimSt R (Fir R) S A (Fir R) (DData R (Fir R) V) (DOut R V)} {k bs : Nat}

/-- The equations of the closed loop: all signals of a run with a fixed control
filter, `u` for what goes into the paths and `y` for what the microphones record. -/
theorem loop_equations {inp out : String} {W : IrMat R}
    (h : Started cfg ((ancProc inp out bs).view bs) srcs arr ⟨W, []⟩ f0 ds0 st0)
    (hk : cfg.steps k st0 = .ok st) (hproc : cfg.proc = some (ancProc inp out bs))
    {r l : ArrInfo} (hr : r ∈ cfg.arrays) (hrn : r.name = inp)
    (hl : l ∈ cfg.arrays) (hlk : l.kind = .ctrl) (hln : l.name = out)
    (hW : W.numIn = r.num) (hW' : W.numOut = l.num)
    (hfilt : cfg.filt = firOps R) (hpos : ∀ a ∈ cfg.arrays, 0 < a.num) (hsh : cfg.PathShape arr)
    {x : String → Nat → Nat → R}
    (hx : ∀ a ∈ cfg.arrays, a.kind = .free → IsStream cfg.srcGet (srcs a.name) a.num (x a.name)) :
    ∃ (u : String → Nat → Int → R) (y : String → Nat → Nat → R),
      (∀ s ∈ cfg.arrays, s.kind ≠ .mic → ∀ i < s.num, ∀ t ≤ (k : Int), cfg.Emitted st0 s.name i t (u s.name i t)) ∧
      (∀ a ∈ cfg.arrays, ∀ c < a.num, ∀ t ≤ k, cfg.Produced st0 a.name c t (y a.name c t)) ∧
      (∀ s ∈ cfg.arrays, s.kind = .free → ∀ i < s.num, ∀ t ≤ (k : Int), u s.name i t = cfg.played x s.name i t) ∧
      (∀ s ∈ cfg.arrays, s.kind = .ctrl → s.name ≠ out → ∀ i < s.num, ∀ t ≤ (k : Int), u s.name i t = 0) ∧
      (∀ i < l.num, ∀ t ≤ (k : Int), u out i t = if t < bs then 0 else filtered W (y inp) i (t - bs).toNat) ∧
      (∀ m ∈ cfg.arrays, m.kind = .mic → ∀ t ≤ k, ∃ ir : String → IrMat R,
        (∀ s ∈ cfg.arrays, s.kind ≠ .mic → cfg.IrAt arr s m t (ir s.name)) ∧
        ∀ c < m.num, y m.name c t = convSum (cfg.arrays.filter fun s => s.kind != .mic) ir u c t ∧
          (cfg.contrib = true → ∀ s ∈ cfg.arrays, s.kind ≠ .mic →
            cfg.Produced st0 (s.name ++ "~" ++ m.name) c t (convSum [s] ir u c t))) := by
  rw [anc_eq] at h hproc
  have hkeep : ∀ name, name ≠ out → ∀ p, cfg.proc = some p → p.Keeps name := by
    intro name hne p hp
    rw [hproc] at hp
    cases hp
    exact block_keeps _ _ _ _ hne
  have hmicne : ∀ m ∈ cfg.arrays, m.kind = .mic → m.name ≠ out := by
    intro m hm hmic he
    have := h.nm.inj m hm l hl (he.trans hln.symm)
    rw [this, hlk] at hmic
    cases hmic
  obtain ⟨e0, te, he0, h0, hte, _, hprod⟩ := h.tape hk
  have hpn : cfg.prepNum = if cfg.warm then cfg.B else 1 := rfl
  have hval : ∀ s ∈ cfg.arrays, ∀ (ir : IrMat R) (t c : Nat), ir.numIn = s.num →
      firOut ir (histAt te.sig s cfg.prepNum t) c = ((List.range s.num).map fun i =>
        ((List.range (ir.ir i c).length).map fun q => (ir.ir i c).getD q 0 *
          (if -(cfg.prepNum : Int) < (t : Int) - q then te.sig s.name i ((t : Int) - q - 1) else 0)).sum).sum := by
    intro s hs ir t c hin
    rw [firOut_histAt _ _ _ _ _ _ hin]
    congr 1
    refine List.map_congr_left fun i hi => ?_
    congr 1
    refine List.map_congr_left fun j _ => ?_
    congr 1
    by_cases hj : (j : Int) < t + cfg.prepNum
    · rw [if_pos hj, if_pos (by omega)]
      exact congrArg (te.sig s.name i) (by omega)
    · rw [if_neg hj, if_neg (by omega)]
  refine ⟨fun s i t => if -(cfg.prepNum : Int) < t then te.sig s i (t - 1) else 0,
    fun a c t => te.sig a c ((t : Int) - 1), ?_, ?_, ?_, ?_, ?_, ?_⟩
  · intro s hs _ i hi t ht
    exact h.emitted h0 hte hprod (h.nm.arr s hs) hi ht
  · intro a ha c hc t ht
    rw [hprod t ht]
    exact ⟨a.num, h.nm.arr a ha, hc, rfl⟩
  · intro s hs hsk i hi t ht
    unfold SimCfg.played
    rw [← hpn]
    beta_reduce
    by_cases h3 : -(cfg.prepNum : Int) < t
    · rw [if_pos h3, if_pos ⟨⟨s, hs, rfl, hsk⟩, h3⟩]
      exact tape_free cfg h.nm he0 hs hsk (hx s hs hsk) hte hi h3 ht
    · rw [if_neg h3, if_neg fun hh => h3 hh.2]
  · intro s hs hsk hne i hi t ht
    beta_reduce
    rw [tape_untouched cfg h.nm h.sizes.valid hs hsk (hkeep _ hne) he0 k hte i hi, ite_self]
  · intro i hi t ht
    have hI := blockInv_steps h.nm hproc (fir_realises hW hW' (hpos r hr) bs)
      (by show cfg.dims inp = _; rw [← hrn, h.nm.arr r hr]) hl hlk hln rfl (blockInv_init h.nm hl hlk hln he0) k hte
    have hb : 1 ≤ bs := by
      have := h.sizes.block; unfold SimCfg.mbs at this; rw [hproc] at this; exact this
    have hlt : k < k / bs * bs + bs := by
      have h1 := Nat.div_add_mod k bs
      have h2 := Nat.mod_lt k (show bs > 0 by omega)
      rw [Nat.mul_comm] at h1; omega
    have hls := hI.out i hi (t - 1) (by omega)
    beta_reduce
    rw [hls]
    by_cases ht2 : t < bs
    · rw [if_pos ht2, if_pos (show t - 1 < (bs : Int) - 1 by omega), ite_self]
    · rw [if_pos (show -(cfg.prepNum : Int) < t by omega), if_neg ht2, if_neg (show ¬ t - 1 < (bs : Int) - 1 by omega)]
      show filtered W _ i _ = filtered W _ i _
      congr 1
      omega
  · intro m hm hmic t ht
    have hmm : m ∈ micsOf cfg.arrays := by
      unfold micsOf; rw [List.mem_filter]; exact ⟨hm, by simpa using hmic⟩
    obtain ⟨ir, g1, g2⟩ := tape_fir cfg h.nm h.sizes.valid hfilt hpos hsh h.posB hmm
      (hkeep _ (hmicne m hm hmic)) he0 k hte t ht
    have hmem : ∀ s ∈ cfg.arrays, s.kind ≠ .mic → s ∈ sourcesOf cfg.arrays := by
      intro s hs hsk
      unfold sourcesOf; rw [List.mem_filter]; exact ⟨hs, by simpa using hsk⟩
    refine ⟨ir, fun s hs hsk => (g1 s (hmem s hs hsk)).1, ?_⟩
    intro c hc
    refine ⟨?_, ?_⟩
    · beta_reduce
      rw [g2 c hc]
      unfold convSum
      congr 1
      exact List.map_congr_left fun s hs => hval s (mem_sourcesOf hs).1 _ t c (g1 s hs).2
    · intro hcon s hs hsk
      have hss := hmem s hs hsk
      obtain ⟨ir', q1, q2, q3⟩ := tape_pair_fir cfg h.nm hcon hfilt hpos hsh h.posB hmm hss he0 k hte t ht
      have he : ir' = ir s.name := IrAt.unique q1 (g1 s hss).1
      subst he
      rw [hprod t ht]
      refine ⟨m.num, h.nm.con hcon (s, m) (mem_combosOf.2 ⟨hss, hmm⟩), hc, ?_⟩
      refine (q3 c hc).trans ?_
      unfold convSum
      rw [List.map_singleton, List.sum_singleton]
      exact hval s hs _ t c q2

/-- **C132** Three simulations with the same fixed control filter, feedback from
the loudspeakers to the reference microphones included, differ in the source
objects only, and the streams of the third are `a` times those of the first plus
`b` times those of the second: every signal of the simulation - sources,
loudspeakers, microphones and contributions - is at every time index the same
combination.  The paths may change over time. -/
theorem C132_closed_loop {inp out : String} {W : IrMat R}
    (h1 : Started cfg ((ancProc inp out bs).view bs) srcs1 arr ⟨W, []⟩ f0 ds1 sta1)
    (h2 : Started cfg ((ancProc inp out bs).view bs) srcs2 arr ⟨W, []⟩ f0 ds2 sta2)
    (h3 : Started cfg ((ancProc inp out bs).view bs) srcs3 arr ⟨W, []⟩ f0 ds3 sta3)
    (hk1 : cfg.steps k sta1 = .ok stb1) (hk2 : cfg.steps k sta2 = .ok stb2) (hk3 : cfg.steps k sta3 = .ok stb3)
    (hproc : cfg.proc = some (ancProc inp out bs))
    {r l : ArrInfo} (hr : r ∈ cfg.arrays) (hrn : r.name = inp) (hrk : r.kind = .mic)
    (hl : l ∈ cfg.arrays) (hlk : l.kind = .ctrl) (hln : l.name = out)
    (hW : W.numIn = r.num) (hW' : W.numOut = l.num)
    (hfilt : cfg.filt = firOps R) (hpos : ∀ a ∈ cfg.arrays, 0 < a.num) (hsh : cfg.PathShape arr)
    {x y z : String → Nat → Nat → R} {a b : R}
    (hx : ∀ a ∈ cfg.arrays, a.kind = .free → IsStream cfg.srcGet (srcs1 a.name) a.num (x a.name))
    (hy : ∀ a ∈ cfg.arrays, a.kind = .free → IsStream cfg.srcGet (srcs2 a.name) a.num (y a.name))
    (hz : ∀ a ∈ cfg.arrays, a.kind = .free → IsStream cfg.srcGet (srcs3 a.name) a.num (z a.name))
    (hxyz : ∀ s ∈ cfg.arrays, s.kind = .free → ∀ i < s.num, ∀ j,
      z s.name i j = a * x s.name i j + b * y s.name i j)
    {name : String} {num : Nat}
    (hname : (∃ s ∈ cfg.arrays, name = s.name ∧ num = s.num) ∨
      (cfg.contrib = true ∧ ∃ s ∈ cfg.arrays, ∃ m ∈ cfg.arrays, s.kind ≠ .mic ∧ m.kind = .mic ∧
        name = s.name ++ "~" ++ m.name ∧ num = m.num)) :
    ∀ t ≤ k, ∀ c < num, ∃ v w, cfg.Produced sta1 name c t v ∧ cfg.Produced sta2 name c t w ∧
      cfg.Produced sta3 name c t (a * v + b * w) := by
  have hb : 1 ≤ bs := by
    have := h1.sizes.block; unfold SimCfg.mbs at this; rw [hproc] at this; exact this
  obtain ⟨u1, y1, em1, pr1, fr1, un1, ou1, mi1⟩ := loop_equations h1 hk1 hproc hr hrn hl hlk hln hW hW' hfilt hpos hsh hx
  obtain ⟨u2, y2, em2, pr2, fr2, un2, ou2, mi2⟩ := loop_equations h2 hk2 hproc hr hrn hl hlk hln hW hW' hfilt hpos hsh hy
  obtain ⟨u3, y3, em3, pr3, fr3, un3, ou3, mi3⟩ := loop_equations h3 hk3 hproc hr hrn hl hlk hln hW hW' hfilt hpos hsh hz
  have hplay : ∀ s ∈ cfg.arrays, ∀ i < s.num, ∀ t, cfg.played z s.name i t =
      a * cfg.played x s.name i t + b * cfg.played y s.name i t := by
    intro s hs i hi t
    unfold SimCfg.played
    generalize (if cfg.warm then cfg.B else 1 : Nat) = pn
    split
    · rename_i hf
      obtain ⟨⟨s', b1, b2, b3⟩, _⟩ := hf
      rw [h1.nm.inj s' b1 s hs b2] at b3
      exact hxyz s hs b3 i hi _
    · ring
  -- the microphones combine as soon as the sources do
  have hfl : ∀ s ∈ cfg.arrays.filter (fun s => s.kind != .mic), s ∈ cfg.arrays ∧ s.kind ≠ .mic := by
    intro s hs
    rw [List.mem_filter] at hs
    exact ⟨hs.1, by simpa using hs.2⟩
  have hmic : ∀ t ≤ k, (∀ s ∈ cfg.arrays, s.kind ≠ .mic → ∀ i < s.num, ∀ q ≤ (t : Int),
        u3 s.name i q = a * u1 s.name i q + b * u2 s.name i q) →
      ∀ m ∈ cfg.arrays, m.kind = .mic → ∀ c < m.num,
        y3 m.name c t = a * y1 m.name c t + b * y2 m.name c t ∧
        (cfg.contrib = true → ∀ s ∈ cfg.arrays, s.kind ≠ .mic →
          ∃ v w, cfg.Produced sta1 (s.name ++ "~" ++ m.name) c t v ∧ cfg.Produced sta2 (s.name ++ "~" ++ m.name) c t w ∧
            cfg.Produced sta3 (s.name ++ "~" ++ m.name) c t (a * v + b * w)) := by
    intro t ht hu m hm hmk c hc
    obtain ⟨i1, p1, q1⟩ := mi1 m hm hmk t ht
    obtain ⟨i2, p2, q2⟩ := mi2 m hm hmk t ht
    obtain ⟨i3, p3, q3⟩ := mi3 m hm hmk t ht
    have e1 : ∀ s ∈ cfg.arrays, s.kind ≠ .mic → i1 s.name = i3 s.name := fun s hs hk =>
      IrAt.unique (p1 s hs hk) (p3 s hs hk)
    have e2 : ∀ s ∈ cfg.arrays, s.kind ≠ .mic → i2 s.name = i3 s.name := fun s hs hk =>
      IrAt.unique (p2 s hs hk) (p3 s hs hk)
    refine ⟨?_, ?_⟩
    · rw [(q1 c hc).1, (q2 c hc).1, (q3 c hc).1,
        convSum_ir _ u1 (fun s hs => e1 s (hfl s hs).1 (hfl s hs).2),
        convSum_ir _ u2 (fun s hs => e2 s (hfl s hs).1 (hfl s hs).2)]
      exact convSum_linear_upto _ _ _ _ _ _ _ _ _ fun s hs => hu s (hfl s hs).1 (hfl s hs).2
    · intro hcon s hs hsk
      refine ⟨_, _, (q1 c hc).2 hcon s hs hsk, (q2 c hc).2 hcon s hs hsk, ?_⟩
      have := (q3 c hc).2 hcon s hs hsk
      rw [convSum_linear_upto [s] i3 u1 u2 u3 a b c t
          (fun s' hs' => by rw [List.mem_singleton.1 hs']; exact hu s hs hsk),
        convSum_ir (ir' := i1) [s] u1 (fun s' hs' => by rw [List.mem_singleton.1 hs']; exact (e1 s hs hsk).symm),
        convSum_ir (ir' := i2) [s] u2 (fun s' hs' => by rw [List.mem_singleton.1 hs']; exact (e2 s hs hsk).symm)] at this
      exact this
  -- what goes into the paths, by induction over time
  have hu : ∀ n : Nat, ∀ s ∈ cfg.arrays, s.kind ≠ .mic → ∀ i < s.num, ∀ q ≤ (k : Int), q < n →
      u3 s.name i q = a * u1 s.name i q + b * u2 s.name i q := by
    intro n
    induction n with
    | zero =>
      intro s hs hsk i hi q hqk hq
      cases hkind : s.kind with
      | mic => exact absurd hkind hsk
      | free => rw [fr1 s hs hkind i hi q hqk, fr2 s hs hkind i hi q hqk, fr3 s hs hkind i hi q hqk, hplay s hs i hi]
      | ctrl =>
        by_cases hso : s.name = out
        · have hsl : s = l := h1.nm.inj s hs l hl (hso.trans hln.symm)
          subst hsl
          rw [hso, ou1 i hi q hqk, ou2 i hi q hqk, ou3 i hi q hqk, if_pos (by omega), if_pos (by omega), if_pos (by omega)]
          ring
        · rw [un1 s hs hkind hso i hi q hqk, un2 s hs hkind hso i hi q hqk, un3 s hs hkind hso i hi q hqk]
          ring
    | succ n ih =>
      intro s hs hsk i hi q hqk hq
      by_cases hqn : q < n
      · exact ih s hs hsk i hi q hqk hqn
      cases hkind : s.kind with
      | mic => exact absurd hkind hsk
      | free => rw [fr1 s hs hkind i hi q hqk, fr2 s hs hkind i hi q hqk, fr3 s hs hkind i hi q hqk, hplay s hs i hi]
      | ctrl =>
        by_cases hso : s.name = out
        · have hsl : s = l := h1.nm.inj s hs l hl (hso.trans hln.symm)
          subst hsl
          rw [hso, ou1 i hi q hqk, ou2 i hi q hqk, ou3 i hi q hqk]
          by_cases hqb : q < bs
          · rw [if_pos hqb, if_pos hqb, if_pos hqb]
            ring
          · rw [if_neg hqb, if_neg hqb, if_neg hqb]
            apply filtered_linear
            intro c hc j hj
            rw [hW] at hc
            rw [← hrn]
            exact (hmic j (by omega) (fun s hs hsk i hi q' hq' => ih s hs hsk i hi q' (by omega) (by omega))
              r hr hrk c hc).1
        · rw [un1 s hs hkind hso i hi q hqk, un2 s hs hkind hso i hi q hqk, un3 s hs hkind hso i hi q hqk]
          ring
  intro t ht c hc
  rcases hname with ⟨s, hs, rfl, rfl⟩ | ⟨hcon, s, hs, m, hm, hsk, hmk, rfl, rfl⟩
  · refine ⟨_, _, pr1 s hs c hc t ht, pr2 s hs c hc t ht, ?_⟩
    have h3' := pr3 s hs c hc t ht
    by_cases hsk : s.kind = .mic
    · rw [(hmic t ht (fun s hs hsk i hi q hq => hu (t + 1) s hs hsk i hi q (by omega) (by omega)) s hs hsk c hc).1] at h3'
      exact h3'
    · have key : ∀ {st0 : SimSt R (Fir R) S A (Fir R) (DData R (Fir R) V) (DOut R V)} {v w : R},
          cfg.Produced st0 s.name c t v → cfg.Emitted st0 s.name c t w → w = v := by
        intro st0 v w hv hw
        unfold SimCfg.Emitted at hw
        rw [if_pos (by omega), Int.toNat_natCast] at hw
        exact hw.unique hv
      have := hu (t + 1) s hs hsk c hc t (by omega) (by omega)
      rw [key (pr1 s hs c hc t ht) (em1 s hs hsk c hc t (by omega)), key (pr2 s hs c hc t ht) (em2 s hs hsk c hc t (by omega)),
        key (pr3 s hs c hc t ht) (em3 s hs hsk c hc t (by omega))] at this
      rw [this] at h3'
      exact h3'
  · exact (hmic t ht (fun s hs hsk i hi q hq => hu (t + 1) s hs hsk i hi q (by omega) (by omega)) m hm hmk c hc).2
      hcon s hs hsk

/-- **C132** A fixed control filter makes no sound of its own: if all sources are
silent, then so is every signal of the closed loop. -/
theorem C132_silence {inp out : String} {W : IrMat R}
    (h : Started cfg ((ancProc inp out bs).view bs) srcs arr ⟨W, []⟩ f0 ds0 st0)
    (hk : cfg.steps k st0 = .ok st) (hproc : cfg.proc = some (ancProc inp out bs))
    {r l : ArrInfo} (hr : r ∈ cfg.arrays) (hrn : r.name = inp) (hrk : r.kind = .mic)
    (hl : l ∈ cfg.arrays) (hlk : l.kind = .ctrl) (hln : l.name = out)
    (hW : W.numIn = r.num) (hW' : W.numOut = l.num)
    (hfilt : cfg.filt = firOps R) (hpos : ∀ a ∈ cfg.arrays, 0 < a.num) (hsh : cfg.PathShape arr)
    (hx : ∀ a ∈ cfg.arrays, a.kind = .free → IsStream cfg.srcGet (srcs a.name) a.num fun _ _ => 0)
    {a : ArrInfo} (ha : a ∈ cfg.arrays) : ∀ t ≤ k, ∀ c < a.num, cfg.Produced st0 a.name c t 0 := by
  intro t ht c hc
  obtain ⟨v, w, _, _, g⟩ := C132_closed_loop (a := (0 : R)) (b := (0 : R)) (x := fun _ _ _ => 0) (y := fun _ _ _ => 0)
    (z := fun _ _ _ => 0) h h h hk hk hk hproc hr hrn hrk hl hlk hln
    hW hW' hfilt hpos hsh hx hx hx (by intros; ring) (.inl ⟨a, ha, rfl, rfl⟩) t ht c hc
  have : (0 : R) * v + 0 * w = 0 := by ring
  rwa [this] at g

end

section

theorem ctl_started_at (p0 : Nat) (h : p0 = 0 ∨ p0 = 1 ∨ p0 = 2) : ∃ (st0 st : CtlSt),
    Started ctlCfg ((ancProc "ref" "loudspeaker" 2).view 2) (fun _ => p0) () ⟨ctlFilt, []⟩ demoFilt [] st0 ∧
      ctlCfg.steps 7 st0 = .ok st := by
  have h0 : ∃ st0, ctlCfg.init (fun _ => p0) () ⟨ctlFilt, []⟩ demoFilt [] = .ok st0 := by
    rcases h with rfl | rfl | rfl <;> exact ⟨_, by rfl⟩
  obtain ⟨st0, h0⟩ := h0
  have h1 : ((ctlCfg.init (fun _ => p0) () ⟨ctlFilt, []⟩ demoFilt []).bind fun st0 =>
      (ctlCfg.steps 7 st0).map fun _ => ()) = .ok () := by
    rcases h with rfl | rfl | rfl <;> rfl
  rw [h0] at h1
  change (ctlCfg.steps 7 st0).map _ = _ at h1
  cases hs : ctlCfg.steps 7 st0 with
  | error x => rw [hs] at h1; cases h1
  | ok st => exact ⟨st0, st, ⟨ctl_admissible, rfl, by decide, h0⟩, hs⟩

theorem ctl_stream (p0 : Nat) : IsStream ctlCfg.srcGet p0 1 fun _ t => ((p0 + t + 1 : Nat) : ℚ) := by
  refine isStream_of_inv (fun off s => s = p0 + off) rfl ?_
  rintro off s n rfl
  refine ⟨p0 + off + n, ?_, by omega⟩
  simp only [ctlCfg, blockOf, List.range_one, List.map_cons, List.map_nil, Nat.add_assoc]

theorem ctl_free {a : ArrInfo} (ha : a ∈ ctlCfg.arrays) (hf : a.kind = .free) : a = ⟨"noise", 1, .free, false⟩ := by
  simp only [ctlCfg, List.mem_cons, List.not_mem_nil, or_false] at ha
  rcases ha with rfl | rfl | rfl | rfl
  · cases hf
  · cases hf
  · rfl
  · cases hf

/-- Sources 1, 2, 3, ... and 2, 3, 4, ... and 3, 4, 5, ..., the third being twice
the second less the first. -/
example : ∃ (s1 s2 s3 : CtlSt) (v w : ℚ), ctlCfg.Produced s1 "error" 0 7 v ∧ ctlCfg.Produced s2 "error" 0 7 w ∧
    ctlCfg.Produced s3 "error" 0 7 (-1 * v + 2 * w) := by
  obtain ⟨s1, t1, h1, k1⟩ := ctl_started_at 0 (by decide)
  obtain ⟨s2, t2, h2, k2⟩ := ctl_started_at 1 (by decide)
  obtain ⟨s3, t3, h3, k3⟩ := ctl_started_at 2 (by decide)
  obtain ⟨v, w, g⟩ := C132_closed_loop (a := (-1 : ℚ)) (b := 2) h1 h2 h3 k1 k2 k3 rfl (r := ⟨"ref", 1, .mic, false⟩)
    (l := ⟨"loudspeaker", 1, .ctrl, false⟩) (by simp [ctlCfg]) rfl rfl (by simp [ctlCfg]) rfl rfl rfl rfl rfl
    (by intro a ha; simp only [ctlCfg, List.mem_cons, List.not_mem_nil, or_false] at ha
        rcases ha with rfl | rfl | rfl | rfl <;> decide) (ctl_shape _)
    (x := fun _ _ t => ((0 + t + 1 : Nat) : ℚ)) (y := fun _ _ t => ((1 + t + 1 : Nat) : ℚ))
    (z := fun _ _ t => ((2 + t + 1 : Nat) : ℚ))
    (by intro a ha hf; rw [ctl_free ha hf]; exact ctl_stream 0)
    (by intro a ha hf; rw [ctl_free ha hf]; exact ctl_stream 1)
    (by intro a ha hf; rw [ctl_free ha hf]; exact ctl_stream 2)
    (by intro s _ _ i _ j; push_cast; ring)
    (.inl ⟨⟨"error", 1, .mic, false⟩, by simp [ctlCfg], rfl, rfl⟩) 7 (by decide) 0 (by decide)
  exact ⟨s1, s2, s3, v, w, g⟩

/-- The same with a silent source. -/
def hushCfg : SimCfg ℚ (IrMat ℚ) (Fir ℚ) Nat Unit (Fir ℚ) (DData ℚ (Fir ℚ) ℚ) (DOut ℚ ℚ) :=
  { ctlCfg with srcGet := fun p n => .ok (p + n, [List.replicate n 0]) }

theorem hush_admissible : Admissible hushCfg ((ancProc "ref" "loudspeaker" 2).view 2) where
  block := by decide
  buffer := by decide
  chunk := by decide
  proc := by
    intro p hp
    cases hp
    exact ⟨Or.inl (by decide), by decide⟩
  valid := by
    show ((ancProc "ref" "loudspeaker" 2).view 2).Valid _ (some (ancProc "ref" "loudspeaker" 2))
    rw [anc_eq]
    exact block_valid _ _ _ _ _

example : ∃ st0 : CtlSt, hushCfg.Produced st0 "error" 0 7 0 := by
  have h0 : ∃ st0, hushCfg.init (fun _ => 0) () ⟨ctlFilt, []⟩ demoFilt [] = .ok st0 := ⟨_, by rfl⟩
  obtain ⟨st0, h0⟩ := h0
  have h1 : ((hushCfg.init (fun _ => 0) () ⟨ctlFilt, []⟩ demoFilt []).bind fun st0 =>
      (hushCfg.steps 7 st0).map fun _ => ()) = .ok () := by rfl
  rw [h0] at h1
  change (hushCfg.steps 7 st0).map _ = _ at h1
  cases hs : hushCfg.steps 7 st0 with
  | error x => rw [hs] at h1; cases h1
  | ok st =>
    exact ⟨st0, C132_silence (st0 := st0) ⟨hush_admissible, rfl, by decide, h0⟩ hs rfl (r := ⟨"ref", 1, .mic, false⟩)
      (l := ⟨"loudspeaker", 1, .ctrl, false⟩) (by simp [hushCfg, ctlCfg]) rfl rfl (by simp [hushCfg, ctlCfg]) rfl rfl rfl
      rfl rfl
      (by intro a ha; simp only [hushCfg, ctlCfg, List.mem_cons, List.not_mem_nil, or_false] at ha
          rcases ha with rfl | rfl | rfl | rfl <;> decide)
      (by intro n a _ s m h hs hm hp
          cases hp
          simp only [hushCfg, ctlCfg, List.mem_cons, List.not_mem_nil, or_false] at hm
          rcases hm with rfl | rfl | rfl | rfl <;> rfl)
      (by intro a ha hf
          have : a = ⟨"noise", 1, .free, false⟩ := ctl_free ha hf
          subst this
          refine isStream_of_inv (fun _ _ => True) trivial ?_
          intro off s n _
          refine ⟨s + n, ?_, trivial⟩
          show Except.ok (s + n, [List.replicate n (0 : ℚ)]) = _
          simp [blockOf])
      (a := ⟨"error", 1, .mic, false⟩) (by simp [hushCfg, ctlCfg]) 7 (by decide) 0 (by decide)⟩

end
end Verif

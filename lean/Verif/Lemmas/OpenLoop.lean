import Verif.Lemmas.Resize

namespace Verif
section
variable {R S A P D O : Type} [Semiring R]
  (cfg : SimCfg R (IrMat R) (Fir R) S A P D O) {lp : ProcView R P}

/-- A contribution signal after the preparation. -/
theorem tape_pair_fir_zero (hN : Names cfg) (hcon : cfg.contrib = true) (hfilt : cfg.filt = firOps R)
    (hpos : ∀ a ∈ cfg.arrays, 0 < a.num) {arr : A} (hsh : cfg.PathShape arr) (hB : 1 ≤ cfg.B) {s m : ArrInfo}
    (hm : m ∈ micsOf cfg.arrays) (hs : s ∈ sourcesOf cfg.arrays)
    {srcs : String → S} {proc : P} {f0 : Fir R}
    {e0 : Eng (Tape R) (Fir R) S A P} (hi : cfg.tInit srcs arr proc f0 = .ok e0) : ∃ h : IrMat R,
      cfg.IrAt arr s m 0 h ∧ h.numIn = s.num ∧
      ∀ c < m.num, e0.sig (contribName s m) c (((0 : Nat) : Int) - 1) = firOut h (histAt e0.sig s cfg.prepNum 0) c := by
  have hI := firInv_init cfg hN hfilt hpos hi
  obtain ⟨fs, e1, W, g1, g2, g3⟩ := tInit_parts cfg hN hi
  have hnum : 1 ≤ cfg.prepNum := by unfold SimCfg.prepNum; split <;> omega
  have hp := (mem_combosOf (p := (s, m))).2 ⟨hs, hm⟩
  obtain ⟨ir, c1, c2⟩ := createFilters_spec cfg hN g1 (s, m) hp
  obtain ⟨y, q1, q2, q3⟩ := g3.out (s, m) hp
  obtain ⟨w, q4, q5⟩ := q3 hcon
  rw [g2.filts] at q1
  simp only at q1 c1 c2
  rw [c2, hfilt] at q1
  have hsp := hpos _ (mem_sourcesOf hs).1
  obtain ⟨a1, a2, _, _⟩ := fir_process hsp q1
  obtain ⟨b1, b2⟩ := fir_out (p := (s, m)) hsp hnum
    (hsh 0 _ rfl _ _ _ (mem_sourcesOf hs).1 (mem_micsOf hm).1 c1) q1
  refine ⟨_, hI.mat (s, m) hp, by rw [a2]; exact a1.symm, ?_⟩
  intro c hc
  rw [b1, broadcastMat_self] at q4
  have hw : w = y := by rw [b1]; exact (Option.some.inj q4).symm
  have := q5 c (((0 : Nat) : Int) - 1) (by omega) (by omega)
  simp only at this
  rw [this, hw, show ((((0 : Nat) : Int) - 1) - -(cfg.prepNum : Int)).toNat = cfg.prepNum - 1 by omega, b2 c hc,
    Fir.out, hI.hist (s, m) hp]

/-- A contribution signal is the output of one filter, on the tape. -/
theorem tape_pair_fir (hN : Names cfg) (hcon : cfg.contrib = true) (hfilt : cfg.filt = firOps R)
    (hpos : ∀ a ∈ cfg.arrays, 0 < a.num) {arr : A} (hsh : cfg.PathShape arr) (hB : 1 ≤ cfg.B) {s m : ArrInfo}
    (hm : m ∈ micsOf cfg.arrays) (hs : s ∈ sourcesOf cfg.arrays)
    {srcs : String → S} {proc : P} {f0 : Fir R}
    {e0 : Eng (Tape R) (Fir R) S A P} (hi : cfg.tInit srcs arr proc f0 = .ok e0) :
    ∀ k {e}, cfg.tSteps lp k e0 = .ok e → ∀ (t : Nat), t ≤ k → ∃ h : IrMat R,
      cfg.IrAt arr s m t h ∧ h.numIn = s.num ∧
      ∀ c < m.num, e.sig (contribName s m) c ((t : Int) - 1) = firOut h (histAt e.sig s cfg.prepNum t) c
  | 0, e, h, t, ht => by
    cases h
    obtain rfl : t = 0 := by omega
    exact tape_pair_fir_zero cfg hN hcon hfilt hpos hsh hB hm hs hi
  | k + 1, e, h, t, ht => by
    have hstep := h
    simp only [SimCfg.tSteps] at h
    split at h
    · cases h
    · rename_i e1 h1
      by_cases htk : t ≤ k
      · obtain ⟨hh, a1, a2, a3⟩ := tape_pair_fir hN hcon hfilt hpos hsh hB hm hs hi k h1 t htk
        refine ⟨hh, a1, a2, ?_⟩
        intro c hc
        rw [tEngine_past cfg lp h _ _ _ (by omega), a3 c hc,
          histAt_congr fun i t' ht' => (tEngine_past cfg lp h s.name i t' (by omega)).symm]
      · obtain rfl : t = k + 1 := by omega
        have hI := firInv_steps (lp := lp) cfg hN hfilt hpos (firInv_init cfg hN hfilt hpos hi) (k + 1) hstep
        obtain ⟨arr', e2, e3, e4, W, p1, p2, p3, p4, p5⟩ := tEngine_parts cfg hN h
        have hp := (mem_combosOf (p := (s, m))).2 ⟨hs, hm⟩
        obtain ⟨y, q1, q2, q3⟩ := p5.out (s, m) hp
        obtain ⟨w, q4, q5⟩ := q3 hcon
        rw [hfilt] at q1
        have hsp := hpos _ (mem_sourcesOf hs).1
        obtain ⟨a1, a2, _, _⟩ := fir_process hsp q1
        have hshape := IrAt.shape hsh (mem_sourcesOf hs).1 (mem_micsOf hm).1 (hI.mat (s, m) hp)
        simp only at a2 hshape
        rw [a2] at hshape
        obtain ⟨b1, b2⟩ := fir_out (p := (s, m)) hsp (le_refl 1) hshape q1
        refine ⟨_, hI.mat (s, m) hp, by rw [a2]; exact a1.symm, ?_⟩
        intro c hc
        rw [b1, broadcastMat_self] at q4
        have hw : w = y := by rw [b1]; exact (Option.some.inj q4).symm
        have := q5 c (((k + 1 : Nat) : Int) - 1) (by omega) (by omega)
        simp only at this
        rw [this, hw, show ((((k + 1 : Nat) : Int) - 1) - (k : Int)).toNat = 1 - 1 by omega, b2 c hc,
          Fir.out, hI.hist (s, m) hp]

omit [Semiring R] in
theorem IrAt.unique {cfg : SimCfg R (IrMat R) (Fir R) S A P D O} {arr0 : A} {s m : ArrInfo} {t : Nat}
    {h h' : IrMat R} (hi : cfg.IrAt arr0 s m t h) (hi' : cfg.IrAt arr0 s m t h') : h = h' := by
  cases t with
  | zero =>
    have := Eq.trans hi.symm hi'
    exact Except.ok.inj this
  | succ t =>
    dsimp only [SimCfg.IrAt] at hi hi'
    split_ifs at hi hi'
    · obtain ⟨a, h1, h2⟩ := hi
      obtain ⟨a', h1', h2'⟩ := hi'
      rw [h1] at h1'
      cases h1'
      exact Except.ok.inj (h2.symm.trans h2')
    · exact Except.ok.inj (hi.symm.trans hi')

omit [Semiring R] in
theorem ctrlSource {cfg : SimCfg R (IrMat R) (Fir R) S A P D O} {l : ArrInfo} (hl : l ∈ cfg.arrays)
    (hk : l.kind = .ctrl) : l ∈ sourcesOf cfg.arrays := by
  unfold sourcesOf; rw [List.mem_filter]; exact ⟨hl, by rw [hk]; rfl⟩

omit [Semiring R] in
theorem ctrlNe {cfg : SimCfg R (IrMat R) (Fir R) S A P D O} (hN : Names cfg) {l : ArrInfo}
    (hl : l ∈ cfg.arrays) (hk : l.kind = .ctrl) : ∀ x ∈ freeOf cfg.arrays, l.name ≠ x.name := by
  intro x hx he
  obtain ⟨h3, h4⟩ := mem_freeOf hx
  have := hN.inj l hl x h3 he
  rw [this, h4] at hk
  cases hk

/-- Without processor a loudspeaker is silent. -/
theorem tape_silent (hN : Names cfg) (hproc : cfg.proc = none) {l : ArrInfo} (hl : l ∈ cfg.arrays)
    (hk : l.kind = .ctrl) {srcs : String → S} {proc : P} {f0 : Fir R}
    {e0 : Eng (Tape R) (Fir R) S A P} (hi : cfg.tInit srcs arr proc f0 = .ok e0) :
    ∀ k {e}, cfg.tSteps lp k e0 = .ok e → ∀ c t, e.sig l.name c t = 0
  | 0, e, h, c, t => by
    cases h
    obtain ⟨fs, e1, W, g1, g2, g3⟩ := tInit_parts cfg hN hi
    obtain ⟨n1, n2⟩ := src_ne hN (ctrlSource hl hk)
    rw [g3.old _ c t (fun hc => .inl (n1 hc)) (.inr (.inr n2)), g2.sig _ c t (.inl (ctrlNe hN hl hk))]
  | k + 1, e, h, c, t => by
    simp only [SimCfg.tSteps] at h
    split at h
    · cases h
    · rename_i e1 h1
      obtain ⟨arr', e2, e3, e4, W, p1, p2, p3, p4, p5⟩ := tEngine_parts cfg hN h
      obtain ⟨n1, n2⟩ := src_ne hN (ctrlSource hl hk)
      unfold SimCfg.tProc at p2
      rw [hproc] at p2
      cases p2
      rw [p5.old _ c t (fun hc => .inl (n1 hc)) (.inr (.inr n2)), p4.sig,
        p3.sig _ c t (.inl (ctrlNe hN hl hk))]
      exact tape_silent hN hproc hl hk hi k h1 c t

/-- The filter input on the tape in terms of the source streams. -/
theorem tape_played (hN : Names cfg) (hproc : cfg.proc = none) {x : String → Nat → Nat → R}
    {srcs : String → S} {arr : A} {proc : P} {f0 : Fir R} {e0 : Eng (Tape R) (Fir R) S A P}
    (hi : cfg.tInit srcs arr proc f0 = .ok e0)
    (hx : ∀ a ∈ cfg.arrays, a.kind = .free → IsStream cfg.srcGet (srcs a.name) a.num (x a.name))
    {k : Nat} {e} (h : cfg.tSteps lp k e0 = .ok e) {s : ArrInfo} (hs : s ∈ sourcesOf cfg.arrays) {i : Nat}
    (hc : i < s.num) {t : Int} (ht : t ≤ k) :
    (if -(cfg.prepNum : Int) < t then e.sig s.name i (t - 1) else 0) = cfg.played x s.name i t := by
  unfold SimCfg.played
  have hpn : cfg.prepNum = if cfg.warm then cfg.B else 1 := rfl
  obtain ⟨h1, h2⟩ := mem_sourcesOf hs
  by_cases h3 : -(cfg.prepNum : Int) < t
  · rw [if_pos h3]
    cases hkind : s.kind with
    | mic => exact absurd hkind h2
    | ctrl =>
      rw [if_neg, tape_silent cfg hN hproc h1 hkind hi k h]
      rintro ⟨⟨a, b1, b2, b3⟩, _⟩
      rw [hN.inj a b1 s h1 b2, hkind] at b3
      cases b3
    | free =>
      rw [if_pos ⟨⟨s, h1, rfl, hkind⟩, by rw [← hpn]; exact h3⟩, ← hpn]
      have ham : s ∈ freeOf cfg.arrays := by
        unfold freeOf; rw [List.mem_filter]; exact ⟨h1, by simpa using hkind⟩
      obtain ⟨g1, g2⟩ := tInit_source cfg hN hi ham (hx s h1 hkind)
      obtain ⟨_, g4⟩ := tSteps_source cfg hN ham g1 g2 k h
      have := g4 i (t + cfg.prepNum - 1).toNat hc (by omega)
      rw [← this]
      exact congrArg (e.sig s.name i) (by omega)
  · rw [if_neg h3, if_neg]
    rw [← hpn]
    exact fun hh => h3 hh.2

end

section
variable {R : Type} [Field R]

theorem convSum_linear (l : List ArrInfo) (ir : String → IrMat R) (u v w : String → Nat → Int → R) (a b : R)
    (hw : ∀ s ∈ l, ∀ i < s.num, ∀ t, w s.name i t = a * u s.name i t + b * v s.name i t) (c : Nat) (t : Int) :
    convSum l ir w c t = a * convSum l ir u c t + b * convSum l ir v c t := by
  have hsum : ∀ {α : Type} (l : List α) (f g h : α → R), (∀ x ∈ l, h x = a * f x + b * g x) →
      (l.map h).sum = a * (l.map f).sum + b * (l.map g).sum := by
    intro α l f g h H
    induction l with
    | nil => simp
    | cons x l ih =>
      simp only [List.map_cons, List.sum_cons]
      rw [H x (by simp), ih fun y hy => H y (by simp [hy])]
      ring
  unfold convSum
  apply hsum
  intro s hs
  apply hsum
  intro i hi
  apply hsum
  intro j _
  rw [hw s hs i (by simpa using hi)]
  ring

theorem convSum_ir (l : List ArrInfo) {ir ir' : String → IrMat R} (u : String → Nat → Int → R)
    (h : ∀ s ∈ l, ir s.name = ir' s.name) (c : Nat) (t : Int) : convSum l ir u c t = convSum l ir' u c t := by
  unfold convSum
  congr 1
  refine List.map_congr_left fun s hs => ?_
  rw [h s hs]

end
end Verif

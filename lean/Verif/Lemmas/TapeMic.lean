/-
Microphones, contributions and sources in simulations with a processor that writes into
the past of its own signals.
-/
import Verif.Lemmas.Mic
import Verif.Lemmas.TapeProc
namespace Verif

section
variable {R IR F S A P D O : Type} (cfg : SimCfg R IR F S A P D O) {p : Proc R P} {tp : TapeProc cfg.dims p}

/-- The processor does not write the signal. -/
def TapeProc.Leaves {dims : String → Option Nat} {p : Proc R P} (tp : TapeProc dims p) (name : String) : Prop :=
  ∀ q T (n : Int) c (t : Int), (tp.act q T n).2 name c t = T name c t

theorem TapeProc.Leaves.past {dims : String → Option Nat} {p : Proc R P} {tp : TapeProc dims p} {name : String}
    (h : tp.Leaves name) : tp.Past name := fun q T n c t _ => h q T n c t

theorem gProc_leaves {name : String} (h : tp.Leaves name) (n : Nat) (e : Eng (Tape R) F S A P) (c : Nat) (t : Int) :
    (cfg.gProc tp n e).sig name c t = e.sig name c t := by
  unfold SimCfg.gProc
  split
  · exact h _ _ _ _ _
  · rfl

theorem gProc_other (n : Nat) (e : Eng (Tape R) F S A P) :
    (cfg.gProc tp n e).srcs = e.srcs ∧ (cfg.gProc tp n e).filts = e.filts ∧ (cfg.gProc tp n e).arr = e.arr := by
  unfold SimCfg.gProc
  split
  · exact ⟨rfl, rfl, rfl⟩
  · exact ⟨rfl, rfl, rfl⟩

theorem gEngine_parts [AddMonoid R] (hN : Names cfg) {n : Nat} {e e' : Eng (Tape R) F S A P} (h : cfg.gEngine tp n e = .ok e') :
    ∃ arr e2 e3 W, cfg.arrUpdate e.arr n = .ok arr ∧
      SrcRel cfg n 1 (freeOf cfg.arrays) (cfg.gProc tp n { e with arr := arr }) e2 ∧
      UpdRel cfg (combosOf cfg.arrays) e2 e3 ∧ PairRel cfg n 1 n 1 (combosOf cfg.arrays) e3 e' W := by
  unfold SimCfg.gEngine at h
  split at h
  · cases h
  · rename_i arr harr
    unfold SimCfg.tPropagate at h
    split at h
    · cases h
    · rename_i e2 h2
      split at h
      · cases h
      · rename_i e3 h3
        rw [tSource_eq] at h2
        rw [tPair_eq] at h
        have r2 := gSource_fold cfg hN.freeDims hN.freeNames h2
        have r3 := stepUpdate_fold cfg hN.pairNames h3
        obtain ⟨W, r4⟩ := gPair_fold cfg hN (fun _ hp => hp) hN.pairs h
        exact ⟨arr, e2, e3, W, harr, r2, r3, r4⟩

theorem gSteps_mic_zero [AddMonoid R] (hN : Names cfg) {m : ArrInfo} (hm : m ∈ micsOf cfg.arrays) (hl : tp.Leaves m.name)
    {e0 : Eng (Tape R) F S A P} (h0 : ∀ c t, 0 ≤ t → e0.sig m.name c t = 0) :
    ∀ k {e}, cfg.gSteps tp k e0 = .ok e → ∀ c t, (k : Int) ≤ t → e.sig m.name c t = 0
  | 0, e, h, c, t, ht => by cases h; exact h0 _ _ (by simpa using ht)
  | k + 1, e, h, c, t, ht => by
    simp only [SimCfg.gSteps] at h
    split at h
    · cases h
    · rename_i e1 h1
      obtain ⟨arr, e3, e4, W, p1, p3, p4, p5⟩ := gEngine_parts cfg hN h
      obtain ⟨n1, n2⟩ := mic_ne hN hm
      rw [p5.old m.name c t (fun hcon => .inl (n1 hcon)) (.inr (.inl (by omega))), p4.sig,
        p3.sig m.name c t (.inl n2), gProc_leaves cfg hl]
      exact gSteps_mic_zero hN hm hl h0 k h1 c t (by omega)

theorem gStep_mic [AddMonoid R] (hN : Names cfg) {m : ArrInfo} (hm : m ∈ micsOf cfg.arrays) (hl : tp.Leaves m.name) {k : Nat}
    {e e2 e3 e' : Eng (Tape R) F S A P} {arr : A} {W : String → String → Mat R} (h0 : ∀ c, e.sig m.name c k = 0)
    (p3 : SrcRel cfg k 1 (freeOf cfg.arrays) (cfg.gProc tp k { e with arr := arr }) e2)
    (p4 : UpdRel cfg (combosOf cfg.arrays) e2 e3) (p5 : PairRel cfg k 1 k 1 (combosOf cfg.arrays) e3 e' W) (c : Nat) :
    e'.sig m.name c k = ((sourcesOf cfg.arrays).map fun s => matVal (W s.name m.name) c 0).sum := by
  obtain ⟨n1, n2⟩ := mic_ne hN hm
  rw [p5.mic m.name c k n1 (le_refl _) (by omega), p4.sig, p3.sig m.name c k (.inl n2),
    gProc_leaves cfg hl, micSum_eq hN hm]
  dsimp only
  rw [h0 c, zero_add, Int.sub_self]
  rfl

/-- The free sources play their streams. -/
theorem gSteps_source [AddMonoid R] (hN : Names cfg) {e0 : Eng (Tape R) F S A P} {a : ArrInfo} (ha : a ∈ freeOf cfg.arrays)
    (hp : tp.Past a.name) {x : Nat → Nat → R} (hx : StreamAt cfg.srcGet (e0.srcs a.name) a.num cfg.prepNum x)
    (h0 : ∀ c j, c < a.num → j < cfg.prepNum → e0.sig a.name c ((j : Int) - cfg.prepNum) = x c j) :
    ∀ k {e}, cfg.gSteps tp k e0 = .ok e →
      StreamAt cfg.srcGet (e.srcs a.name) a.num (cfg.prepNum + k) x ∧
      ∀ c j, c < a.num → j < cfg.prepNum + k → e.sig a.name c ((j : Int) - cfg.prepNum) = x c j
  | 0, e, h => by cases h; exact ⟨hx, h0⟩
  | k + 1, e, h => by
    simp only [SimCfg.gSteps] at h
    split at h
    · cases h
    · rename_i e1 h1
      obtain ⟨i1, i2⟩ := gSteps_source hN ha hp hx h0 k h1
      obtain ⟨arr, e3, e4, W, p1, p3, p4, p5⟩ := gEngine_parts cfg hN h
      have hsrc := (gProc_other cfg (tp := tp) k { e1 with arr := arr }).1
      dsimp only at hsrc
      rw [← hsrc] at i1
      obtain ⟨g1, g2⟩ := p3.stream cfg ha i1
      obtain ⟨n1, n2⟩ := free_ne hN ha
      refine ⟨by rw [p5.srcs, p4.srcs]; exact g1, ?_⟩
      intro c j hc hj
      by_cases hjk : j < cfg.prepNum + k
      · rw [gEngine_past h hp _ _ (by omega)]
        exact i2 c j hc hjk
      · have hj' : j = cfg.prepNum + k := by omega
        subst hj'
        rw [p5.old a.name c _ (fun hcon => .inl (n1 hcon)) (.inr (.inr n2)), p4.sig,
          g2 c _ hc (by omega) (by omega)]
        congr 1
        omega

end

section
variable {R S A P D O : Type} [Semiring R]
  (cfg : SimCfg R (IrMat R) (Fir R) S A P D O) {p : Proc R P} {tp : TapeProc cfg.dims p}

theorem gFirInv_step (hN : Names cfg) (hfilt : cfg.filt = firOps R)
    (hpos : ∀ a ∈ cfg.arrays, 0 < a.num) (hp : ∀ s ∈ sourcesOf cfg.arrays, tp.Past s.name) {arr0 : A} {k : Nat}
    {e e' : Eng (Tape R) (Fir R) S A P} (hI : FirInv cfg arr0 k e)
    (h : cfg.gEngine tp k e = .ok e') : FirInv cfg arr0 (k + 1) e' := by
  have hpast := fun (name : String) (hn : tp.Past name) => gEngine_past h hn
  obtain ⟨arr, e2, e3, W, p1, p3, p4, p5⟩ := gEngine_parts cfg hN h
  obtain ⟨o1, o2, o3⟩ := gProc_other cfg (tp := tp) k { e with arr := arr }
  have harr : cfg.arrAfter arr0 (k + 1) = .ok arr := by
    simp only [SimCfg.arrAfter, hI.arr]; exact p1
  have key : ∀ p ∈ combosOf cfg.arrays,
      cfg.IrAt arr0 p.1 p.2 (k + 1) (e'.filts p.1.name p.2.name).mat ∧
      (e'.filts p.1.name p.2.name).hist = histAt e'.sig p.1 cfg.prepNum (k + 1) := by
    intro p hpc
    have hs := (mem_combosOf.1 hpc).1
    obtain ⟨y, q1, q2, q3⟩ := p5.out p hpc
    rw [hfilt] at q1
    obtain ⟨a1, a2, a3, a4⟩ := fir_process (hpos _ (mem_sourcesOf hs).1) q1
    obtain ⟨n1, n2⟩ := src_ne hN hs
    have h3 : (e3.filts p.1.name p.2.name).hist = (e.filts p.1.name p.2.name).hist ∧
        cfg.IrAt arr0 p.1 p.2 (k + 1) (e3.filts p.1.name p.2.name).mat := by
      by_cases hd : (p.1.dynamic || p.2.dynamic) = true
      · obtain ⟨ir, u1, u2⟩ := p4.dyn p hpc hd
        rw [hfilt] at u2
        change Fir.updateIr _ _ = _ at u2
        unfold Fir.updateIr at u2
        split at u2
        · have := (Except.ok.inj u2).symm
          rw [this, p3.filts, o2]
          refine ⟨rfl, ?_⟩
          show if _ then _ else _
          rw [if_pos (by simpa using hd)]
          refine ⟨arr, harr, ?_⟩
          rw [p3.arr, o3] at u1
          exact u1
        · cases u2
      · have hd' : (p.1.dynamic || p.2.dynamic) = false := by simpa using hd
        rw [p4.stat p hpc hd', p3.filts, o2]
        refine ⟨rfl, ?_⟩
        have hm := hI.mat p hpc
        show if _ then _ else _
        rw [if_neg (by simpa using hd)]
        cases k with
        | zero => exact hm
        | succ k =>
          change if _ then _ else _ at hm
          rw [if_neg (by simpa using hd)] at hm
          exact hm
    refine ⟨by rw [a2]; exact h3.2, ?_⟩
    rw [a3, h3.1, hI.hist p hpc]
    unfold histAt
    rw [show k + 1 + cfg.prepNum = (k + cfg.prepNum) + 1 by omega,
      List.range_succ_eq_map (n := k + cfg.prepNum), List.map_cons, List.map_map]
    simp only [List.range_one, List.map_cons, List.map_nil, List.reverse_cons, List.reverse_nil,
      List.nil_append, List.singleton_append]
    congr 1
    · unfold colAt
      refine List.map_congr_left fun i _ => ?_
      rw [p5.old p.1.name i _ (fun hc => .inl (n1 hc)) (.inr (.inr n2))]
      exact congrArg (e3.sig p.1.name i) (by push_cast; omega)
    · refine List.map_congr_left fun d _ => ?_
      unfold colAt
      refine List.map_congr_left fun i _ => ?_
      rw [hpast _ (hp _ hs) _ _ (by push_cast; omega)]
      exact congrArg (e.sig p.1.name i) (by push_cast; omega)
  exact ⟨by rw [p5.arr, p4.arr, p3.arr, o3]; exact harr, fun p hp => (key p hp).1,
    fun p hp => (key p hp).2⟩

theorem gFirInv_steps (hN : Names cfg) (hfilt : cfg.filt = firOps R)
    (hpos : ∀ a ∈ cfg.arrays, 0 < a.num) (hp : ∀ s ∈ sourcesOf cfg.arrays, tp.Past s.name) {arr0 : A}
    {e0 : Eng (Tape R) (Fir R) S A P} (hI : FirInv cfg arr0 0 e0) : ∀ k {e}, cfg.gSteps tp k e0 = .ok e → FirInv cfg arr0 k e
  | 0, e, h => by cases h; exact hI
  | k + 1, e, h => by
    simp only [SimCfg.gSteps] at h
    split at h
    · cases h
    · rename_i e1 h1
      exact gFirInv_step cfg hN hfilt hpos hp (gFirInv_steps hN hfilt hpos hp hI k h1) h

/-- The microphone signal is the sum of the filter outputs. -/
theorem gTape_fir (hN : Names cfg) (hfilt : cfg.filt = firOps R)
    (hpos : ∀ a ∈ cfg.arrays, 0 < a.num) (hp : ∀ s ∈ sourcesOf cfg.arrays, tp.Past s.name) {arr : A} (hsh : cfg.PathShape arr)
    {m : ArrInfo} (hm : m ∈ micsOf cfg.arrays) (hl : tp.Leaves m.name) {e0 : Eng (Tape R) (Fir R) S A P}
    (hI0 : FirInv cfg arr 0 e0) (hz : ∀ c t, 0 ≤ t → e0.sig m.name c t = 0)
    (h0 : ∃ h : String → IrMat R,
      (∀ s ∈ sourcesOf cfg.arrays, cfg.IrAt arr s m 0 (h s.name) ∧ (h s.name).numIn = s.num) ∧
      ∀ c < m.num, e0.sig m.name c (((0 : Nat) : Int) - 1) =
        ((sourcesOf cfg.arrays).map fun s => firOut (h s.name) (histAt e0.sig s cfg.prepNum 0) c).sum) :
    ∀ k {e}, cfg.gSteps tp k e0 = .ok e → ∀ (t : Nat), t ≤ k → ∃ h : String → IrMat R,
      (∀ s ∈ sourcesOf cfg.arrays, cfg.IrAt arr s m t (h s.name) ∧ (h s.name).numIn = s.num) ∧
      ∀ c < m.num, e.sig m.name c ((t : Int) - 1) =
        ((sourcesOf cfg.arrays).map fun s => firOut (h s.name) (histAt e.sig s cfg.prepNum t) c).sum
  | 0, e, h, t, ht => by
    cases h
    obtain rfl : t = 0 := by omega
    exact h0
  | k + 1, e, h, t, ht => by
    have hstep := h
    simp only [SimCfg.gSteps] at h
    split at h
    · cases h
    · rename_i e1 h1
      by_cases htk : t ≤ k
      · obtain ⟨hh, a1, a2⟩ := gTape_fir hN hfilt hpos hp hsh hm hl hI0 hz h0 k h1 t htk
        refine ⟨hh, a1, ?_⟩
        intro c hc
        rw [gEngine_past h hl.past _ _ (by omega), a2 c hc]
        congr 1
        refine List.map_congr_left fun s hs => ?_
        rw [histAt_congr fun i t' ht' => (gEngine_past h (hp s hs) i t' (by omega)).symm]
      · obtain rfl : t = k + 1 := by omega
        have hI := gFirInv_steps cfg hN hfilt hpos hp hI0 (k + 1) hstep
        obtain ⟨arr', e3, e4, W, p1, p3, p4, p5⟩ := gEngine_parts cfg hN h
        have hz := gSteps_mic_zero cfg hN hm hl hz k h1
        have hall : ∀ s ∈ sourcesOf cfg.arrays, (e.filts s.name m.name).mat.numIn = s.num ∧
            ∀ c < m.num, matVal (W s.name m.name) c 0 = (e.filts s.name m.name).out c := by
          intro s hs
          have hpc := (mem_combosOf (p := (s, m))).2 ⟨hs, hm⟩
          obtain ⟨y, q1, q2, q3⟩ := p5.out (s, m) hpc
          rw [hfilt] at q1
          have hsp := hpos _ (mem_sourcesOf hs).1
          obtain ⟨a1, a2, _, _⟩ := fir_process hsp q1
          have hshape := IrAt.shape hsh (mem_sourcesOf hs).1 (mem_micsOf hm).1 (hI.mat (s, m) hpc)
          simp only at a2 hshape
          rw [a2] at hshape
          obtain ⟨b1, b2⟩ := fir_out (p := (s, m)) hsp (le_refl 1) hshape q1
          refine ⟨by rw [a2]; exact a1.symm, ?_⟩
          intro c hc
          rw [← b2 c hc]
          rw [b1, broadcastMat_self] at q2
          rw [← Option.some.inj q2, b1]
        refine ⟨fun s => (e.filts s m.name).mat, fun s hs =>
          ⟨hI.mat (s, m) (mem_combosOf.2 ⟨hs, hm⟩), (hall s hs).1⟩, ?_⟩
        intro c hc
        rw [show (((k + 1 : Nat) : Int) - 1) = (k : Int) by omega,
          gStep_mic cfg hN hm hl (fun c => hz c k (le_refl _)) p3 p4 p5 c]
        congr 1
        refine List.map_congr_left fun s hs => ?_
        rw [(hall s hs).2 c hc, Fir.out, hI.hist (s, m) (mem_combosOf.2 ⟨hs, hm⟩)]

/-- A contribution signal is the output of one filter. -/
theorem gTape_pair (hN : Names cfg) (hcon : cfg.contrib = true) (hfilt : cfg.filt = firOps R)
    (hpos : ∀ a ∈ cfg.arrays, 0 < a.num) (hp : ∀ s ∈ sourcesOf cfg.arrays, tp.Past s.name) {arr : A} (hsh : cfg.PathShape arr)
    {s m : ArrInfo} (hm : m ∈ micsOf cfg.arrays) (hs : s ∈ sourcesOf cfg.arrays) (hpc : tp.Past (contribName s m))
    {e0 : Eng (Tape R) (Fir R) S A P} (hI0 : FirInv cfg arr 0 e0)
    (h0 : ∃ h : IrMat R, cfg.IrAt arr s m 0 h ∧ h.numIn = s.num ∧
      ∀ c < m.num, e0.sig (contribName s m) c (((0 : Nat) : Int) - 1) = firOut h (histAt e0.sig s cfg.prepNum 0) c) :
    ∀ k {e}, cfg.gSteps tp k e0 = .ok e → ∀ (t : Nat), t ≤ k → ∃ h : IrMat R,
      cfg.IrAt arr s m t h ∧ h.numIn = s.num ∧
      ∀ c < m.num, e.sig (contribName s m) c ((t : Int) - 1) = firOut h (histAt e.sig s cfg.prepNum t) c
  | 0, e, h, t, ht => by
    cases h
    obtain rfl : t = 0 := by omega
    exact h0
  | k + 1, e, h, t, ht => by
    have hstep := h
    simp only [SimCfg.gSteps] at h
    split at h
    · cases h
    · rename_i e1 h1
      by_cases htk : t ≤ k
      · obtain ⟨hh, a1, a2, a3⟩ := gTape_pair hN hcon hfilt hpos hp hsh hm hs hpc hI0 h0 k h1 t htk
        refine ⟨hh, a1, a2, ?_⟩
        intro c hc
        rw [gEngine_past h hpc _ _ (by omega), a3 c hc,
          histAt_congr fun i t' ht' => (gEngine_past h (hp s hs) i t' (by omega)).symm]
      · obtain rfl : t = k + 1 := by omega
        have hI := gFirInv_steps cfg hN hfilt hpos hp hI0 (k + 1) hstep
        obtain ⟨arr', e3, e4, W, p1, p3, p4, p5⟩ := gEngine_parts cfg hN h
        have hpm := (mem_combosOf (p := (s, m))).2 ⟨hs, hm⟩
        obtain ⟨y, q1, q2, q3⟩ := p5.out (s, m) hpm
        obtain ⟨w, q4, q5⟩ := q3 hcon
        rw [hfilt] at q1
        have hsp := hpos _ (mem_sourcesOf hs).1
        obtain ⟨a1, a2, _, _⟩ := fir_process hsp q1
        have hshape := IrAt.shape hsh (mem_sourcesOf hs).1 (mem_micsOf hm).1 (hI.mat (s, m) hpm)
        simp only at a2 hshape
        rw [a2] at hshape
        obtain ⟨b1, b2⟩ := fir_out (p := (s, m)) hsp (le_refl 1) hshape q1
        refine ⟨_, hI.mat (s, m) hpm, by rw [a2]; exact a1.symm, ?_⟩
        intro c hc
        rw [b1, broadcastMat_self] at q4
        have hw : w = y := by rw [b1]; exact (Option.some.inj q4).symm
        have := q5 c (((k + 1 : Nat) : Int) - 1) (by omega) (by omega)
        simp only at this
        rw [this, hw, show ((((k + 1 : Nat) : Int) - 1) - (k : Int)).toNat = 1 - 1 by omega, b2 c hc,
          Fir.out, hI.hist (s, m) hpm]

end
section
variable {R IR F S A P D O : Type} [AddMonoid R] {cfg : SimCfg R IR F S A P D O}

theorem tInit_proc (hN : Names cfg) {srcs : String → S} {arr : A} {p : P} {f0 : F} {e0 : Eng (Tape R) F S A P}
    (h : cfg.tInit srcs arr p f0 = .ok e0) : e0.proc = p := by
  obtain ⟨fs, e1, W, g1, g2, g3⟩ := tInit_parts cfg hN h
  rw [g3.proc, g2.proc]

theorem tInit_unwritten (hN : Names cfg) {srcs : String → S} {arr : A} {p : P} {f0 : F}
    {e0 : Eng (Tape R) F S A P} (h : cfg.tInit srcs arr p f0 = .ok e0) {k : String} (hk : Unwritten cfg k) (c : Nat)
    (t : Int) : e0.sig k c t = 0 := by
  obtain ⟨fs, e1, W, g1, g2, g3⟩ := tInit_parts cfg hN h
  rw [g3.old _ c t (fun hc => .inl (hk.con hc)) (.inr (.inr hk.mic)), g2.sig _ c t (.inl hk.src)]

/-- Nothing before the buffer. -/
theorem tInit_before (hN : Names cfg) {srcs : String → S} {arr : A} {p : P} {f0 : F}
    {e0 : Eng (Tape R) F S A P} (h : cfg.tInit srcs arr p f0 = .ok e0) (k : String) (c : Nat)
    (t : Int) (hB : 1 ≤ cfg.B) (ht : t < -(cfg.B : Int)) : e0.sig k c t = 0 := by
  have hle : cfg.prepNum ≤ cfg.B := by
    unfold SimCfg.prepNum
    split
    · exact le_refl _
    · exact hB
  obtain ⟨fs, e1, W, g1, g2, g3⟩ := tInit_parts cfg hN h
  rw [g3.old k c t (fun _ => .inr (.inl (by omega))) (.inl ht), g2.sig k c t (.inr (.inl (by omega)))]

/-- A loudspeaker array that is not the one of the processor is silent. -/
theorem gSteps_silent {p : Proc R P} {tp : TapeProc cfg.dims p} (hN : Names cfg)
    {l : ArrInfo} (hl : l ∈ cfg.arrays) (hk : l.kind = .ctrl) (hlv : tp.Leaves l.name)
    {e0 : Eng (Tape R) F S A P} (h0 : ∀ c t, e0.sig l.name c t = 0) :
    ∀ k {e}, cfg.gSteps tp k e0 = .ok e → ∀ c t, e.sig l.name c t = 0
  | 0, e, h, c, t => by cases h; exact h0 c t
  | k + 1, e, h, c, t => by
    simp only [SimCfg.gSteps] at h
    split at h
    · cases h
    · rename_i e1 h1
      obtain ⟨arr, e3, e4, W, p1, p3, p4, p5⟩ := gEngine_parts cfg hN h
      have hs : l ∈ sourcesOf cfg.arrays := by
        unfold sourcesOf; rw [List.mem_filter]; exact ⟨hl, by rw [hk]; rfl⟩
      obtain ⟨n1, n2⟩ := src_ne hN hs
      have n3 : ∀ x ∈ freeOf cfg.arrays, l.name ≠ x.name := by
        intro x hx he
        obtain ⟨h3, h4⟩ := mem_freeOf hx
        have := hN.inj l hl x h3 he
        rw [this, h4] at hk
        cases hk
      rw [p5.old _ c t (fun hc => .inl (n1 hc)) (.inr (.inr n2)), p4.sig, p3.sig _ c t (.inl n3), gProc_leaves cfg hlv]
      exact gSteps_silent hN hl hk hlv h0 k h1 c t

end
end Verif

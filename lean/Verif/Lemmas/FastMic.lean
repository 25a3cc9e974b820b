/-
The microphones and the sources in a run with the processor `FastBlockFxLMS` (C175).
-/
import Verif.Lemmas.FastExact
import Verif.Lemmas.AdaptiveMic
namespace Verif

section
variable {R IR F S A D O : Type} [Field R] {cfg : SimCfg R IR F S A (FastSt R) D O} {q : FxPar R}

theorem fast_mic_leaves (h : FastScene cfg q) (hN : Names cfg) {m : ArrInfo} (hm : m ∈ micsOf cfg.arrays) :
    (fastTape (fast_dims h hN) h.ub.1).Leaves m.name := by
  obtain ⟨h1, h2⟩ := mem_micsOf hm
  exact fast_leaves _ _ (h.own m h1) (fastLs_ne h hN h1 (by rw [h2]; decide))

theorem fast_source_past (h : FastScene cfg q) (hN : Names cfg) {s : ArrInfo} (hs : s ∈ sourcesOf cfg.arrays) :
    (fastTape (fast_dims h hN) h.ub.1).Past s.name := fast_past _ _ (h.own s (mem_sourcesOf hs).1)

end

section
variable {R S A D O : Type} [Field R] {cfg : SimCfg R (IrMat R) (Fir R) S A (FastSt R) D O} {q : FxPar R} {Sp : IrMat R}
  {srcs : String → S} {arr : A} {f0 : Fir R}

/-- The filters and the microphones before the first step. -/
theorem fast_firInv (h : FastScene cfg q) (hN : Names cfg) (hfilt : cfg.filt = firOps R) (hpos : ∀ a ∈ cfg.arrays, 0 < a.num)
    {e : Eng (Tape R) (Fir R) S A (FastSt R)} (hi : cfg.tInit srcs arr (fastInit q Sp) f0 = .ok e) :
    FirInv cfg arr 0 (fastStart q Sp cfg.B e) := by
  have hI := firInv_init cfg hN hfilt hpos hi
  refine ⟨hI.arr, hI.mat, ?_⟩
  intro p hp
  have := hI.hist p hp
  rw [histAt_congr (T' := e.sig) (fun c t _ => fastStart_sig (h.own p.1 (mem_sourcesOf (mem_combosOf.1 hp).1).1) cfg.B e c t)]
  exact this

/-- The microphone signals, on the tape. -/
theorem fast_fir (h : FastScene cfg q) (hN : Names cfg) (hfilt : cfg.filt = firOps R) (hpos : ∀ a ∈ cfg.arrays, 0 < a.num)
    (hsh : cfg.PathShape arr) {m : ArrInfo} (hm : m ∈ micsOf cfg.arrays)
    {e te : Eng (Tape R) (Fir R) S A (FastSt R)} (hi : cfg.tInit srcs arr (fastInit q Sp) f0 = .ok e) {k : Nat}
    (hte : cfg.gSteps (fastTape (fast_dims h hN) h.ub.1) k (fastStart q Sp cfg.B e) = .ok te) {t : Nat} (ht : t ≤ k) :
    ∃ ir : String → IrMat R,
      (∀ s ∈ sourcesOf cfg.arrays, cfg.IrAt arr s m t (ir s.name) ∧ (ir s.name).numIn = s.num) ∧
      ∀ c < m.num, te.sig m.name c ((t : Int) - 1) =
        ((sourcesOf cfg.arrays).map fun s => firOut (ir s.name) (histAt te.sig s cfg.prepNum t) c).sum := by
  have hB := h.buffer.1
  have hmx := h.own m (mem_micsOf hm).1
  refine gTape_fir cfg hN hfilt hpos (fun s hs => fast_source_past h hN hs) hsh hm (fast_mic_leaves h hN hm)
    (fast_firInv h hN hfilt hpos hi) ?_ ?_ k hte t ht
  · intro c t ht
    rw [fastStart_sig hmx]
    exact tInit_zero cfg hi _ _ _ ht
  · obtain ⟨ir, g1, g2⟩ := tape_fir_zero cfg hN hfilt hpos hsh (by omega) hm hi
    refine ⟨ir, g1, ?_⟩
    intro c hc
    rw [fastStart_sig hmx, g2 c hc]
    congr 1
    refine List.map_congr_left fun s hs => ?_
    rw [histAt_congr fun c t _ => fastStart_sig (h.own s (mem_sourcesOf hs).1) cfg.B e c t]

/-- What every source but the loudspeakers of the processor plays, on the tape. -/
theorem fast_played (h : FastScene cfg q) (hN : Names cfg) {x : String → Nat → Nat → R}
    (hx : ∀ a ∈ cfg.arrays, a.kind = .free → IsStream cfg.srcGet (srcs a.name) a.num (x a.name))
    {e te : Eng (Tape R) (Fir R) S A (FastSt R)} (hi : cfg.tInit srcs arr (fastInit q Sp) f0 = .ok e) {k : Nat}
    (hte : cfg.gSteps (fastTape (fast_dims h hN) h.ub.1) k (fastStart q Sp cfg.B e) = .ok te) {s : ArrInfo} (hs : s ∈ sourcesOf cfg.arrays)
    (hne : s.name ≠ "loudspeaker") {i : Nat} (hc : i < s.num) {t : Int} (ht : t ≤ k) :
    (if -(cfg.prepNum : Int) < t then te.sig s.name i (t - 1) else 0) = cfg.played x s.name i t := by
  unfold SimCfg.played
  have hpn : cfg.prepNum = if cfg.warm then cfg.B else 1 := rfl
  obtain ⟨h1, h2⟩ := mem_sourcesOf hs
  by_cases h3 : -(cfg.prepNum : Int) < t
  · rw [if_pos h3]
    cases hkind : s.kind with
    | mic => exact absurd hkind h2
    | ctrl =>
      rw [if_neg, gSteps_silent hN h1 hkind (fast_leaves _ _ (h.own s h1) hne) (fun c t => ?_) k hte]
      · rw [fastStart_sig (h.own s h1)]
        obtain ⟨fs, e1, W, g1, g2, g3⟩ := tInit_parts cfg hN hi
        obtain ⟨n1, n2⟩ := src_ne hN (ctrlSource h1 hkind)
        rw [g3.old _ c t (fun hc => .inl (n1 hc)) (.inr (.inr n2)), g2.sig _ c t (.inl (ctrlNe hN h1 hkind))]
      rintro ⟨⟨a, b1, b2, b3⟩, _⟩
      rw [hN.inj a b1 s h1 b2, hkind] at b3
      cases b3
    | free =>
      rw [if_pos ⟨⟨s, h1, rfl, hkind⟩, by rw [← hpn]; exact h3⟩, ← hpn]
      have ham : s ∈ freeOf cfg.arrays := by
        unfold freeOf; rw [List.mem_filter]; exact ⟨h1, by simpa using hkind⟩
      obtain ⟨g1, g2⟩ := tInit_source cfg hN hi ham (hx s h1 hkind)
      obtain ⟨_, g4⟩ := gSteps_source cfg hN ham (fast_source_past h hN hs) (e0 := fastStart q Sp cfg.B e) g1
        (fun c j hc hj => by rw [fastStart_sig (h.own s h1)]; exact g2 c j hc hj) k hte
      have := g4 i (t + cfg.prepNum - 1).toNat hc (by omega)
      rw [← this]
      exact congrArg (te.sig s.name i) (by omega)
  · rw [if_neg h3, if_neg]
    rintro ⟨_, h4⟩
    rw [← hpn] at h4
    exact h3 h4

/-- The contribution of a source, on the tape. -/
theorem fast_pair (h : FastScene cfg q) (hN : Names cfg) (hcon : cfg.contrib = true) (hfilt : cfg.filt = firOps R)
    (hpos : ∀ a ∈ cfg.arrays, 0 < a.num) (hsh : cfg.PathShape arr) {s m : ArrInfo} (hm : m ∈ micsOf cfg.arrays)
    (hs : s ∈ sourcesOf cfg.arrays) {e te : Eng (Tape R) (Fir R) S A (FastSt R)}
    (hi : cfg.tInit srcs arr (fastInit q Sp) f0 = .ok e) {k : Nat}
    (hte : cfg.gSteps (fastTape (fast_dims h hN) h.ub.1) k (fastStart q Sp cfg.B e) = .ok te) {t : Nat} (ht : t ≤ k) :
    ∃ ir : IrMat R, cfg.IrAt arr s m t ir ∧ ir.numIn = s.num ∧
      ∀ c < m.num, te.sig (contribName s m) c ((t : Int) - 1) = firOut ir (histAt te.sig s cfg.prepNum t) c := by
  have hB := h.buffer.1
  refine gTape_pair cfg hN hcon hfilt hpos (fun s hs => fast_source_past h hN hs) hsh hm hs
    (fast_past _ _ (contribName_ne_xf s m).symm) (fast_firInv h hN hfilt hpos hi) ?_ k hte t ht
  obtain ⟨ir, g1, g2, g3⟩ := tape_pair_fir_zero cfg hN hcon hfilt hpos hsh (by omega) hm hs hi
  refine ⟨ir, g1, g2, ?_⟩
  intro c hc
  rw [fastStart_sig (contribName_ne_xf s m).symm, g3 c hc,
    histAt_congr fun c t _ => fastStart_sig (h.own s (mem_sourcesOf hs).1) cfg.B e c t]

end
end Verif

/-
The microphones and the sources in a run with the processor `FxLMS` (C148, C149).
-/
import Verif.Lemmas.AdaptiveRun
import Verif.Lemmas.TapeMic
import Verif.Lemmas.OpenLoop
import Verif.Spec.Fir
namespace Verif

section
variable {R IR F S A D O : Type} [Field R] {cfg : SimCfg R IR F S A (FxSt R) D O} {q : FxPar R}

theorem fx_leaves {dims : String → Option Nat} (hd : FxDims q dims) {name : String} (hn : name ≠ "xf")
    (hl : name ≠ "loudspeaker") : (fxTape hd).Leaves name := by
  intro p T n c t
  exact fxAct_sig q p T n name c t (fun he => absurd he hl) (fun he => absurd he hn)

theorem fxStart_sig {name : String} (hn : name ≠ "xf") (B : Nat) (e : Eng (Tape R) F S A (FxSt R)) (c : Nat) (t : Int) :
    (fxStart q B e).sig name c t = e.sig name c t := by
  simp only [fxStart, Tape.write]
  rw [if_neg (fun hh => hn hh.1)]

theorem ls_ne (h : FxScene cfg q) (hN : Names cfg) {a : ArrInfo} (ha : a ∈ cfg.arrays) (hk : a.kind ≠ .ctrl) :
    a.name ≠ "loudspeaker" := by
  obtain ⟨l, hl, hn, hkl, _⟩ := h.ls
  intro he
  rw [hN.inj a ha l hl (by rw [he, hn])] at hk
  exact hk hkl

theorem fx_mic_leaves (h : FxScene cfg q) (hN : Names cfg) {m : ArrInfo} (hm : m ∈ micsOf cfg.arrays) :
    (fxTape (fx_dims h hN)).Leaves m.name := by
  obtain ⟨h1, h2⟩ := mem_micsOf hm
  exact fx_leaves _ (h.own m h1) (ls_ne h hN h1 (by rw [h2]; decide))

theorem fx_source_past (h : FxScene cfg q) (hN : Names cfg) {s : ArrInfo} (hs : s ∈ sourcesOf cfg.arrays) :
    (fxTape (fx_dims h hN)).Past s.name := fx_past _ (h.own s (mem_sourcesOf hs).1)

end

section
variable {R S A D O : Type} [Field R] {cfg : SimCfg R (IrMat R) (Fir R) S A (FxSt R) D O} {q : FxPar R} {Sp : IrMat R}
  {srcs : String → S} {arr : A} {f0 : Fir R}

/-- The filters and the microphones before the first step. -/
theorem fx_firInv (h : FxScene cfg q) (hN : Names cfg) (hfilt : cfg.filt = firOps R) (hpos : ∀ a ∈ cfg.arrays, 0 < a.num)
    {e : Eng (Tape R) (Fir R) S A (FxSt R)} (hi : cfg.tInit srcs arr (fxInit q Sp) f0 = .ok e) :
    FirInv cfg arr 0 (fxStart q cfg.B e) := by
  have hI := firInv_init cfg hN hfilt hpos hi
  refine ⟨hI.arr, hI.mat, ?_⟩
  intro p hp
  have := hI.hist p hp
  rw [histAt_congr (T' := e.sig) (fun c t _ => fxStart_sig (h.own p.1 (mem_sourcesOf (mem_combosOf.1 hp).1).1) cfg.B e c t)]
  exact this

/-- The microphone signals, on the tape. -/
theorem fx_fir (h : FxScene cfg q) (hN : Names cfg) (hfilt : cfg.filt = firOps R) (hpos : ∀ a ∈ cfg.arrays, 0 < a.num)
    (hsh : cfg.PathShape arr) {m : ArrInfo} (hm : m ∈ micsOf cfg.arrays)
    {e te : Eng (Tape R) (Fir R) S A (FxSt R)} (hi : cfg.tInit srcs arr (fxInit q Sp) f0 = .ok e) {k : Nat}
    (hte : cfg.gSteps (fxTape (fx_dims h hN)) k (fxStart q cfg.B e) = .ok te) {t : Nat} (ht : t ≤ k) :
    ∃ ir : String → IrMat R,
      (∀ s ∈ sourcesOf cfg.arrays, cfg.IrAt arr s m t (ir s.name) ∧ (ir s.name).numIn = s.num) ∧
      ∀ c < m.num, te.sig m.name c ((t : Int) - 1) =
        ((sourcesOf cfg.arrays).map fun s => firOut (ir s.name) (histAt te.sig s cfg.prepNum t) c).sum := by
  have hB := h.buffer.1
  have hmx := h.own m (mem_micsOf hm).1
  refine gTape_fir cfg hN hfilt hpos (fun s hs => fx_source_past h hN hs) hsh hm (fx_mic_leaves h hN hm)
    (fx_firInv h hN hfilt hpos hi) ?_ ?_ k hte t ht
  · intro c t ht
    rw [fxStart_sig hmx]
    exact tInit_zero cfg hi _ _ _ ht
  · obtain ⟨ir, g1, g2⟩ := tape_fir_zero cfg hN hfilt hpos hsh (by omega) hm hi
    refine ⟨ir, g1, ?_⟩
    intro c hc
    rw [fxStart_sig hmx, g2 c hc]
    congr 1
    refine List.map_congr_left fun s hs => ?_
    rw [histAt_congr fun c t _ => fxStart_sig (h.own s (mem_sourcesOf hs).1) cfg.B e c t]

/-- What every source but the loudspeakers of the processor plays, on the tape. -/
theorem fx_played (h : FxScene cfg q) (hN : Names cfg) {x : String → Nat → Nat → R}
    (hx : ∀ a ∈ cfg.arrays, a.kind = .free → IsStream cfg.srcGet (srcs a.name) a.num (x a.name))
    {e te : Eng (Tape R) (Fir R) S A (FxSt R)} (hi : cfg.tInit srcs arr (fxInit q Sp) f0 = .ok e) {k : Nat}
    (hte : cfg.gSteps (fxTape (fx_dims h hN)) k (fxStart q cfg.B e) = .ok te) {s : ArrInfo} (hs : s ∈ sourcesOf cfg.arrays)
    (hne : s.name ≠ "loudspeaker") {i : Nat} (hc : i < s.num) {t : Int} (ht : t ≤ k) :
    (if -(cfg.prepNum : Int) < t then te.sig s.name i (t - 1) else 0) = cfg.played x s.name i t := by
  unfold SimCfg.played
  have hpn : cfg.prepNum = if cfg.warm then cfg.B else 1 := rfl
  obtain ⟨h1, h2⟩ := mem_sourcesOf hs
  by_cases h3 : -(cfg.prepNum : Int) < t
  · rw [if_pos h3]
    cases hkind : s.kind with
    | mic => exact absurd hkind h2
    | ctrl =>
      rw [if_neg, gSteps_silent hN h1 hkind (fx_leaves _ (h.own s h1) hne) (fun c t => ?_) k hte]
      · rw [fxStart_sig (h.own s h1)]
        obtain ⟨fs, e1, W, g1, g2, g3⟩ := tInit_parts cfg hN hi
        obtain ⟨n1, n2⟩ := src_ne hN (ctrlSource h1 hkind)
        rw [g3.old _ c t (fun hc => .inl (n1 hc)) (.inr (.inr n2)), g2.sig _ c t (.inl (ctrlNe hN h1 hkind))]
      rintro ⟨⟨a, b1, b2, b3⟩, _⟩
      rw [hN.inj a b1 s h1 b2, hkind] at b3
      cases b3
    | free =>
      rw [if_pos ⟨⟨s, h1, rfl, hkind⟩, by rw [← hpn]; exact h3⟩, ← hpn]
      have ham : s ∈ freeOf cfg.arrays := by
        unfold freeOf; rw [List.mem_filter]; exact ⟨h1, by simpa using hkind⟩
      obtain ⟨g1, g2⟩ := tInit_source cfg hN hi ham (hx s h1 hkind)
      obtain ⟨_, g4⟩ := gSteps_source cfg hN ham (fx_source_past h hN hs) (e0 := fxStart q cfg.B e) g1
        (fun c j hc hj => by rw [fxStart_sig (h.own s h1)]; exact g2 c j hc hj) k hte
      have := g4 i (t + cfg.prepNum - 1).toNat hc (by omega)
      rw [← this]
      exact congrArg (te.sig s.name i) (by omega)
  · rw [if_neg h3, if_neg]
    rintro ⟨_, h4⟩
    rw [← hpn] at h4
    exact h3 h4

/-- The contribution of a source, on the tape. -/
theorem fx_pair (h : FxScene cfg q) (hN : Names cfg) (hcon : cfg.contrib = true) (hfilt : cfg.filt = firOps R)
    (hpos : ∀ a ∈ cfg.arrays, 0 < a.num) (hsh : cfg.PathShape arr) {s m : ArrInfo} (hm : m ∈ micsOf cfg.arrays)
    (hs : s ∈ sourcesOf cfg.arrays) {e te : Eng (Tape R) (Fir R) S A (FxSt R)}
    (hi : cfg.tInit srcs arr (fxInit q Sp) f0 = .ok e) {k : Nat}
    (hte : cfg.gSteps (fxTape (fx_dims h hN)) k (fxStart q cfg.B e) = .ok te) {t : Nat} (ht : t ≤ k) :
    ∃ ir : IrMat R, cfg.IrAt arr s m t ir ∧ ir.numIn = s.num ∧
      ∀ c < m.num, te.sig (contribName s m) c ((t : Int) - 1) = firOut ir (histAt te.sig s cfg.prepNum t) c := by
  have hB := h.buffer.1
  refine gTape_pair cfg hN hcon hfilt hpos (fun s hs => fx_source_past h hN hs) hsh hm hs
    (fx_past _ (contribName_ne_xf s m).symm) (fx_firInv h hN hfilt hpos hi) ?_ k hte t ht
  obtain ⟨ir, g1, g2, g3⟩ := tape_pair_fir_zero cfg hN hcon hfilt hpos hsh (by omega) hm hs hi
  refine ⟨ir, g1, g2, ?_⟩
  intro c hc
  rw [fxStart_sig (contribName_ne_xf s m).symm, g3 c hc,
    histAt_congr fun c t _ => fxStart_sig (h.own s (mem_sourcesOf hs).1) cfg.B e c t]

end
end Verif

/-
C133: the transfer function of a noise control system.
-/
import Verif.Props.ClosedLoop
import Verif.Lemmas.Transfer
namespace Verif
open Polynomial

section
variable {R : Type} [Field R]

theorem sources_nodup {arrays : List ArrInfo} {m : ArrInfo} (hm : m ∈ micsOf arrays) (h : (combosOf arrays).Nodup) :
    (sourcesOf arrays).Nodup := by
  unfold combosOf at h
  rw [List.nodup_flatMap] at h
  refine h.2.imp ?_
  intro a b hab heq
  subst heq
  exact hab (List.mem_map.2 ⟨m, hm, rfl⟩) (List.mem_map.2 ⟨m, hm, rfl⟩)

/-- The sum over all sources is that over the free ones and the one loudspeaker
array that plays. -/
theorem sum_sources {arrays : List ArrInfo} {l : ArrInfo} (hl : l ∈ arrays) (hlk : l.kind = .ctrl)
    (hn : (sourcesOf arrays).Nodup) (g : ArrInfo → R) (h0 : ∀ s ∈ arrays, s.kind = .ctrl → s ≠ l → g s = 0) :
    ((sourcesOf arrays).map g).sum = ((freeOf arrays).map g).sum + g l := by
  have key : ∀ as : List ArrInfo, (∀ s ∈ as, s ∈ arrays) → (sourcesOf as).Nodup →
      ((sourcesOf as).map g).sum = ((freeOf as).map g).sum + if l ∈ as then g l else 0 := by
    intro as
    induction as with
    | nil => intro _ _; simp [sourcesOf, freeOf]
    | cons a as ih =>
      intro hsub hnd
      have ih' := ih (fun s hs => hsub s (by simp [hs]))
      unfold sourcesOf freeOf at *
      cases hak : a.kind with
      | mic =>
        have hla : l ≠ a := by rintro rfl; rw [hlk] at hak; cases hak
        rw [List.filter_cons_of_neg (by simp [hak])] at hnd ⊢
        rw [List.filter_cons_of_neg (by simp [hak]), ih' hnd]
        simp [List.mem_cons, hla]
      | free =>
        have hla : l ≠ a := by rintro rfl; rw [hlk] at hak; cases hak
        rw [List.filter_cons_of_pos (by simp [hak])] at hnd ⊢
        rw [List.filter_cons_of_pos (by simp [hak]), List.map_cons, List.map_cons, List.sum_cons, List.sum_cons,
          ih' (List.nodup_cons.1 hnd).2]
        simp [List.mem_cons, hla, add_assoc]
      | ctrl =>
        rw [List.filter_cons_of_pos (by simp [hak])] at hnd ⊢
        rw [List.filter_cons_of_neg (by simp [hak]), List.map_cons, List.sum_cons, ih' (List.nodup_cons.1 hnd).2]
        by_cases hla : a = l
        · subst hla
          have : a ∉ as := by
            intro hm
            exact (List.nodup_cons.1 hnd).1 (List.mem_filter.2 ⟨hm, by simp [hak]⟩)
          rw [if_neg this, if_pos (by simp), add_zero, add_comm]
        · rw [h0 a (hsub a (by simp)) hak hla, zero_add]
          have : l ∈ a :: as ↔ l ∈ as := by
            rw [List.mem_cons]; exact ⟨fun h => h.resolve_left fun h => hla h.symm, .inr⟩
          simp only [this]
  rw [key arrays (fun _ h => h) hn, if_pos hl]

end

section
variable {R S A V : Type} [Field R] [DecidableEq R]
  {cfg : SimCfg R (IrMat R) (Fir R) S A (Fir R) (DData R (Fir R) V) (DOut R V)}
  {srcs : String → S} {arr : A} {f0 : Fir R} {ds0 : List (Diag (DData R (Fir R) V))}
  {st0 st : SimSt R (Fir R) S A (Fir R) (DData R (Fir R) V) (DOut R V)} {k bs : Nat}

/-- The equations of the loop for signals over all integers: what the loudspeakers
play (`v`) and what the microphones record (`y`). -/
theorem loop_signals {inp out : String} {W : IrMat R}
    (h : Started cfg ((ancProc inp out bs).view bs) srcs arr ⟨W, []⟩ f0 ds0 st0)
    (hk : cfg.steps k st0 = .ok st) (hproc : cfg.proc = some (ancProc inp out bs)) (hwarm : cfg.warm = false)
    {r l : ArrInfo} (hr : r ∈ cfg.arrays) (hrn : r.name = inp) (hrk : r.kind = .mic)
    (hl : l ∈ cfg.arrays) (hlk : l.kind = .ctrl) (hln : l.name = out)
    (hW : W.numIn = r.num) (hW' : W.numOut = l.num)
    (hfilt : cfg.filt = firOps R) (hpos : ∀ a ∈ cfg.arrays, 0 < a.num) (hsh : cfg.PathShape arr)
    (hstat : ∀ a ∈ cfg.arrays, a.dynamic = false)
    {x : String → Nat → Nat → R}
    (hx : ∀ a ∈ cfg.arrays, a.kind = .free → IsStream cfg.srcGet (srcs a.name) a.num (x a.name)) :
    ∃ (v : Nat → Int → R) (y : String → Nat → Int → R), (∀ a c, ∀ t < 0, y a c t = 0) ∧
      (∀ a ∈ cfg.arrays, ∀ c < a.num, ∀ t ≤ k, cfg.Produced st0 a.name c t (y a.name c t)) ∧
      (∀ j < l.num, ∀ t ≤ (k : Int), v j t = ∑ q : Fin r.num, through (X ^ bs * W.tf q j) (y inp q) t) ∧
      ∀ a ∈ cfg.arrays, a.kind = .mic → ∀ Z : String → IrMat R,
        (∀ s ∈ cfg.arrays, s.kind ≠ .mic → cfg.arrPath arr s.name a.name = .ok (Z s.name)) → ∀ c < a.num,
        ∀ t ≤ (k : Int), y a.name c t =
          ((freeOf cfg.arrays).map fun s => ∑ i ∈ Finset.range s.num,
            through ((Z s.name).tf i c) (cfg.played x s.name i) t).sum +
          ∑ j : Fin l.num, through ((Z out).tf j c) (v j) t := by
  obtain ⟨u, y, em, pr, fr, un, ou, mi⟩ := loop_equations h hk hproc hr hrn hl hlk hln hW hW' hfilt hpos hsh hx
  have hmm : r ∈ micsOf cfg.arrays := by
    unfold micsOf; rw [List.mem_filter]; exact ⟨hr, by simpa using hrk⟩
  have hnd := sources_nodup hmm h.nm.pairs
  have hfree : ∀ s ∈ freeOf cfg.arrays, s ∈ cfg.arrays ∧ s.kind = .free := by
    intro s hs
    unfold freeOf at hs
    rw [List.mem_filter] at hs
    exact ⟨hs.1, by simpa using hs.2⟩
  have hneg : ∀ s i t, t < 0 → cfg.played x s i t = 0 := by
    intro s i t ht
    unfold SimCfg.played
    rw [hwarm]
    exact if_neg fun hh => by have := hh.2; simp at this; omega
  have hvneg : ∀ j < l.num, ∀ t < 0, t ≤ (k : Int) → u out j t = 0 := by
    intro j hj t ht htk
    rw [ou j hj t htk, if_pos (by omega)]
  -- one microphone
  have mic : ∀ a ∈ cfg.arrays, a.kind = .mic → ∀ Z : String → IrMat R,
      (∀ s ∈ cfg.arrays, s.kind ≠ .mic → cfg.arrPath arr s.name a.name = .ok (Z s.name)) → ∀ c < a.num,
      ∀ t ≤ (k : Int), (if t < 0 then 0 else y a.name c t.toNat) =
        ((freeOf cfg.arrays).map fun s => ∑ i ∈ Finset.range s.num,
          through ((Z s.name).tf i c) (cfg.played x s.name i) t).sum +
        ∑ j : Fin l.num, through ((Z out).tf j c) (u out j) t := by
    intro a ha hak Z hZ c hc t ht
    by_cases ht0 : t < 0
    · rw [if_pos ht0]
      have e1 : ((freeOf cfg.arrays).map fun s => ∑ i ∈ Finset.range s.num,
          through ((Z s.name).tf i c) (cfg.played x s.name i) t).sum = 0 := by
        apply List.sum_eq_zero
        intro z hz
        rw [List.mem_map] at hz
        obtain ⟨s, _, rfl⟩ := hz
        exact Finset.sum_eq_zero fun i _ => by
          rw [through_congr (v := fun _ => 0) (fun q hq => hneg _ _ q (by omega)), through_sig_zero]
      have e2 : ∑ j : Fin l.num, through ((Z out).tf j c) (u out j) t = 0 :=
        Finset.sum_eq_zero fun j _ => by
          rw [through_congr (v := fun _ => 0) (fun q hq => hvneg j j.2 q (by omega) (by omega)), through_sig_zero]
      rw [e1, e2, add_zero]
    · rw [if_neg ht0]
      obtain ⟨ir, g1, g2⟩ := mi a ha hak t.toNat (by omega)
      have hir : ∀ s ∈ cfg.arrays, s.kind ≠ .mic → ir s.name = Z s.name := by
        intro s hs hsk
        have := g1 s hs hsk
        have hst : cfg.arrPath arr s.name a.name = .ok (ir s.name) := by
          cases hn : t.toNat with
          | zero => rw [hn] at this; exact this
          | succ n =>
            rw [hn] at this
            simp only [SimCfg.IrAt, hstat s hs, hstat a ha] at this
            simpa using this
        rw [hZ s hs hsk] at hst
        exact (Except.ok.inj hst).symm
      have hT : ((t.toNat : Nat) : Int) = t := by omega
      rw [(g2 c hc).1, hT]
      unfold convSum
      have hsrc : (cfg.arrays.filter fun s => s.kind != .mic) = sourcesOf cfg.arrays := rfl
      rw [hsrc, sum_sources hl hlk hnd]
      · congr 1
        · congr 1
          refine List.map_congr_left fun s hs => ?_
          obtain ⟨hs1, hs2⟩ := hfree s hs
          rw [list_sum_range]
          refine Finset.sum_congr rfl fun i hi => ?_
          rw [hir s hs1 (by rw [hs2]; decide), ← through_tf _ _ _ (u s.name i)]
          exact through_congr fun q hq => fr s hs1 hs2 i (Finset.mem_range.1 hi) q (by omega)
        · rw [list_sum_range, Finset.sum_range]
          refine Finset.sum_congr rfl fun j _ => ?_
          rw [hir l hl (by rw [hlk]; decide), hln, ← through_tf _ _ _ (u out j)]
      · intro s hs hsk hsl
        have hso : s.name ≠ out := fun he => hsl (h.nm.inj s hs l hl (he.trans hln.symm))
        rw [list_sum_range]
        refine Finset.sum_eq_zero fun i hi => ?_
        rw [list_sum_range]
        refine Finset.sum_eq_zero fun q _ => ?_
        rw [un s hs hsk hso i (Finset.mem_range.1 hi) _ (by omega), mul_zero]
  refine ⟨u out, fun a c t => if t < 0 then 0 else y a c t.toNat, fun a c t ht => if_pos ht, ?_, ?_, ?_⟩
  · intro a ha c hc t ht
    have := pr a ha c hc t ht
    beta_reduce
    rwa [if_neg (show ¬ (t : Int) < 0 by omega), Int.toNat_natCast]
  · intro j hj t ht
    rw [ou j hj t ht]
    by_cases hb : t < bs
    · rw [if_pos hb]
      refine (Finset.sum_eq_zero fun q _ => ?_).symm
      rw [through_mul, through_X_pow, through_congr (v := fun _ => 0) (fun z hz => if_pos (by omega)), through_sig_zero]
    · rw [if_neg hb]
      unfold filtered
      rw [list_sum_range, hW, Finset.sum_range]
      refine Finset.sum_congr rfl fun q _ => ?_
      rw [through_mul, through_X_pow, through_tf]
      congr 1
      refine List.map_congr_left fun n _ => ?_
      beta_reduce
      by_cases hn : n ≤ (t - bs).toNat
      · rw [if_pos hn, if_neg (show ¬ t - (bs : Int) - n < 0 by omega)]
        congr 2
        omega
      · rw [if_neg hn, if_pos (show t - (bs : Int) - n < 0 by omega), mul_zero]
  · exact mic

/-- C133, the transfer function of a noise control system with `P` from the sources
and the loudspeakers to a microphone array, `Q` to the reference microphones, and
the control filter `W`: Cramer's rule for the loop.  For one reference microphone
and no feedback it is `P + X^bs S W Q`. -/
theorem C133_transfer {inp out : String} {W : IrMat R}
    (h : Started cfg ((ancProc inp out bs).view bs) srcs arr ⟨W, []⟩ f0 ds0 st0)
    (hk : cfg.steps k st0 = .ok st) (hproc : cfg.proc = some (ancProc inp out bs)) (hwarm : cfg.warm = false)
    {r l m : ArrInfo} (hr : r ∈ cfg.arrays) (hrn : r.name = inp) (hrk : r.kind = .mic)
    (hl : l ∈ cfg.arrays) (hlk : l.kind = .ctrl) (hln : l.name = out)
    (hW : W.numIn = r.num) (hW' : W.numOut = l.num)
    (hfilt : cfg.filt = firOps R) (hpos : ∀ a ∈ cfg.arrays, 0 < a.num) (hsh : cfg.PathShape arr)
    (hstat : ∀ a ∈ cfg.arrays, a.dynamic = false) (hm : m ∈ cfg.arrays) (hmic : m.kind = .mic)
    {P Q : String → IrMat R}
    (hP : ∀ s ∈ cfg.arrays, s.kind ≠ .mic → cfg.arrPath arr s.name m.name = .ok (P s.name))
    (hQ : ∀ s ∈ cfg.arrays, s.kind ≠ .mic → cfg.arrPath arr s.name inp = .ok (Q s.name))
    {x : String → Nat → Nat → R}
    (hx : ∀ a ∈ cfg.arrays, a.kind = .free → IsStream cfg.srcGet (srcs a.name) a.num (x a.name)) :
    ∀ c < m.num, ∃ e : Int → R, (∀ t < 0, e t = 0) ∧ (∀ t ≤ k, cfg.Produced st0 m.name c t (e t)) ∧
      ∀ t ≤ (k : Int), through (loopMat W (Q out) r.num l.num bs).det e t =
        ((cfg.arrays.filter fun s => s.kind == .free).map fun s => ∑ i ∈ Finset.range s.num,
          through (loopTf W (Q out) (P out) (Q s.name) (P s.name) r.num l.num bs i c) (cfg.played x s.name i) t).sum := by
  obtain ⟨v, y, y0, pr, ou, mic⟩ := loop_signals h hk hproc hwarm hr hrn hrk hl hlk hln hW hW' hfilt hpos hsh hstat hx
  intro c hc
  refine ⟨y m.name c, y0 _ c, pr m hm c hc, ?_⟩
  · intro t ht
    rw [loop_solve (W := W) (F := Q out) (nr := r.num) (nl := l.num) (bs := bs)
      (S := fun j => (P out).tf j c) (v := fun j => v j)
      (ρ := fun p => y inp p)
      (b := fun p t => ((freeOf cfg.arrays).map fun s => ∑ i ∈ Finset.range s.num,
          through ((Q s.name).tf i p) (cfg.played x s.name i) t).sum)
      (d := fun t => ((freeOf cfg.arrays).map fun s => ∑ i ∈ Finset.range s.num,
          through ((P s.name).tf i c) (cfg.played x s.name i) t).sum) (k := k)
      ?_ ?_ ?_ t ht]
    · rw [through_sig_list]
      have hb : ∀ (q : R[X]) (p : Fin r.num), through q (fun t => ((freeOf cfg.arrays).map fun s =>
          ∑ i ∈ Finset.range s.num, through ((Q s.name).tf i p) (cfg.played x s.name i) t).sum) t =
          ((freeOf cfg.arrays).map fun s => ∑ i ∈ Finset.range s.num,
            through (q * (Q s.name).tf i p) (cfg.played x s.name i) t).sum := by
        intro q p
        rw [through_sig_list]
        congr 1
        refine List.map_congr_left fun s _ => ?_
        rw [through_sig_sum]
        exact Finset.sum_congr rfl fun i _ => by rw [through_mul]
      simp only [hb]
      have hlist : ∀ (ι : Type) (s : Finset ι) (l : List ArrInfo) (f : ι → ArrInfo → R),
          ∑ i ∈ s, (l.map (f i)).sum = (l.map fun a => ∑ i ∈ s, f i a).sum := by
        intro ι s l f
        induction l with
        | nil => simp
        | cons a l ih => simp only [List.map_cons, List.sum_cons, Finset.sum_add_distrib, ih]
      simp only [hlist]
      rw [← List.sum_map_add]
      show _ = ((freeOf cfg.arrays).map _).sum
      congr 1
      refine List.map_congr_left fun s _ => ?_
      rw [through_sig_sum]
      simp only [Finset.sum_comm (t := Finset.range s.num)]
      rw [← Finset.sum_add_distrib]
      refine Finset.sum_congr rfl fun i _ => ?_
      unfold loopTf
      rw [through_add, through_mul (p := Matrix.det _), Finset.mul_sum, through_sum]
      congr 1
      refine Finset.sum_congr rfl fun j _ => ?_
      rw [Finset.mul_sum, through_sum]
      refine Finset.sum_congr rfl fun q _ => ?_
      rw [Finset.mul_sum, through_sum]
      refine Finset.sum_congr rfl fun p _ => ?_
      congr 1
      ring
    · intro p t ht
      have := mic r hr hrk Q (by rw [hrn]; exact hQ) p p.2 t ht
      rw [hrn] at this
      exact this
    · intro j t ht
      exact ou j j.2 t ht
    · intro t ht
      exact mic m hm hmic P hP c hc t ht

/-- C133, exact cancellation: where the transfer functions from all sources vanish,
the microphone is silent. -/
theorem C133_cancel {inp out : String} {W : IrMat R}
    (h : Started cfg ((ancProc inp out bs).view bs) srcs arr ⟨W, []⟩ f0 ds0 st0)
    (hk : cfg.steps k st0 = .ok st) (hproc : cfg.proc = some (ancProc inp out bs)) (hwarm : cfg.warm = false)
    {r l m : ArrInfo} (hr : r ∈ cfg.arrays) (hrn : r.name = inp) (hrk : r.kind = .mic)
    (hl : l ∈ cfg.arrays) (hlk : l.kind = .ctrl) (hln : l.name = out)
    (hW : W.numIn = r.num) (hW' : W.numOut = l.num)
    (hfilt : cfg.filt = firOps R) (hpos : ∀ a ∈ cfg.arrays, 0 < a.num) (hsh : cfg.PathShape arr)
    (hstat : ∀ a ∈ cfg.arrays, a.dynamic = false) (hm : m ∈ cfg.arrays) (hmic : m.kind = .mic)
    {P Q : String → IrMat R}
    (hP : ∀ s ∈ cfg.arrays, s.kind ≠ .mic → cfg.arrPath arr s.name m.name = .ok (P s.name))
    (hQ : ∀ s ∈ cfg.arrays, s.kind ≠ .mic → cfg.arrPath arr s.name inp = .ok (Q s.name))
    {x : String → Nat → Nat → R}
    (hx : ∀ a ∈ cfg.arrays, a.kind = .free → IsStream cfg.srcGet (srcs a.name) a.num (x a.name))
    {c : Nat} (hc : c < m.num)
    (hzero : ∀ s ∈ cfg.arrays, s.kind = .free → ∀ i < s.num,
      loopTf W (Q out) (P out) (Q s.name) (P s.name) r.num l.num bs i c = 0) :
    ∀ t ≤ k, cfg.Produced st0 m.name c t 0 := by
  have hb : 1 ≤ bs := by
    have := h.sizes.block; unfold SimCfg.mbs at this; rw [hproc] at this; exact this
  obtain ⟨e, h1, h2, h3⟩ := C133_transfer h hk hproc hwarm hr hrn hrk hl hlk hln hW hW' hfilt hpos hsh hstat hm hmic
    hP hQ hx c hc
  have hz : ∀ t ≤ (k : Int), through (loopMat W (Q out) r.num l.num bs).det e t = 0 := by
    intro t ht
    rw [h3 t ht]
    apply List.sum_eq_zero
    intro z hz
    rw [List.mem_map] at hz
    obtain ⟨s, hs, rfl⟩ := hz
    rw [List.mem_filter] at hs
    refine Finset.sum_eq_zero fun i hi => ?_
    rw [hzero s hs.1 (by simpa using hs.2) i (Finset.mem_range.1 hi), through_zero]
  intro t ht
  have := h2 t ht
  rwa [through_inj (loop_det W (Q out) r.num l.num hb) h1 hz t (by omega)] at this

end

/-! ### A concrete case -/

section

/-- Noise reaches the reference microphone at once and the error microphone three
samples later; the loudspeaker is heard by both, its feedback being made up for by
an echo in its path to the error microphone. -/
def quietPath (s m : String) : IrMat ℚ :=
  ⟨1, 1, fun _ _ => if m = "ref" then [1] else if s = "noise" then [0, 0, 0, 1] else [0, 1, 0, 1]⟩

def quietCfg : SimCfg ℚ (IrMat ℚ) (Fir ℚ) Nat Unit (Fir ℚ) (DData ℚ (Fir ℚ) ℚ) (DOut ℚ ℚ) :=
  { ctlCfg with warm := false, arrPath := fun _ s m => .ok (quietPath s m) }

def quietFilt : IrMat ℚ := ⟨1, 1, fun _ _ => [-1]⟩

theorem quiet_admissible : Admissible quietCfg ((ancProc "ref" "loudspeaker" 2).view 2) where
  block := by decide
  buffer := by decide
  chunk := by decide
  proc := by
    intro p hp
    cases hp
    exact ⟨Or.inl (by decide), by decide⟩
  valid := by
    show ((ancProc "ref" "loudspeaker" 2).view 2).Valid _ (some (ancProc "ref" "loudspeaker" 2))
    rw [anc_eq]
    exact block_valid _ _ _ _ _

theorem quiet_det : (loopMat quietFilt (quietPath "loudspeaker" "ref") 1 1 2).det = 1 + X ^ 2 := by
  rw [Matrix.det_fin_one]
  unfold loopMat
  rw [Matrix.sub_apply, Matrix.one_apply, if_pos rfl, Matrix.of_apply]
  simp [IrMat.tf, quietFilt, quietPath]

theorem quiet_tf : loopTf quietFilt (quietPath "loudspeaker" "ref") (quietPath "loudspeaker" "error")
    (quietPath "noise" "ref") (quietPath "noise" "error") 1 1 2 0 0 = 0 := by
  unfold loopTf
  rw [quiet_det]
  simp only [Finset.univ_unique, Finset.sum_singleton, Matrix.adjugate_subsingleton, Matrix.one_apply, if_true]
  simp [IrMat.tf, quietFilt, quietPath, Finset.sum_range_succ, ← C_mul_X_pow_eq_monomial]
  ring

/-- The error microphone is silent, though the noise is not. -/
example : ∃ st0 : CtlSt, (∀ t ≤ 7, quietCfg.Produced st0 "error" 0 t 0) ∧ quietCfg.Produced st0 "noise" 0 7 8 ∧
    quietCfg.Produced st0 "noise~error" 0 7 5 := by
  have h0 : ∃ st0, quietCfg.init (fun _ => 0) () ⟨quietFilt, []⟩ demoFilt [] = .ok st0 := ⟨_, by rfl⟩
  obtain ⟨st0, h0⟩ := h0
  have h1 : ((quietCfg.init (fun _ => 0) () ⟨quietFilt, []⟩ demoFilt []).bind fun st0 =>
      (quietCfg.steps 7 st0).map fun _ => ()) = .ok () := by rfl
  rw [h0] at h1
  change (quietCfg.steps 7 st0).map _ = _ at h1
  cases hs : quietCfg.steps 7 st0 with
  | error x => rw [hs] at h1; cases h1
  | ok st =>
    have hst : Started quietCfg ((ancProc "ref" "loudspeaker" 2).view 2) (fun _ => 0) () ⟨quietFilt, []⟩ demoFilt [] st0 :=
      ⟨quiet_admissible, rfl, by decide, h0⟩
    have hpos : ∀ a ∈ quietCfg.arrays, 0 < a.num := by
      intro a ha; simp only [quietCfg, ctlCfg, List.mem_cons, List.not_mem_nil, or_false] at ha
      rcases ha with rfl | rfl | rfl | rfl <;> decide
    have hsh : quietCfg.PathShape () := by
      intro n a _ s m h hs hm hp
      cases hp
      simp only [quietCfg, ctlCfg, List.mem_cons, List.not_mem_nil, or_false] at hm
      rcases hm with rfl | rfl | rfl | rfl <;> rfl
    have hstr : ∀ a ∈ quietCfg.arrays, a.kind = .free →
        IsStream quietCfg.srcGet ((fun _ => 0 : String → Nat) a.name) a.num
          ((fun _ _ t => ((0 + t + 1 : Nat) : ℚ) : String → Nat → Nat → ℚ) a.name) := by
      intro a ha hf
      have : a = ⟨"noise", 1, .free, false⟩ := ctl_free ha hf
      subst this
      exact ctl_stream 0
    obtain ⟨u, y, em, pr, fr, un, ou, mi⟩ := loop_equations hst hs rfl (r := ⟨"ref", 1, .mic, false⟩)
      (l := ⟨"loudspeaker", 1, .ctrl, false⟩) (by simp [quietCfg, ctlCfg]) rfl
      (by simp [quietCfg, ctlCfg]) rfl rfl rfl rfl rfl hpos hsh (x := fun _ _ t => ((0 + t + 1 : Nat) : ℚ)) hstr
    have hn : (⟨"noise", 1, .free, false⟩ : ArrInfo) ∈ quietCfg.arrays := by simp [quietCfg, ctlCfg]
    have hv : ∀ j : Nat, j ≤ 7 → quietCfg.played (fun _ _ t => ((0 + t + 1 : Nat) : ℚ)) "noise" 0 (7 - (j : Int)) = 8 - j := by
      intro j hj
      unfold SimCfg.played
      rw [if_pos ⟨⟨_, hn, rfl, rfl⟩, by show -((1 : Nat) : Int) < _; omega⟩]
      show ((0 + ((7 - (j : Int)) + ((1 : Nat) : Int) - 1).toNat + 1 : Nat) : ℚ) = _
      rw [show ((7 - (j : Int)) + ((1 : Nat) : Int) - 1).toNat = 7 - j by omega]
      push_cast [Nat.cast_sub hj]
      ring
    refine ⟨st0, ?_, ?_, ?_⟩
    · refine C133_cancel hst hs rfl rfl (r := ⟨"ref", 1, .mic, false⟩)
        (l := ⟨"loudspeaker", 1, .ctrl, false⟩) (m := ⟨"error", 1, .mic, false⟩) (by simp [quietCfg, ctlCfg]) rfl rfl
        (by simp [quietCfg, ctlCfg]) rfl rfl rfl rfl rfl hpos hsh
        (by intro a ha; simp only [quietCfg, ctlCfg, List.mem_cons, List.not_mem_nil, or_false] at ha
            rcases ha with rfl | rfl | rfl | rfl <;> rfl)
        (by simp [quietCfg, ctlCfg]) rfl (P := fun s => quietPath s "error") (Q := fun s => quietPath s "ref")
        (fun _ _ _ => rfl) (fun _ _ _ => rfl) (x := fun _ _ t => ((0 + t + 1 : Nat) : ℚ)) hstr (by decide) ?_
      intro s hs hf i hi
      have : s = ⟨"noise", 1, .free, false⟩ := ctl_free hs hf
      subst this
      obtain rfl : i = 0 := by change i < 1 at hi; omega
      exact quiet_tf
    · have := em _ hn (by decide) 0 (by decide) 7 (by decide)
      rw [fr _ hn rfl 0 (by decide) 7 (by decide)] at this
      unfold SimCfg.Emitted at this
      rw [if_pos (by decide)] at this
      have h8 := hv 0 (by decide)
      norm_num at h8
      norm_num [h8] at this
      exact this
    · obtain ⟨ir, g1, g2⟩ := mi ⟨"error", 1, .mic, false⟩ (by simp [quietCfg, ctlCfg]) rfl 7 (by decide)
      have := (g2 0 (by decide)).2 rfl _ hn (by decide)
      have hir : ir "noise" = quietPath "noise" "error" := by
        have := g1 _ hn (by decide)
        exact (Except.ok.inj this).symm
      have hval : convSum [⟨"noise", 1, .free, false⟩] ir u 0 ((7 : Nat) : Int) = 5 := by
        unfold convSum
        rw [List.map_singleton, List.sum_singleton, list_sum_range]
        simp only [Finset.sum_range_one]
        rw [list_sum_range, hir]
        show ∑ j ∈ Finset.range 4, ([0, 0, 0, 1] : List ℚ).getD j 0 * u "noise" 0 (7 - (j : Int)) = 5
        have hu : ∀ j : Nat, j ≤ 7 → u "noise" 0 (7 - (j : Int)) = 8 - j := by
          intro j hj
          rw [← hv j hj]
          exact fr _ hn rfl 0 (by decide) _ (by omega)
        rw [Finset.sum_range_succ, Finset.sum_range_succ, Finset.sum_range_succ, Finset.sum_range_one, hu 0 (by decide),
          hu 1 (by decide), hu 2 (by decide), hu 3 (by decide)]
        norm_num
      rw [hval] at this
      exact this

end
end Verif

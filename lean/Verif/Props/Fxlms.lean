/-
C134, C135: the update of the adaptive filter `FxLMS`.
-/
import Mathlib.Algebra.Order.BigOperators.Ring.Finset
import Mathlib.Tactic.Linarith
import Verif.Lemmas.Fxlms
import Verif.Props.Transfer
namespace Verif
open Polynomial

section
variable {R : Type} [CommRing R]

theorem through_tf_upto (h : IrMat R) (i o L : Nat) (hL : (h.ir i o).length ≤ L) (u : Int → R) (t : Int) :
    through (h.tf i o) u t = ∑ n ∈ Finset.range L, (h.ir i o).getD n 0 * u (t - n) := by
  rw [through_tf, list_sum_range]
  refine Finset.sum_subset (Finset.range_mono hL) fun n _ hn => ?_
  rw [Finset.mem_range, not_lt] at hn
  rw [List.getD_eq_getElem?_getD, List.getElem?_eq_none hn, Option.getD_none, zero_mul]

theorem filteredRef_eq (S : IrMat R) (bs : Nat) (ρ : Nat → Int → R) (r l m : Nat) (t : Int) :
    filteredRef S bs ρ r l m t = through (X ^ bs * S.tf l m) (ρ r) t := by
  rw [mul_comm, through_mul, through_tf, list_sum_range]
  unfold filteredRef
  refine Finset.sum_congr rfl fun q _ => ?_
  rw [through_X_pow]
  congr 2
  ring

/-- The square of a sum, summed. -/
theorem sum_sq_add {ι κ : Type} (I : Finset ι) (J : Finset κ) (Xm : ι → κ → R) (e : κ → R) (D : ι → R) :
    ∑ j ∈ J, (e j + ∑ i ∈ I, D i * Xm i j) ^ 2 =
      ∑ j ∈ J, e j ^ 2 + 2 * ∑ i ∈ I, (∑ j ∈ J, Xm i j * e j) * D i + ∑ j ∈ J, (∑ i ∈ I, D i * Xm i j) ^ 2 := by
  have h1 : ∑ i ∈ I, (∑ j ∈ J, Xm i j * e j) * D i = ∑ j ∈ J, e j * ∑ i ∈ I, D i * Xm i j := by
    simp only [Finset.sum_mul, Finset.mul_sum]
    rw [Finset.sum_comm]
    exact Finset.sum_congr rfl fun j _ => Finset.sum_congr rfl fun i _ => by ring
  rw [h1, Finset.mul_sum, ← Finset.sum_add_distrib, ← Finset.sum_add_distrib]
  exact Finset.sum_congr rfl fun j _ => by ring

end

section
variable {R : Type} [Field R] [LinearOrder R] [IsStrictOrderedRing R]

/-- A gradient step that is not too long. -/
theorem sum_sq_step {ι κ : Type} (I : Finset ι) (J : Finset κ) (Xm : ι → κ → R) (e : κ → R) (η : R) (h0 : 0 ≤ η)
    (hη : η * ∑ j ∈ J, ∑ i ∈ I, Xm i j ^ 2 ≤ 2) :
    ∑ j ∈ J, (e j + ∑ i ∈ I, (-(η * ∑ j ∈ J, Xm i j * e j)) * Xm i j) ^ 2 ≤ ∑ j ∈ J, e j ^ 2 := by
  rw [sum_sq_add]
  have hg : ∑ i ∈ I, (∑ j ∈ J, Xm i j * e j) * (-(η * ∑ j ∈ J, Xm i j * e j)) =
      -(η * ∑ i ∈ I, (∑ j ∈ J, Xm i j * e j) ^ 2) := by
    rw [Finset.mul_sum, ← Finset.sum_neg_distrib]
    exact Finset.sum_congr rfl fun i _ => by ring
  have hq : ∑ j ∈ J, (∑ i ∈ I, (-(η * ∑ j ∈ J, Xm i j * e j)) * Xm i j) ^ 2 ≤
      η ^ 2 * (∑ i ∈ I, (∑ j ∈ J, Xm i j * e j) ^ 2) * ∑ j ∈ J, ∑ i ∈ I, Xm i j ^ 2 := by
    rw [Finset.mul_sum]
    refine Finset.sum_le_sum fun j _ => ?_
    have := Finset.sum_mul_sq_le_sq_mul_sq I (fun i => -(η * ∑ j ∈ J, Xm i j * e j)) fun i => Xm i j
    refine this.trans (le_of_eq ?_)
    congr 1
    rw [Finset.mul_sum]
    exact Finset.sum_congr rfl fun i _ => by ring
  rw [hg]
  have hG : 0 ≤ ∑ i ∈ I, (∑ j ∈ J, Xm i j * e j) ^ 2 := Finset.sum_nonneg fun i _ => sq_nonneg _
  have : η ^ 2 * (∑ i ∈ I, (∑ j ∈ J, Xm i j * e j) ^ 2) * (∑ j ∈ J, ∑ i ∈ I, Xm i j ^ 2) ≤
      2 * (η * ∑ i ∈ I, (∑ j ∈ J, Xm i j * e j) ^ 2) := by
    have := mul_le_mul_of_nonneg_left hη (mul_nonneg h0 hG)
    calc _ = η * (∑ i ∈ I, (∑ j ∈ J, Xm i j * e j) ^ 2) * (η * ∑ j ∈ J, ∑ i ∈ I, Xm i j ^ 2) := by ring
      _ ≤ _ := this
      _ = _ := by ring
  linarith

end

section
variable {R S A V : Type} [Field R] [DecidableEq R]
  {cfg : SimCfg R (IrMat R) (Fir R) S A (Fir R) (DData R (Fir R) V) (DOut R V)} {k bs : Nat}

/-- Two runs of `k + 1` samples of the same noise control scene, differing in the
control filter (`W` and `W'`, both of at most `L` taps) only: nothing moves, the
simulation starts with the sources, nothing of the loudspeakers `l` is heard by the
reference microphones `r`.  `P` is the path from each source to the microphones `m`,
`ρ` what the reference microphones record, `e` and `e'` what `m` record in the two
runs. -/
structure AncPair (cfg : SimCfg R (IrMat R) (Fir R) S A (Fir R) (DData R (Fir R) V) (DOut R V))
    (inp out : String) (bs k L : Nat) (W W' : IrMat R) (r l m : ArrInfo) (P : String → IrMat R) (ρ e e' : Nat → Int → R) :
    Prop where
  run : ∃ (srcs : String → S) (arr : A) (f0 : Fir R) (ds0 ds1 : List (Diag (DData R (Fir R) V)))
    (st0 st st0' st' : SimSt R (Fir R) S A (Fir R) (DData R (Fir R) V) (DOut R V))
    (Q : String → IrMat R) (x : String → Nat → Nat → R),
    Started cfg ((ancProc inp out bs).view bs) srcs arr ⟨W, []⟩ f0 ds0 st0 ∧ cfg.steps k st0 = .ok st ∧
    Started cfg ((ancProc inp out bs).view bs) srcs arr ⟨W', []⟩ f0 ds1 st0' ∧ cfg.steps k st0' = .ok st' ∧
    cfg.PathShape arr ∧
    (∀ s ∈ cfg.arrays, s.kind ≠ .mic → cfg.arrPath arr s.name m.name = .ok (P s.name)) ∧
    (∀ s ∈ cfg.arrays, s.kind ≠ .mic → cfg.arrPath arr s.name inp = .ok (Q s.name)) ∧
    (∀ j < l.num, ∀ p < r.num, ∀ q, ((Q out).ir j p).getD q 0 = 0) ∧
    (∀ a ∈ cfg.arrays, a.kind = .free → IsStream cfg.srcGet (srcs a.name) a.num (x a.name)) ∧
    (∀ c < r.num, ∀ t ≤ k, cfg.Produced st0 inp c t (ρ c t)) ∧
    (∀ c < m.num, ∀ t ≤ k, cfg.Produced st0 m.name c t (e c t)) ∧
    (∀ c < m.num, ∀ t ≤ k, cfg.Produced st0' m.name c t (e' c t))
  proc : cfg.proc = some (ancProc inp out bs)
  cold : cfg.warm = false
  ref : r ∈ cfg.arrays ∧ r.name = inp ∧ r.kind = .mic
  ls : l ∈ cfg.arrays ∧ l.kind = .ctrl ∧ l.name = out
  mic : m ∈ cfg.arrays ∧ m.kind = .mic
  dims : W.numIn = r.num ∧ W.numOut = l.num
  dims' : W'.numIn = r.num ∧ W'.numOut = l.num
  filt : cfg.filt = firOps R
  pos : ∀ a ∈ cfg.arrays, 0 < a.num
  still : ∀ a ∈ cfg.arrays, a.dynamic = false
  taps : ∀ p j, (W.ir p j).length ≤ L
  taps' : ∀ p j, (W'.ir p j).length ≤ L
  before : ∀ c, ∀ t < 0, ρ c t = 0

/-- Two control filters, no feedback: the difference of what the microphones record. -/
theorem loop_change {inp out : String} {L : Nat} {W W' : IrMat R} {r l m : ArrInfo} {P : String → IrMat R}
    {ρ e e' : Nat → Int → R} (H : AncPair cfg inp out bs k L W W' r l m P ρ e e') :
    ∀ c < m.num, ∀ t ≤ k, e' c t = e c t + ∑ p ∈ Finset.range r.num, ∑ j ∈ Finset.range l.num, ∑ q ∈ Finset.range L,
      ((W'.ir p j).getD q 0 - (W.ir p j).getD q 0) * filteredRef (P out) bs ρ p j c ((t : Int) - q) := by
  obtain ⟨srcs, arr, f0, ds0, ds1, st0, st, st0', st', Q, x, h, hk, h', hk', hsh, hP, hQ, hfb, hx, hρ, he, he'⟩ := H.run
  have hproc := H.proc
  have hwarm := H.cold
  have hρ0 := H.before
  have hL := H.taps
  have hL' := H.taps'
  have hW := H.dims
  have hW' := H.dims'
  have hfilt := H.filt
  have hpos := H.pos
  have hstat := H.still
  obtain ⟨hr, hrn, hrk⟩ := H.ref
  obtain ⟨hl, hlk, hln⟩ := H.ls
  obtain ⟨hm, hmic⟩ := H.mic
  obtain ⟨v, y, y0, pr, ou, mic⟩ := loop_signals h hk hproc hwarm hr hrn hrk hl hlk hln hW.1 hW.2 hfilt hpos hsh hstat hx
  obtain ⟨v', y', y0', pr', ou', mic'⟩ := loop_signals h' hk' hproc hwarm hr hrn hrk hl hlk hln hW'.1 hW'.2 hfilt hpos hsh
    hstat hx
  have hF : ∀ j < l.num, ∀ p < r.num, (Q out).tf j p = 0 := by
    intro j hj p hp
    unfold IrMat.tf
    exact Finset.sum_eq_zero fun q _ => by rw [hfb j hj p hp q, monomial_zero_right]
  have ey : ∀ p < r.num, ∀ t ≤ (k : Int), y inp p t = ρ p t := by
    intro p hp t ht
    by_cases h0 : t < 0
    · rw [y0 _ _ t h0, hρ0 p t h0]
    · have a1 := pr r hr p hp t.toNat (by omega)
      have a2 := hρ p hp t.toNat (by omega)
      rw [hrn] at a1
      have := a1.unique a2
      rwa [show ((t.toNat : Nat) : Int) = t by omega] at this
  have ey' : ∀ p < r.num, ∀ t ≤ (k : Int), y' inp p t = ρ p t := by
    intro p hp t ht
    rw [← ey p hp t ht, ← hrn, mic r hr hrk Q (by rw [hrn]; exact hQ) p hp t ht,
      mic' r hr hrk Q (by rw [hrn]; exact hQ) p hp t ht]
    congr 1
    rw [Finset.sum_eq_zero fun j _ => by rw [hF _ j.2 p hp, through_zero],
      Finset.sum_eq_zero fun j _ => by rw [hF _ j.2 p hp, through_zero]]
  intro c hc t ht
  have a1 : e c t = y m.name c t := (he c hc t ht).unique (pr m hm c hc t ht)
  have a2 : e' c t = y' m.name c t := (he' c hc t ht).unique (pr' m hm c hc t ht)
  rw [a1, a2, mic m hm hmic P hP c hc t (by omega), mic' m hm hmic P hP c hc t (by omega), add_assoc]
  congr 1
  have hv : ∀ (z : Nat → Int → R) (w : IrMat R) (yy : Nat → Int → R), (∀ p j, (w.ir p j).length ≤ L) →
      (∀ p < r.num, ∀ t ≤ (k : Int), yy p t = ρ p t) →
      (∀ j < l.num, ∀ t ≤ (k : Int), z j t = ∑ p : Fin r.num, through (X ^ bs * w.tf p j) (yy p) t) →
      ∀ j : Fin l.num, through ((P out).tf j c) (z j) (t : Int) = ∑ p ∈ Finset.range r.num, ∑ q ∈ Finset.range L,
        (w.ir p j).getD q 0 * filteredRef (P out) bs ρ p j c ((t : Int) - q) := by
    intro z w yy hw hyy hz j
    rw [through_congr (fun q hq => hz j j.2 q (by omega)), through_sig_sum, Finset.sum_range]
    refine Finset.sum_congr rfl fun p _ => ?_
    rw [through_congr (p := (P out).tf j c) (v := through (X ^ bs * w.tf p j) (ρ p))
      (fun q hq => through_congr fun q' hq' => hyy p p.2 q' (by omega))]
    rw [← through_mul, show (P out).tf j c * (X ^ bs * w.tf p j) = w.tf p j * (X ^ bs * (P out).tf j c) by ring,
      through_mul, through_tf_upto _ _ _ L (hw _ _)]
    exact Finset.sum_congr rfl fun q _ => by rw [filteredRef_eq]
  rw [Finset.sum_congr rfl fun j _ => hv v W (y inp) hL ey ou j,
    Finset.sum_congr rfl fun j _ => hv v' W' (y' inp) hL' ey' ou' j, ← Finset.sum_range
      (fun j => ∑ p ∈ Finset.range r.num, ∑ q ∈ Finset.range L,
        (W.ir p j).getD q 0 * filteredRef (P out) bs ρ p j c ((t : Int) - q)),
    ← Finset.sum_range (fun j => ∑ p ∈ Finset.range r.num, ∑ q ∈ Finset.range L,
        (W'.ir p j).getD q 0 * filteredRef (P out) bs ρ p j c ((t : Int) - q)), Finset.sum_comm,
    Finset.sum_comm (s := Finset.range l.num), ← Finset.sum_add_distrib]
  refine Finset.sum_congr rfl fun p _ => ?_
  rw [← Finset.sum_add_distrib]
  refine Finset.sum_congr rfl fun j _ => ?_
  rw [← Finset.sum_add_distrib]
  refine Finset.sum_congr rfl fun q _ => ?_
  ring


/-- The indices of the taps of the control filter. -/
def tapIdx (nr nl L : Nat) : Finset (Nat × Nat × Nat) := Finset.range nr ×ˢ (Finset.range nl ×ˢ Finset.range L)

theorem sum_tapIdx (nr nl L : Nat) (f : Nat → Nat → Nat → R) :
    ∑ i ∈ tapIdx nr nl L, f i.1 i.2.1 i.2.2 =
      ∑ p ∈ Finset.range nr, ∑ j ∈ Finset.range nl, ∑ q ∈ Finset.range L, f p j q := by
  unfold tapIdx
  rw [Finset.sum_product]
  exact Finset.sum_congr rfl fun p _ => by rw [Finset.sum_product]

/-- C134: what `FxLMS` subtracts from the control filter is the derivative of the
energy at the error microphones.  Two runs of the same scene that differ in the
control filter only, nothing fed back from the loudspeakers to the reference
microphones, `xf` the reference heard through the path of the loudspeakers: the
energy with the second filter is the energy with the first, plus twice the change
of the taps times what `update_filter` computes from the first run, plus a square. -/
theorem C134_gradient {inp out : String} {L : Nat} {W W' : IrMat R} {r l m : ArrInfo} {P : String → IrMat R}
    {ρ e e' : Nat → Int → R} (H : AncPair cfg inp out bs k L W W' r l m P ρ e e')
    {xf : Nat → Nat → Nat → List R} {err : Nat → List R} {o : Int} {len start stop : Nat}
    (hb : FxBuf xf err (filteredRef (P out) bs ρ) e o len r.num l.num m.num)
    (hLs : L ≤ start + 1) (hs : start ≤ stop) (hd : stop ≤ len) (ho : o ≤ start) (hsk : (stop : Int) - o ≤ k + 1) (β : R) :
    ∃ g : Nat → Nat → List R,
      (∀ p < r.num, ∀ j < l.num, fxGrad .none β r.num l.num m.num L xf err start stop p j = .ok (g p j)) ∧
      energyOf e' o m.num start stop = energyOf e o m.num start stop +
        2 * ∑ p ∈ Finset.range r.num, ∑ j ∈ Finset.range l.num, ∑ q ∈ Finset.range L,
          (g p j).getD q 0 * ((W'.ir p j).getD q 0 - (W.ir p j).getD q 0) +
        energyOf (fun c t => ∑ p ∈ Finset.range r.num, ∑ j ∈ Finset.range l.num, ∑ q ∈ Finset.range L,
          ((W'.ir p j).getD q 0 - (W.ir p j).getD q 0) * filteredRef (P out) bs ρ p j c (t - q)) o m.num start stop := by
  have hch := loop_change H
  have hpos := H.pos m H.mic.1
  refine ⟨fun p j => (List.range L).map fun (q : Nat) => ∑ n ∈ Finset.Ico start stop,
    (∑ c ∈ Finset.range m.num, filteredRef (P out) bs ρ p j c ((n : Int) - o - q) * e c ((n : Int) - o)) *
      fxWeight .none β r.num l.num m.num L (filteredRef (P out) bs ρ) ((n : Int) - o),
    fun p hp j hj => fxGrad_eq hb (by decide) β hp hj hpos hLs hs hd, ?_⟩
  have key := sum_sq_add (tapIdx r.num l.num L) (Finset.range m.num ×ˢ Finset.Ico start stop)
    (fun i j => filteredRef (P out) bs ρ i.1 i.2.1 j.1 ((j.2 : Int) - o - i.2.2)) (fun j => e j.1 ((j.2 : Int) - o))
    (fun i => (W'.ir i.1 i.2.1).getD i.2.2 0 - (W.ir i.1 i.2.1).getD i.2.2 0)
  unfold energyOf
  rw [Finset.sum_product, Finset.sum_product, Finset.sum_product] at key
  beta_reduce at key
  have e1 : ∀ c n, ∑ i ∈ tapIdx r.num l.num L, ((W'.ir i.1 i.2.1).getD i.2.2 0 - (W.ir i.1 i.2.1).getD i.2.2 0) *
      filteredRef (P out) bs ρ i.1 i.2.1 c ((n : Int) - o - i.2.2) = ∑ p ∈ Finset.range r.num, ∑ j ∈ Finset.range l.num,
      ∑ q ∈ Finset.range L, ((W'.ir p j).getD q 0 - (W.ir p j).getD q 0) *
        filteredRef (P out) bs ρ p j c ((n : Int) - o - q) := fun c n =>
    sum_tapIdx r.num l.num L fun p j q => ((W'.ir p j).getD q 0 - (W.ir p j).getD q 0) *
        filteredRef (P out) bs ρ p j c (n - o - q)
  simp only [e1] at key
  have e2 : ∀ c ∈ Finset.range m.num, ∀ n ∈ Finset.Ico start stop, e' c ((n : Int) - o) = e c ((n : Int) - o) +
      ∑ p ∈ Finset.range r.num, ∑ j ∈ Finset.range l.num, ∑ q ∈ Finset.range L,
      ((W'.ir p j).getD q 0 - (W.ir p j).getD q 0) * filteredRef (P out) bs ρ p j c ((n : Int) - o - q) := by
    intro c hc n hn
    rw [Finset.mem_Ico] at hn
    have := hch c (Finset.mem_range.mp hc) ((n : Int) - o).toNat (by omega)
    rwa [show ((((n : Int) - o).toNat : Nat) : Int) = (n : Int) - o by omega] at this
  rw [Finset.sum_congr rfl fun c hc => Finset.sum_congr rfl fun n hn => by rw [e2 c hc n hn], key]
  congr 3
  rw [← sum_tapIdx r.num l.num L fun p j q => ((List.range L).map fun (q : Nat) => ∑ n ∈ Finset.Ico start stop,
    (∑ c ∈ Finset.range m.num, filteredRef (P out) bs ρ p j c ((n : Int) - o - q) * e c ((n : Int) - o)) *
      fxWeight .none β r.num l.num m.num L (filteredRef (P out) bs ρ) ((n : Int) - o)).getD q 0 *
        ((W'.ir p j).getD q 0 - (W.ir p j).getD q 0)]
  refine Finset.sum_congr rfl fun i hi => ?_
  unfold tapIdx at hi
  simp only [Finset.mem_product, Finset.mem_range] at hi
  congr 1
  rw [List.getD_eq_getElem?_getD, List.getElem?_map, List.getElem?_range hi.2.2, Option.map_some, Option.getD_some,
    Finset.sum_product_right]
  refine Finset.sum_congr rfl fun n _ => ?_
  unfold fxWeight
  rw [if_neg (by decide), mul_one]

end

section
variable {R S A V : Type} [Field R] [LinearOrder R] [IsStrictOrderedRing R]
  {cfg : SimCfg R (IrMat R) (Fir R) S A (Fir R) (DData R (Fir R) V) (DOut R V)} {k bs : Nat}

/-- A step of the filter by a multiple `η` of the gradient. -/
theorem fx_descent {inp out : String} {L : Nat} {W W' : IrMat R} {r l m : ArrInfo} {P : String → IrMat R}
    {ρ e e' : Nat → Int → R} (H : AncPair cfg inp out bs k L W W' r l m P ρ e e')
    {xf : Nat → Nat → Nat → List R} {err : Nat → List R} {o : Int} {len start stop : Nat}
    (hb : FxBuf xf err (filteredRef (P out) bs ρ) e o len r.num l.num m.num)
    (hLs : L ≤ start + 1) (hs : start ≤ stop) (hd : stop ≤ len) (ho : o ≤ start) (hsk : (stop : Int) - o ≤ k + 1)
    {norm : FxNorm} (hnorm : norm ≠ .block) {β μ η : R}
    (hwt : ∀ n ∈ Finset.Ico start stop,
      fxWeight norm β r.num l.num m.num L (filteredRef (P out) bs ρ) ((n : Int) - o) * μ = η)
    (h0 : 0 ≤ η) (hη : η * ∑ c ∈ Finset.range m.num, ∑ n ∈ Finset.Ico start stop, ∑ p ∈ Finset.range r.num,
      ∑ j ∈ Finset.range l.num, ∑ q ∈ Finset.range L, filteredRef (P out) bs ρ p j c ((n : Int) - o - q) ^ 2 ≤ 2)
    (hlen : ∀ p < r.num, ∀ j < l.num, (W.ir p j).length = L)
    (hup : ∀ p < r.num, ∀ j < l.num, ∃ g, fxGrad norm β r.num l.num m.num L xf err start stop p j = .ok g ∧
      W'.ir p j = fxUpdate μ (W.ir p j) g) :
    energyOf e' o m.num start stop ≤ energyOf e o m.num start stop := by
  have hch := loop_change H
  have hpos := H.pos m H.mic.1
  have hD : ∀ p < r.num, ∀ j < l.num, ∀ q < L, (W'.ir p j).getD q 0 - (W.ir p j).getD q 0 =
      -(η * ∑ i ∈ Finset.range m.num ×ˢ Finset.Ico start stop,
        filteredRef (P out) bs ρ p j i.1 ((i.2 : Int) - o - q) * e i.1 ((i.2 : Int) - o)) := by
    intro p hp j hj q hq
    obtain ⟨g, hg, hw⟩ := hup p hp j hj
    rw [fxGrad_eq hb hnorm β hp hj hpos hLs hs hd] at hg
    cases hg
    rw [hw]
    have hWq : (W.ir p j)[q]? = some ((W.ir p j).getD q 0) := by
      rw [List.getD_eq_getElem?_getD, List.getElem?_eq_getElem (by rw [hlen p hp j hj]; exact hq)]
      rfl
    unfold fxUpdate
    rw [List.getD_eq_getElem?_getD, List.getElem?_zipWith, hWq, List.getElem?_map, List.getElem?_range hq]
    simp only [Option.map_some, Option.getD_some]
    rw [Finset.sum_product_right, Finset.mul_sum, Finset.sum_mul, sub_sub_cancel_left, neg_inj]
    refine Finset.sum_congr rfl fun n hn => ?_
    rw [mul_assoc, hwt n hn, mul_comm]
  have key := sum_sq_step (tapIdx r.num l.num L) (Finset.range m.num ×ˢ Finset.Ico start stop)
    (fun i j => filteredRef (P out) bs ρ i.1 i.2.1 j.1 ((j.2 : Int) - o - i.2.2)) (fun j => e j.1 ((j.2 : Int) - o)) η h0 (by
      rw [Finset.sum_product]
      refine le_of_eq_of_le ?_ hη
      congr 1
      refine Finset.sum_congr rfl fun c _ => Finset.sum_congr rfl fun n _ => ?_
      exact sum_tapIdx r.num l.num L fun p j q => filteredRef (P out) bs ρ p j c ((n : Int) - o - q) ^ 2)
  rw [Finset.sum_product (s := Finset.range m.num), Finset.sum_product (s := Finset.range m.num)] at key
  unfold energyOf
  refine le_of_eq_of_le ?_ key
  refine Finset.sum_congr rfl fun c hc => Finset.sum_congr rfl fun n hn => ?_
  rw [Finset.mem_Ico] at hn
  have := hch c (Finset.mem_range.mp hc) ((n : Int) - o).toNat (by omega)
  rw [show ((((n : Int) - o).toNat : Nat) : Int) = (n : Int) - o by omega] at this
  rw [this, ← sum_tapIdx r.num l.num L fun p j q => ((W'.ir p j).getD q 0 - (W.ir p j).getD q 0) *
        filteredRef (P out) bs ρ p j c (n - o - q)]
  congr 2
  refine Finset.sum_congr rfl fun i hi => ?_
  unfold tapIdx at hi
  simp only [Finset.mem_product, Finset.mem_range] at hi
  rw [hD i.1 hi.1 i.2.1 hi.2.1 i.2.2 hi.2.2]

/-- C135 in part: a step of the adaptive filter does not raise the energy at the error
microphones over the samples it was computed from.  Normalisation `"sample"` with an
update after every sample, step size at most two. -/
theorem C135_sample_partial {inp out : String} {L : Nat} {W W' : IrMat R} {r l m : ArrInfo} {P : String → IrMat R}
    {ρ e e' : Nat → Int → R} (H : AncPair cfg inp out bs k L W W' r l m P ρ e e')
    {xf : Nat → Nat → Nat → List R} {err : Nat → List R} {o : Int} {len start : Nat}
    (hb : FxBuf xf err (filteredRef (P out) bs ρ) e o len r.num l.num m.num)
    (hLs : L ≤ start + 1) (hd : start + 1 ≤ len) (ho : o ≤ start) (hsk : (start : Int) - o ≤ k)
    {β μ : R} (hβ : 0 < β) (h0 : 0 ≤ μ) (h2 : μ ≤ 2)
    (hlen : ∀ p < r.num, ∀ j < l.num, (W.ir p j).length = L)
    (hup : ∀ p < r.num, ∀ j < l.num, ∃ g, fxGrad .sample β r.num l.num m.num L xf err start (start + 1) p j = .ok g ∧
      W'.ir p j = fxUpdate μ (W.ir p j) g) :
    energyOf e' o m.num start (start + 1) ≤ energyOf e o m.num start (start + 1) := by
  have hT : ∑ c ∈ Finset.range m.num, ∑ n ∈ Finset.Ico start (start + 1), ∑ p ∈ Finset.range r.num,
      ∑ j ∈ Finset.range l.num, ∑ q ∈ Finset.range L, filteredRef (P out) bs ρ p j c ((n : Int) - o - q) ^ 2 =
      ∑ p ∈ Finset.range r.num, ∑ j ∈ Finset.range l.num, ∑ c ∈ Finset.range m.num, ∑ q ∈ Finset.range L,
        filteredRef (P out) bs ρ p j c ((start : Int) - o - q) * filteredRef (P out) bs ρ p j c ((start : Int) - o - q) := by
    rw [Finset.sum_congr rfl fun c _ => by rw [Nat.Ico_succ_singleton, Finset.sum_singleton], Finset.sum_comm]
    refine Finset.sum_congr rfl fun p _ => ?_
    rw [Finset.sum_comm]
    exact Finset.sum_congr rfl fun j _ => Finset.sum_congr rfl fun c _ => Finset.sum_congr rfl fun q _ => sq _
  have hT0 : 0 ≤ ∑ p ∈ Finset.range r.num, ∑ j ∈ Finset.range l.num, ∑ c ∈ Finset.range m.num, ∑ q ∈ Finset.range L,
        filteredRef (P out) bs ρ p j c ((start : Int) - o - q) * filteredRef (P out) bs ρ p j c ((start : Int) - o - q) :=
    Finset.sum_nonneg fun _ _ => Finset.sum_nonneg fun _ _ => Finset.sum_nonneg fun _ _ => Finset.sum_nonneg fun _ _ =>
      mul_self_nonneg _
  refine fx_descent H hb hLs (Nat.le_succ _) hd ho (by omega) (norm := .sample) (by decide)
    (η := fxWeight .sample β r.num l.num m.num L (filteredRef (P out) bs ρ) ((start : Int) - o) * μ) ?_ ?_ ?_ hlen hup
  · intro n hn
    rw [Nat.Ico_succ_singleton, Finset.mem_singleton] at hn
    rw [hn]
  · unfold fxWeight
    rw [if_pos rfl]
    exact mul_nonneg (one_div_nonneg.mpr (by linarith)) h0
  · rw [hT]
    unfold fxWeight
    rw [if_pos rfl]
    generalize (∑ p ∈ Finset.range r.num, ∑ j ∈ Finset.range l.num, ∑ c ∈ Finset.range m.num, ∑ q ∈ Finset.range L,
        filteredRef (P out) bs ρ p j c ((start : Int) - o - q) *
          filteredRef (P out) bs ρ p j c ((start : Int) - o - q)) = T at hT0 ⊢
    rw [show 1 / (T + β) * μ * T = μ * T / (T + β) by ring, div_le_iff₀ (by linarith)]
    nlinarith [mul_le_mul_of_nonneg_right h2 hT0]

/-- C135 without normalisation: any number of samples, for a step size at most two over
the energy of the filtered reference. -/
theorem C135_plain {inp out : String} {L : Nat} {W W' : IrMat R} {r l m : ArrInfo} {P : String → IrMat R}
    {ρ e e' : Nat → Int → R} (H : AncPair cfg inp out bs k L W W' r l m P ρ e e')
    {xf : Nat → Nat → Nat → List R} {err : Nat → List R} {o : Int} {len start stop : Nat}
    (hb : FxBuf xf err (filteredRef (P out) bs ρ) e o len r.num l.num m.num)
    (hLs : L ≤ start + 1) (hs : start ≤ stop) (hd : stop ≤ len) (ho : o ≤ start) (hsk : (stop : Int) - o ≤ k + 1)
    {β μ : R} (h0 : 0 ≤ μ) (h2 : μ * ∑ p ∈ Finset.range r.num, ∑ j ∈ Finset.range l.num, ∑ q ∈ Finset.range L,
      energyOf (fun c t => filteredRef (P out) bs ρ p j c (t - q)) o m.num start stop ≤ 2)
    (hlen : ∀ p < r.num, ∀ j < l.num, (W.ir p j).length = L)
    (hup : ∀ p < r.num, ∀ j < l.num, ∃ g, fxGrad .none β r.num l.num m.num L xf err start stop p j = .ok g ∧
      W'.ir p j = fxUpdate μ (W.ir p j) g) :
    energyOf e' o m.num start stop ≤ energyOf e o m.num start stop := by
  refine fx_descent H hb hLs hs hd ho hsk (norm := .none) (by decide) (η := μ) ?_ h0 ?_ hlen hup
  · intro n _
    unfold fxWeight
    rw [if_neg (by decide), one_mul]
  · refine le_of_eq_of_le (congrArg (μ * ·) ?_) h2
    unfold energyOf
    refine Eq.trans ?_ (sum_tapIdx r.num l.num L fun p j q => ∑ c ∈ Finset.range m.num, ∑ n ∈ Finset.Ico start stop,
      filteredRef (P out) bs ρ p j c ((n : Int) - o - q) ^ 2)
    rw [Finset.sum_comm (s := tapIdx r.num l.num L)]
    refine Finset.sum_congr rfl fun c _ => ?_
    rw [Finset.sum_comm (s := tapIdx r.num l.num L)]
    refine Finset.sum_congr rfl fun n _ => ?_
    exact (sum_tapIdx r.num l.num L fun p j q => filteredRef (P out) bs ρ p j c ((n : Int) - o - q) ^ 2).symm

end

section
/-- The noise reaches the reference microphone at once and the error microphone two
samples later, the loudspeaker is heard by the error microphone only. -/
def stepPath (b : Bool) (s m : String) : IrMat ℚ :=
  ⟨1, 1, fun _ _ => if m = "ref" then (if s = "noise" then [1] else [0]) else if s = "noise" then [0, 0, 1, -3]
    else if b then [1, -2] else [1]⟩

def stepCfg (b : Bool) : SimCfg ℚ (IrMat ℚ) (Fir ℚ) Nat Unit (Fir ℚ) (DData ℚ (Fir ℚ) ℚ) (DOut ℚ ℚ) :=
  { ctlCfg with warm := false, arrPath := fun _ s m => .ok (stepPath b s m) }

theorem step_admissible (b : Bool) : Admissible (stepCfg b) ((ancProc "ref" "loudspeaker" 2).view 2) where
  block := by cases b <;> decide
  buffer := by cases b <;> decide
  chunk := by cases b <;> decide
  proc := by
    intro p hp
    cases hp
    cases b <;> exact ⟨Or.inl (by decide), by decide⟩
  valid := by
    show ((ancProc "ref" "loudspeaker" 2).view 2).Valid _ (some (ancProc "ref" "loudspeaker" 2))
    rw [anc_eq]
    exact block_valid _ _ _ _ _

theorem step_started (b : Bool) (w : List ℚ)
    (hw : w ∈ ([[0], [-1/10], [0, 0], [0, 5]] : List (List ℚ))) : ∃ (st0 st : CtlSt),
    Started (stepCfg b) ((ancProc "ref" "loudspeaker" 2).view 2) (fun _ => 0) () ⟨⟨1, 1, fun _ _ => w⟩, []⟩ demoFilt [] st0 ∧
    (stepCfg b).steps 3 st0 = .ok st := by
  simp only [List.mem_cons, List.not_mem_nil, or_false] at hw
  have h0 : ∃ st0, (stepCfg b).init (fun _ => 0) () ⟨⟨1, 1, fun _ _ => w⟩, []⟩ demoFilt [] = .ok st0 := by
    cases b <;> exact ⟨_, by rfl⟩
  obtain ⟨st0, h0⟩ := h0
  have h1 : (((stepCfg b).init (fun _ => 0) () ⟨⟨1, 1, fun _ _ => w⟩, []⟩ demoFilt []).bind fun st0 =>
      ((stepCfg b).steps 3 st0).map fun _ => ()) = .ok () := by
    rcases hw with rfl | rfl | rfl | rfl <;> cases b <;> rfl
  rw [h0] at h1
  change ((stepCfg b).steps 3 st0).map _ = _ at h1
  cases hs : (stepCfg b).steps 3 st0 with
  | error x => rw [hs] at h1; cases h1
  | ok st => exact ⟨st0, st, ⟨step_admissible b, rfl, by decide, h0⟩, hs⟩

/-- The two runs of the scene, with the control filters `w` and `w'`, the first silent. -/
theorem step_pair (b : Bool) (w w' : List ℚ) (L : Nat) (hw : w ∈ ([[0], [-1/10], [0, 0], [0, 5]] : List (List ℚ)))
    (hw' : w' ∈ ([[0], [-1/10], [0, 0], [0, 5]] : List (List ℚ))) (hL : w.length ≤ L) (hL' : w'.length ≤ L)
    (h0 : ∀ q, w.getD q 0 = 0) :
    ∃ ρ e e' : Nat → Int → ℚ, AncPair (stepCfg b) "ref" "loudspeaker" 2 3 L ⟨1, 1, fun _ _ => w⟩ ⟨1, 1, fun _ _ => w'⟩
      ⟨"ref", 1, .mic, false⟩ ⟨"loudspeaker", 1, .ctrl, false⟩ ⟨"error", 1, .mic, false⟩
      (fun s => stepPath b s "error") ρ e e' ∧
      (∀ t : Int, 0 ≤ t → t ≤ 3 → ρ 0 t = t + 1) ∧ (∀ t : Int, t < 0 → ρ 0 t = 0) ∧ e 0 2 = 1 ∧ e 0 3 = -1 := by
  obtain ⟨st0, st, h, hk⟩ := step_started b w hw
  obtain ⟨st0', st', h', hk'⟩ := step_started b w' hw'
  have hmem : ∀ a ∈ (stepCfg b).arrays, a = ⟨"noise", 1, .free, false⟩ ∨ a = ⟨"ref", 1, .mic, false⟩ ∨
      a = ⟨"error", 1, .mic, false⟩ ∨ a = ⟨"loudspeaker", 1, .ctrl, false⟩ := by
    intro a ha
    simp only [stepCfg, ctlCfg, List.mem_cons, List.not_mem_nil, or_false] at ha
    tauto
  have hpos : ∀ a ∈ (stepCfg b).arrays, 0 < a.num := by
    intro a ha
    rcases hmem a ha with rfl | rfl | rfl | rfl <;> decide
  have hstat : ∀ a ∈ (stepCfg b).arrays, a.dynamic = false := by
    intro a ha
    rcases hmem a ha with rfl | rfl | rfl | rfl <;> rfl
  have hsh : (stepCfg b).PathShape () := by
    intro n a _ s m h hs hm hp
    cases hp
    rcases hmem m hm with rfl | rfl | rfl | rfl <;> rfl
  have hstr : ∀ a ∈ (stepCfg b).arrays, a.kind = .free →
      IsStream (stepCfg b).srcGet ((fun _ => 0 : String → Nat) a.name) a.num
        ((fun _ _ t => ((0 + t + 1 : Nat) : ℚ) : String → Nat → Nat → ℚ) a.name) := by
    intro a ha hf
    have : a = ⟨"noise", 1, .free, false⟩ := ctl_free ha hf
    subst this
    exact ctl_stream 0
  have hin : ∀ a ∈ [(⟨"noise", 1, .free, false⟩ : ArrInfo), ⟨"ref", 1, .mic, false⟩, ⟨"error", 1, .mic, false⟩,
      ⟨"loudspeaker", 1, .ctrl, false⟩], a ∈ (stepCfg b).arrays := by
    intro a ha
    simp only [stepCfg, ctlCfg, List.mem_cons, List.not_mem_nil, or_false] at ha ⊢
    tauto
  have hfree : (stepCfg b).arrays.filter (fun s => s.kind == .free) = [⟨"noise", 1, .free, false⟩] := by
    cases b <;> rfl
  obtain ⟨v, y, y0, pr, ou, mic⟩ := loop_signals h hk rfl rfl (r := ⟨"ref", 1, .mic, false⟩)
    (l := ⟨"loudspeaker", 1, .ctrl, false⟩) (hin _ (by simp)) rfl rfl (hin _ (by simp)) rfl rfl rfl rfl rfl hpos hsh hstat
    (x := fun _ _ t => ((0 + t + 1 : Nat) : ℚ)) hstr
  obtain ⟨v', y', y0', pr', ou', mic'⟩ := loop_signals h' hk' rfl rfl (r := ⟨"ref", 1, .mic, false⟩)
    (l := ⟨"loudspeaker", 1, .ctrl, false⟩) (hin _ (by simp)) rfl rfl (hin _ (by simp)) rfl rfl rfl rfl rfl hpos hsh hstat
    (x := fun _ _ t => ((0 + t + 1 : Nat) : ℚ)) hstr
  have hpl : ∀ t : Int, (stepCfg b).played (fun _ _ t => ((0 + t + 1 : Nat) : ℚ)) "noise" 0 t =
      if t < 0 then 0 else (t : ℚ) + 1 := by
    intro t
    unfold SimCfg.played
    by_cases ht : t < 0
    · rw [if_neg, if_pos ht]
      rintro ⟨-, h⟩
      have : -((1 : Nat) : Int) < t := h
      omega
    · rw [if_pos ⟨⟨_, hin ⟨"noise", 1, .free, false⟩ (by simp), rfl, rfl⟩, by show -((1 : Nat) : Int) < t; omega⟩, if_neg ht]
      show ((0 + (t + ((1 : Nat) : Int) - 1).toNat + 1 : Nat) : ℚ) = t + 1
      obtain ⟨n, rfl⟩ : ∃ n : Nat, t = n := ⟨t.toNat, by omega⟩
      rw [show ((n : Int) + ((1 : Nat) : Int) - 1).toNat = n by omega]
      push_cast
      ring
  have hv : ∀ t : Int, t ≤ 3 → v 0 t = 0 := by
    intro t ht
    rw [ou 0 (by decide) t ht]
    refine Finset.sum_eq_zero fun p _ => ?_
    rw [show (IrMat.tf ⟨1, 1, fun _ _ => w⟩ p 0 : ℚ[X]) = 0 from
      Finset.sum_eq_zero fun q _ => by rw [h0 q, monomial_zero_right], mul_zero, through_zero]
  have hmic : ∀ n, (⟨n, 1, .mic, false⟩ : ArrInfo) ∈ (stepCfg b).arrays → ∀ t : Int, t ≤ 3 → y n 0 t =
      through ((stepPath b "noise" n).tf 0 0) (fun t => if t < 0 then 0 else (t : ℚ) + 1) t := by
    intro n hn t ht
    have h1 := mic _ hn rfl (fun s => stepPath b s n) (fun _ _ _ => rfl) 0 Nat.one_pos t ht
    change y n 0 t = ((List.filter (fun s => s.kind == .free) (stepCfg b).arrays).map _).sum + _ at h1
    rw [hfree] at h1
    rw [h1, List.map_singleton, List.sum_singleton, Finset.sum_range_one, ← funext hpl]
    have : ∑ j : Fin 1, through ((stepPath b "loudspeaker" n).tf j 0) (v j) t = 0 := by
      refine Finset.sum_eq_zero fun j _ => ?_
      rw [Fin.val_eq_zero, through_congr (v := fun _ => 0) fun q hq => hv q (by omega), through_sig_zero]
    exact (congrArg _ this).trans (add_zero _)
  refine ⟨y "ref", y "error", y' "error", ⟨⟨fun _ => 0, (), demoFilt, [], [], st0, st, st0', st', fun s => stepPath b s "ref",
    fun _ _ t => ((0 + t + 1 : Nat) : ℚ), h, hk, h', hk', hsh, fun _ _ _ => rfl, fun _ _ _ => rfl, ?_, hstr,
    pr _ (hin ⟨"ref", 1, .mic, false⟩ (by simp)), pr _ (hin ⟨"error", 1, .mic, false⟩ (by simp)),
    pr' _ (hin ⟨"error", 1, .mic, false⟩ (by simp))⟩, rfl, rfl, ⟨hin _ (by simp), rfl, rfl⟩, ⟨hin _ (by simp), rfl, rfl⟩,
    ⟨hin _ (by simp), rfl⟩, ⟨rfl, rfl⟩, ⟨rfl, rfl⟩, rfl, hpos, hstat, fun _ _ => hL, fun _ _ => hL', fun c => y0 _ c⟩,
    ?_, fun t ht => y0 _ 0 t ht, ?_, ?_⟩
  · intro j _ p _ q
    show ([0] : List ℚ).getD q 0 = 0
    rcases q with _ | q <;> rfl
  · intro t h0 h3
    rw [hmic "ref" (hin _ (by simp)) t h3, through_tf]
    show (([1] : List ℚ).getD 0 0 * (if t - (0 : Nat) < 0 then 0 else ((t - (0 : Nat) : Int) : ℚ) + 1)) + 0 = _
    rw [if_neg (by omega)]
    simp
  · rw [hmic "error" (hin _ (by simp)) 2 (by decide), through_tf]
    show ((List.range 4).map fun (n : Nat) => ([0, 0, 1, -3] : List ℚ).getD n 0 * _).sum = _
    norm_num [List.range_succ]
  · rw [hmic "error" (hin _ (by simp)) 3 (by decide), through_tf]
    show ((List.range 4).map fun (n : Nat) => ([0, 0, 1, -3] : List ℚ).getD n 0 * _).sum = _
    norm_num [List.range_succ]

/-- What `xf` holds in the scene. -/
theorem step_ref (b : Bool) {ρ : Nat → Int → ℚ} (h : ∀ t : Int, 0 ≤ t → t ≤ 3 → ρ 0 t = t + 1)
    (h0 : ∀ t : Int, t < 0 → ρ 0 t = 0) :
    filteredRef (stepPath b "loudspeaker" "error") 2 ρ 0 0 0 1 = 0 ∧
    filteredRef (stepPath b "loudspeaker" "error") 2 ρ 0 0 0 2 = 1 ∧
    filteredRef (stepPath b "loudspeaker" "error") 2 ρ 0 0 0 3 = if b then 0 else 2 := by
  have e0 : ρ 0 0 = 1 := by rw [h 0 (by decide) (by decide)]; norm_num
  have e1 : ρ 0 1 = 2 := by rw [h 1 (by decide) (by decide)]; norm_num
  have f1 : ρ 0 (-1) = 0 := h0 _ (by decide)
  have f2 : ρ 0 (-2) = 0 := h0 _ (by decide)
  cases b <;> simp [filteredRef, stepPath, Finset.sum_range_succ, e0, e1, f1, f2]

/-- The buffers of the scene from the third sample on. -/
theorem step_buf (b : Bool) {ρ e : Nat → Int → ℚ} (h : ∀ t : Int, 0 ≤ t → t ≤ 3 → ρ 0 t = t + 1)
    (h0 : ∀ t : Int, t < 0 → ρ 0 t = 0) (e2 : e 0 2 = 1) (e3 : e 0 3 = -1) :
    FxBuf (fun _ _ _ => [1, if b then 0 else 2]) (fun _ => [1, -1])
      (filteredRef (stepPath b "loudspeaker" "error") 2 ρ) e (-2) 2 1 1 1 := by
  obtain ⟨-, s2, s3⟩ := step_ref b h h0
  refine ⟨fun _ _ _ _ _ _ => rfl, fun _ _ => rfl, ?_, ?_⟩
  · intro r hr l hl m hm i hi
    obtain rfl : r = 0 := by omega
    obtain rfl : l = 0 := by omega
    obtain rfl : m = 0 := by omega
    obtain rfl | rfl : i = 0 ∨ i = 1 := by omega
    · exact (congrArg some s2).symm
    · exact (congrArg some s3).symm
  · intro m hm i hi
    obtain rfl : m = 0 := by omega
    obtain rfl | rfl : i = 0 ∨ i = 1 := by omega
    · exact (congrArg some e2).symm
    · exact (congrArg some e3).symm

theorem step_grad_sample : fxGrad .sample (1 : ℚ) 1 1 1 1 (fun _ _ _ => [1, 2]) (fun _ => [1, -1]) 0 2 0 0 = .ok [1/10] := by
  norm_num [fxGrad, fxLoop, fxContribution, fxTerm, fxWindow, sumSq, broadcastRow, pySlice, pyClamp, List.range_succ,
    show Int.toNat 2 = 2 from rfl, List.replicate, show ¬ FxNorm.sample = .block by decide,
    show ¬ FxNorm.block = .sample by decide, show ¬ FxNorm.none = .block by decide, show ¬ FxNorm.none = .sample by decide]

theorem step_grad_block : fxGrad .block (1/10 : ℚ) 1 1 1 2 (fun _ _ _ => [1, 0]) (fun _ => [1, -1]) 1 2 0 0 =
    .ok [0, -10] := by
  norm_num [fxGrad, fxLoop, fxContribution, fxTerm, fxWindow, sumSq, broadcastRow, pySlice, pyClamp, List.range_succ,
    show Int.toNat 2 = 2 from rfl, List.replicate, show ¬ FxNorm.sample = .block by decide,
    show ¬ FxNorm.block = .sample by decide, show ¬ FxNorm.none = .block by decide, show ¬ FxNorm.none = .sample by decide]

theorem step_grad_none : fxGrad .none (1 : ℚ) 1 1 1 1 (fun _ _ _ => [1, 2]) (fun _ => [1, -1]) 0 2 0 0 = .ok [-1] := by
  norm_num [fxGrad, fxLoop, fxContribution, fxTerm, fxWindow, sumSq, broadcastRow, pySlice, pyClamp, List.range_succ,
    show Int.toNat 2 = 2 from rfl, List.replicate, show ¬ FxNorm.sample = .block by decide,
    show ¬ FxNorm.block = .sample by decide, show ¬ FxNorm.none = .block by decide, show ¬ FxNorm.none = .sample by decide]

theorem step_grad_one : fxGrad .sample (1 : ℚ) 1 1 1 1 (fun _ _ _ => [1, 2]) (fun _ => [1, -1]) 0 1 0 0 = .ok [1/2] := by
  norm_num [fxGrad, fxLoop, fxContribution, fxTerm, fxWindow, sumSq, broadcastRow, pySlice, pyClamp, List.range_succ,
    show Int.toNat 2 = 2 from rfl, List.replicate, show ¬ FxNorm.sample = .block by decide,
    show ¬ FxNorm.block = .sample by decide, show ¬ FxNorm.none = .block by decide, show ¬ FxNorm.none = .sample by decide]

theorem step_grad_one' : fxGrad .none (1 : ℚ) 1 1 1 1 (fun _ _ _ => [1, 2]) (fun _ => [1, -1]) 0 1 0 0 = .ok [1] := by
  norm_num [fxGrad, fxLoop, fxContribution, fxTerm, fxWindow, sumSq, broadcastRow, pySlice, pyClamp, List.range_succ,
    show Int.toNat 2 = 2 from rfl, List.replicate, show ¬ FxNorm.sample = .block by decide,
    show ¬ FxNorm.block = .sample by decide, show ¬ FxNorm.none = .block by decide, show ¬ FxNorm.none = .sample by decide]

/-- C135 fails for updates of more than one sample: the normalisation `"sample"` weighs
the samples of the block differently, the step is not along the gradient and may
lead uphill.  Two samples, step size one. -/
theorem C135_violated : ∃ (W W' : IrMat ℚ) (g : List ℚ) (ρ e e' : Nat → Int → ℚ) (P : String → IrMat ℚ)
    (xf : Nat → Nat → Nat → List ℚ) (err : Nat → List ℚ),
    AncPair (stepCfg false) "ref" "loudspeaker" 2 3 1 W W' ⟨"ref", 1, .mic, false⟩ ⟨"loudspeaker", 1, .ctrl, false⟩
      ⟨"error", 1, .mic, false⟩ P ρ e e' ∧
    FxBuf xf err (filteredRef (P "loudspeaker") 2 ρ) e (-2) 2 1 1 1 ∧
    fxGrad .sample 1 1 1 1 1 xf err 0 2 0 0 = .ok g ∧ W'.ir 0 0 = fxUpdate 1 (W.ir 0 0) g ∧
    energyOf e (-2) 1 0 2 < energyOf e' (-2) 1 0 2 := by
  obtain ⟨ρ, e, e', H, h, h0, e2, e3⟩ := step_pair false [0] [-1/10] 1 (by simp) (by simp) (by simp) (by simp)
    (fun q => by rcases q with _ | q <;> rfl)
  have hb := step_buf false h h0 e2 e3
  obtain ⟨s1, s2, s3⟩ := step_ref false h h0
  have hch := loop_change H
  have c2 := hch 0 Nat.one_pos 2 (by decide)
  have c3 := hch 0 Nat.one_pos 3 (by decide)
  simp [e2, s2] at c2
  simp [e3, s3] at c3
  refine ⟨_, _, [1/10], ρ, e, e', _, _, _, H, hb, ?_, ?_, ?_⟩
  · exact step_grad_sample
  · norm_num [fxUpdate]
  · have n0 : ((0 : Nat) : Int) - -2 = 2 := rfl
    have n1 : ((1 : Nat) : Int) - -2 = 3 := rfl
    unfold energyOf
    rw [Finset.sum_range_one, Finset.sum_range_one, ← Finset.range_eq_Ico, Finset.sum_range_succ, Finset.sum_range_one,
      Finset.sum_range_succ, Finset.sum_range_one, n0, n1, e2, e3, c2, c3]
    norm_num

/-- C135 fails for the normalisation `"block"` even for updates of one sample: it divides
by the energy of the block alone, while the taps look back before it. -/
theorem C135_violated_block : ∃ (W W' : IrMat ℚ) (g : List ℚ) (ρ e e' : Nat → Int → ℚ) (P : String → IrMat ℚ)
    (xf : Nat → Nat → Nat → List ℚ) (err : Nat → List ℚ),
    AncPair (stepCfg true) "ref" "loudspeaker" 2 3 2 W W' ⟨"ref", 1, .mic, false⟩ ⟨"loudspeaker", 1, .ctrl, false⟩
      ⟨"error", 1, .mic, false⟩ P ρ e e' ∧
    FxBuf xf err (filteredRef (P "loudspeaker") 2 ρ) e (-2) 2 1 1 1 ∧
    fxGrad .block (1/10) 1 1 1 2 xf err 1 2 0 0 = .ok g ∧ W'.ir 0 0 = fxUpdate (1/2) (W.ir 0 0) g ∧
    energyOf e (-2) 1 1 2 < energyOf e' (-2) 1 1 2 := by
  obtain ⟨ρ, e, e', H, h, h0, e2, e3⟩ := step_pair true [0, 0] [0, 5] 2 (by simp) (by simp) (by simp) (by simp)
    (fun q => by rcases q with _ | _ | q <;> rfl)
  have hb := step_buf true h h0 e2 e3
  obtain ⟨s1, s2, s3⟩ := step_ref true h h0
  have c3 := loop_change H 0 Nat.one_pos 3 (by decide)
  simp [e3, s2, Finset.sum_range_succ] at c3
  refine ⟨_, _, [0, -10], ρ, e, e', _, _, _, H, hb, ?_, ?_, ?_⟩
  · exact step_grad_block
  · norm_num [fxUpdate]
  · have n1 : ((1 : Nat) : Int) - -2 = 3 := rfl
    unfold energyOf
    rw [Finset.sum_range_one, Finset.sum_range_one, Nat.Ico_succ_singleton, Finset.sum_singleton, Finset.sum_singleton, n1,
      e3, c3]
    norm_num

/-- A case for C134: the scene above. -/
example : ∃ ρ e e' : Nat → Int → ℚ, AncPair (stepCfg false) "ref" "loudspeaker" 2 3 1 ⟨1, 1, fun _ _ => [0]⟩
      ⟨1, 1, fun _ _ => [-1/10]⟩ ⟨"ref", 1, .mic, false⟩ ⟨"loudspeaker", 1, .ctrl, false⟩ ⟨"error", 1, .mic, false⟩
      (fun s => stepPath false s "error") ρ e e' ∧
    FxBuf (fun _ _ _ => [1, 2]) (fun _ => [1, -1]) (filteredRef (stepPath false "loudspeaker" "error") 2 ρ) e (-2) 2 1 1 1 ∧
    fxGrad (.none : FxNorm) (1 : ℚ) 1 1 1 1 (fun _ _ _ => [1, 2]) (fun _ => [1, -1]) 0 2 0 0 = .ok [-1] ∧
    energyOf e' (-2) 1 0 2 = 2 + 2 * (-1 * (-1/10)) + (1/100 + 4/100) := by
  obtain ⟨ρ, e, e', H, h, h0, e2, e3⟩ := step_pair false [0] [-1/10] 1 (by simp) (by simp) (by simp) (by simp)
    (fun q => by rcases q with _ | q <;> rfl)
  have hb := step_buf false h h0 e2 e3
  obtain ⟨s1, s2, s3⟩ := step_ref false h h0
  refine ⟨ρ, e, e', H, hb, step_grad_none, ?_⟩
  obtain ⟨g, hg, hE⟩ := C134_gradient H hb (start := 0) (stop := 2) (by decide) (by decide) (by decide) (by decide)
    (by decide) 1
  have hg0 : g 0 0 = [-1] := Except.ok.inj ((hg 0 Nat.one_pos 0 Nat.one_pos).symm.trans step_grad_none)
  have n0 : ((0 : Nat) : Int) - -2 = 2 := rfl
  have n1 : ((1 : Nat) : Int) - -2 = 3 := rfl
  change energyOf e' (-2) 1 0 2 = _ at hE
  rw [hE]
  unfold energyOf
  simp only [Finset.sum_range_one, ← Finset.range_eq_Ico, Finset.sum_range_succ, n0, n1, hg0, e2, e3]
  simp [s2, s3]
  norm_num

/-- Cases for C135: one sample, normalised and not. -/
example : ∃ ρ e e' : Nat → Int → ℚ, energyOf e' (-2) 1 0 1 ≤ energyOf e (-2) 1 0 1 ∧ e 0 2 = 1 ∧ e' 0 2 = 9/10 := by
  obtain ⟨ρ, e, e', H, h, h0, e2, e3⟩ := step_pair false [0] [-1/10] 1 (by simp) (by simp) (by simp) (by simp)
    (fun q => by rcases q with _ | q <;> rfl)
  have hb := step_buf false h h0 e2 e3
  obtain ⟨s1, s2, s3⟩ := step_ref false h h0
  refine ⟨ρ, e, e', C135_sample_partial H hb (start := 0) (β := 1) (μ := 1/5) (by decide) (by decide) (by decide)
    (by decide) (by norm_num) (by norm_num) (by norm_num) (fun _ _ _ _ => rfl) ?_, e2, ?_⟩
  · intro p hp j hj
    obtain rfl : p = 0 := by change p < 1 at hp; omega
    obtain rfl : j = 0 := by change j < 1 at hj; omega
    exact ⟨[1/2], step_grad_one, by norm_num [fxUpdate]⟩
  · have c2 := loop_change H 0 Nat.one_pos 2 (by decide)
    simp [e2, s2] at c2
    rw [c2]
    norm_num

example : ∃ ρ e e' : Nat → Int → ℚ, energyOf e' (-2) 1 0 1 ≤ energyOf e (-2) 1 0 1 ∧ e 0 2 = 1 ∧
    AncPair (stepCfg false) "ref" "loudspeaker" 2 3 1 ⟨1, 1, fun _ _ => [0]⟩
      ⟨1, 1, fun _ _ => [-1/10]⟩ ⟨"ref", 1, .mic, false⟩ ⟨"loudspeaker", 1, .ctrl, false⟩ ⟨"error", 1, .mic, false⟩
      (fun s => stepPath false s "error") ρ e e' := by
  obtain ⟨ρ, e, e', H, h, h0, e2, e3⟩ := step_pair false [0] [-1/10] 1 (by simp) (by simp) (by simp) (by simp)
    (fun q => by rcases q with _ | q <;> rfl)
  have hb := step_buf false h h0 e2 e3
  obtain ⟨s1, s2, s3⟩ := step_ref false h h0
  refine ⟨ρ, e, e', C135_plain H hb (start := 0) (stop := 1) (β := 1) (μ := 1/10) (by decide) (by decide) (by decide)
    (by decide) (by decide) (by norm_num) ?_ (fun _ _ _ _ => rfl) ?_, e2, H⟩
  · simp [energyOf, s2]
    norm_num
  · intro p hp j hj
    obtain rfl : p = 0 := by change p < 1 at hp; omega
    obtain rfl : j = 0 := by change j < 1 at hj; omega
    exact ⟨[1], step_grad_one', by norm_num [fxUpdate]⟩

end
end Verif

/-
What the update of `FxLMS` computes inside the buffer.
-/
import Mathlib.Tactic.Ring
import Verif.Model.Fxlms
import Verif.Lemmas.Tape
import Verif.Lemmas.Transfer
import Verif.Spec.Fxlms
namespace Verif

section
variable {R : Type} [Field R]

theorem pySlice_window {row : List R} {x : Int → R} {o : Int} (h : ∀ i < row.length, row[i]? = some (x ((i : Int) - o)))
    {a n : Nat} (hn : a + n ≤ row.length) {i j : Int} (hi : i = a) (hj : j = ((a + n : Nat) : Int)) :
    pySlice row i j = (List.range n).map fun (q : Nat) => x (((a + q : Nat) : Int) - o) := by
  have hrow : row = (List.range row.length).map fun (i : Nat) => x ((i : Int) - o) := by
    apply List.ext_getElem?
    intro i
    rw [List.getElem?_map]
    by_cases hi : i < row.length
    · rw [h i hi, List.getElem?_range hi]; rfl
    · rw [List.getElem?_eq_none (by omega), List.getElem?_eq_none (by simp; omega)]; rfl
  subst hi hj
  generalize row.length = L at *
  subst hrow
  exact pySlice_range _ L a n hn

theorem fxWindow_eq {row : List R} {x : Int → R} {o : Int} (h : ∀ i < row.length, row[i]? = some (x ((i : Int) - o)))
    {L n : Nat} (hL : L ≤ n + 1) (hn : n < row.length) :
    fxWindow L row n = (List.range L).map fun (k : Nat) => x ((n : Int) - k - o) := by
  unfold fxWindow
  rw [pySlice_window h (a := n + 1 - L) (n := L) (by omega) (by omega) (by omega)]
  apply List.ext_getElem
  · simp
  · intro k h1 h2
    simp only [List.length_map, List.length_range] at h2
    rw [List.getElem_reverse, List.getElem_map, List.getElem_map, List.getElem_range, List.getElem_range, List.length_map,
      List.length_range]
    congr 1
    omega

theorem errSlice_eq {row : List R} {x : Int → R} {o : Int} (h : ∀ i < row.length, row[i]? = some (x ((i : Int) - o)))
    {n : Nat} (hn : n < row.length) : pySlice row n ((n : Int) + 1) = [x ((n : Int) - o)] := by
  rw [pySlice_window h (a := n) (n := 1) (by omega) rfl (by push_cast; ring)]
  simp

/-- The weight of a sample in the gradient. -/
def fxWeight (norm : FxNorm) (β : R) (nr nl ne L : Nat) (x : Nat → Nat → Nat → Int → R) (t : Int) : R :=
  if norm = .sample then 1 / ((∑ r ∈ Finset.range nr, ∑ l ∈ Finset.range nl, ∑ m ∈ Finset.range ne,
    ∑ k ∈ Finset.range L, x r l m (t - k) * x r l m (t - k)) + β) else 1

variable {xf : Nat → Nat → Nat → List R} {err : Nat → List R} {x : Nat → Nat → Nat → Int → R} {e : Nat → Int → R}
  {o : Int} {len nr nl ne L : Nat}

theorem fxTerm_eq (hb : FxBuf xf err x e o len nr nl ne) {r l n : Nat} (hr : r < nr) (hl : l < nl) (hne : 0 < ne)
    (hL : L ≤ n + 1) (hn : n < len) :
    fxTerm L ne (xf r l) err n = .ok ((List.range L).map fun (k : Nat) => ∑ m ∈ Finset.range ne,
      x r l m ((n : Int) - o - k) * e m ((n : Int) - o)) := by
  have hw : ∀ m < ne, fxWindow L (xf r l m) n = (List.range L).map fun (k : Nat) => x r l m ((n : Int) - k - o) := by
    intro m hm
    exact fxWindow_eq (fun i hi => hb.xfVal r hr l hl m hm i (by rwa [hb.xfLen r hr l hl m hm] at hi)) hL
      (by rw [hb.xfLen r hr l hl m hm]; exact hn)
  have he : ∀ m < ne, pySlice (err m) n ((n : Int) + 1) = [e m ((n : Int) - o)] := by
    intro m hm
    exact errSlice_eq (fun i hi => hb.errVal m hm i (by rwa [hb.errLen m hm] at hi)) (by rw [hb.errLen m hm]; exact hn)
  unfold fxTerm
  rw [if_pos (by intro m hm; rw [List.mem_range] at hm; rw [he m hm]; rfl)]
  rw [hw 0 hne, List.length_map, List.length_range]
  congr 1
  refine List.map_congr_left fun k hk => ?_
  rw [List.mem_range] at hk
  rw [list_sum_range]
  refine Finset.sum_congr rfl fun m hm => ?_
  rw [Finset.mem_range] at hm
  rw [hw m hm, he m hm, List.getD_eq_getElem?_getD, List.getElem?_map, List.getElem?_range hk]
  simp only [Option.map_some, Option.getD_some, List.getD_cons_zero]
  congr 2
  ring

theorem fxContribution_eq (hb : FxBuf xf err x e o len nr nl ne) (norm : FxNorm) (β : R) {r l n : Nat} (hr : r < nr)
    (hl : l < nl) (hne : 0 < ne) (hL : L ≤ n + 1) (hn : n < len) :
    fxContribution norm β nr nl ne L xf err n r l = .ok ((List.range L).map fun (k : Nat) =>
      (∑ m ∈ Finset.range ne, x r l m ((n : Int) - o - k) * e m ((n : Int) - o)) *
        fxWeight norm β nr nl ne L x ((n : Int) - o)) := by
  unfold fxContribution fxWeight
  rw [fxTerm_eq hb hr hl hne hL hn]
  by_cases hs : norm = .sample
  · simp only [if_pos hs]
    congr 1
    rw [List.map_map]
    refine List.map_congr_left fun k _ => ?_
    simp only [Function.comp]
    congr 3
    rw [list_sum_range]
    refine Finset.sum_congr rfl fun r hr => ?_
    rw [list_sum_range]
    refine Finset.sum_congr rfl fun l hl => ?_
    rw [list_sum_range]
    refine Finset.sum_congr rfl fun m hm => ?_
    rw [Finset.mem_range] at hr hl hm
    rw [fxWindow_eq (fun i hi => hb.xfVal r hr l hl m hm i (by rwa [hb.xfLen r hr l hl m hm] at hi)) hL
      (by rw [hb.xfLen r hr l hl m hm]; exact hn)]
    unfold sumSq
    rw [List.map_map, list_sum_range]
    refine Finset.sum_congr rfl fun k _ => ?_
    simp only [Function.comp]
    rw [show (n : Int) - k - o = (n : Int) - o - k by ring]
  · simp only [if_neg hs, mul_one]

theorem fxLoop_eq (hb : FxBuf xf err x e o len nr nl ne) (norm : FxNorm) (β : R) {r l : Nat} (hr : r < nr)
    (hl : l < nl) (hne : 0 < ne) : ∀ (d : Nat) (start : Nat) (g : Nat → R), L ≤ start + 1 → start + d ≤ len →
    fxLoop norm β nr nl ne L xf err r l ((List.range d).map fun i => ((start + i : Nat) : Int)) ((List.range L).map g) =
      .ok ((List.range L).map fun (k : Nat) => g k + ∑ n ∈ Finset.Ico start (start + d),
        (∑ m ∈ Finset.range ne, x r l m ((n : Int) - o - k) * e m ((n : Int) - o)) *
          fxWeight norm β nr nl ne L x ((n : Int) - o))
  | 0, start, g, _, _ => by simp [fxLoop]
  | d + 1, start, g, hL, hd => by
    rw [List.range_succ_eq_map, List.map_cons, List.map_map, fxLoop]
    have h0 : ((start + 0 : Nat) : Int) = (start : Int) := by simp
    rw [h0, fxContribution_eq hb norm β hr hl hne hL (by omega)]
    simp only [List.length_map, List.length_range, broadcastRow, if_true]
    have hz : List.zipWith (· + ·) ((List.range L).map g) ((List.range L).map fun (k : Nat) =>
        (∑ m ∈ Finset.range ne, x r l m ((start : Int) - o - k) * e m ((start : Int) - o)) *
          fxWeight norm β nr nl ne L x ((start : Int) - o)) = (List.range L).map fun (k : Nat) => g k +
        (∑ m ∈ Finset.range ne, x r l m ((start : Int) - o - k) * e m ((start : Int) - o)) *
          fxWeight norm β nr nl ne L x ((start : Int) - o) := by
      rw [List.zipWith_map, List.zipWith_self]
    rw [hz]
    have hm : ((List.range d).map ((fun i => ((start + i : Nat) : Int)) ∘ Nat.succ)) =
        (List.range d).map fun i => ((start + 1 + i : Nat) : Int) := by
      refine List.map_congr_left fun i _ => ?_
      simp only [Function.comp]
      omega
    rw [hm, fxLoop_eq hb norm β hr hl hne d (start + 1) _ (by omega) (by omega)]
    congr 1
    refine List.map_congr_left fun k _ => ?_
    rw [add_assoc, Finset.sum_eq_sum_Ico_succ_bot (by omega : start < start + (d + 1)),
      show start + 1 + d = start + (d + 1) by omega]

/-- The gradient without block normalisation. -/
theorem fxGrad_eq (hb : FxBuf xf err x e o len nr nl ne) {norm : FxNorm} (hnorm : norm ≠ .block) (β : R) {r l : Nat}
    (hr : r < nr) (hl : l < nl) (hne : 0 < ne) {start stop : Nat} (hL : L ≤ start + 1) (hs : start ≤ stop)
    (hd : stop ≤ len) :
    fxGrad norm β nr nl ne L xf err start stop r l = .ok ((List.range L).map fun (k : Nat) =>
      ∑ n ∈ Finset.Ico start stop,
        (∑ m ∈ Finset.range ne, x r l m ((n : Int) - o - k) * e m ((n : Int) - o)) *
          fxWeight norm β nr nl ne L x ((n : Int) - o)) := by
  unfold fxGrad
  have h0 : List.replicate L (0 : R) = (List.range L).map fun _ => 0 := by simp
  rw [h0, fxLoop_eq hb norm β hr hl hne (stop - start) start _ hL (by omega)]
  simp only [if_neg hnorm, zero_add, Nat.add_sub_cancel' hs]

end
end Verif

/-
Properties C81 and C82 of the sorting of sound field images.
-/
import Verif.Lemmas.Imshow
import Verif.Lemmas.Session
namespace Verif

section
variable {F : Type} [Field F] [LinearOrder F] [IsStrictOrderedRing F] [FloorRing F]

theorem sortIndices_ok {p : Nat} {pos : List (Pt F)} {num : Nat} : ∀ (ys : List F),
    (∀ y ∈ ys, (rowIndices p pos y).length = num) →
    sortIndices p pos num ys = .ok (ys.map (rowIndices p pos))
  | [], _ => rfl
  | y :: ys, h => by
    unfold sortIndices assignRow
    rw [if_pos (h y (by simp)), sortIndices_ok ys fun x hx => h x (by simp [hx])]
    rfl

/-- **C81** For positions on a rectangular grid (columns `X`, rows `Y`, at least two units
of the last decimal apart), given in any order, `sort_for_imshow` returns the
positions row by row with increasing coordinates, and an image with one pixel for each
grid point whose rows are ordered from the top (largest second coordinate) to the bottom
and whose columns from left to right: each pixel shows the signal of its position. -/
theorem C81_image {V : Type} (p : Nat) (X Y : List F) (z : Option F) (hX : Apart p X) (hY : Apart p Y)
    (hX0 : X ≠ []) (hY0 : Y ≠ []) (pos : List (Pt F)) (hpos : pos.Perm (gridPoints X Y z)) (sig : List V)
    (hsig : sig.length = pos.length) :
    ∃ ps ss, sortForImshow p pos sig = .ok (ps, ss) ∧
      ps = (Y.map fun y => X.map fun x => ⟨x, y, z⟩) ∧
      ss.length = Y.length ∧ (∀ r ∈ ss, r.length = X.length) ∧
      ∀ (i j k : Nat) (x y : F), Y[i]? = some y → X[j]? = some x → pos[k]? = some ⟨x, y, z⟩ →
        ∃ r, ss[Y.length - 1 - i]? = some r ∧ r[j]? = sig[k]? := by
  have hplane : samePlane pos = true := by
    unfold samePlane
    match pos, hpos with
    | [], _ => rfl
    | q :: qs, hpos =>
      dsimp only
      have hz : ∀ r ∈ q :: qs, r.z = z := fun r hr => (mem_gridPoints.1 (hpos.subset hr)).2.2
      rw [hz q (by simp)]
      cases z with
      | none => rfl
      | some z0 =>
        dsimp only
        rw [List.all_eq_true]
        intro r hr
        rw [hz r hr]
        exact isClose_refl _
  have hux : npUnique (pos.map fun q => roundDec p q.x) = X.map (roundDec p) := by
    refine npUnique_eq (apart_round hX) fun v => ?_
    rw [List.mem_map, List.mem_map]
    constructor
    · rintro ⟨x, hx, rfl⟩
      obtain ⟨y, hy⟩ := List.exists_mem_of_ne_nil Y hY0
      exact ⟨⟨x, y, z⟩, hpos.symm.subset (mem_gridPoints.2 ⟨hx, hy, rfl⟩), rfl⟩
    · rintro ⟨q, hq, rfl⟩
      exact ⟨q.x, (mem_gridPoints.1 (hpos.subset hq)).1, rfl⟩
  have huy : npUnique (pos.map fun q => roundDec p q.y) = Y.map (roundDec p) := by
    refine npUnique_eq (apart_round hY) fun v => ?_
    rw [List.mem_map, List.mem_map]
    constructor
    · rintro ⟨y, hy, rfl⟩
      obtain ⟨x, hx⟩ := List.exists_mem_of_ne_nil X hX0
      exact ⟨⟨x, y, z⟩, hpos.symm.subset (mem_gridPoints.2 ⟨hx, hy, rfl⟩), rfl⟩
    · rintro ⟨q, hq, rfl⟩
      exact ⟨q.y, (mem_gridPoints.1 (hpos.subset hq)).2.1, rfl⟩
  have hrow : ∀ y ∈ Y, (rowIndices p pos (roundDec p y)).map (fun k => (pos[k]?).getD ⟨0, 0, none⟩) =
      X.map fun x => ⟨x, y, z⟩ := fun y hy => rowIndices_points hX hY hpos hy
  have hlen : ∀ y ∈ Y, (rowIndices p pos (roundDec p y)).length = X.length := by
    intro y hy
    have := congrArg List.length (hrow y hy)
    simpa using this
  obtain ⟨idx, hidx⟩ : ∃ idx, idx = (Y.map (roundDec p)).map (rowIndices p pos) := ⟨_, rfl⟩
  have hlt : ∀ r ∈ idx, ∀ k ∈ r, k < pos.length := by
    intro r hr k hk
    rw [hidx, List.map_map] at hr
    obtain ⟨y, _, rfl⟩ := List.mem_map.1 hr
    exact rowIndices_lt k hk
  have hsort : sortIndices p pos X.length (Y.map (roundDec p)) = .ok idx := by
    rw [hidx]
    refine sortIndices_ok _ fun v hv => ?_
    obtain ⟨y, hy, rfl⟩ := List.mem_map.1 hv
    exact hlen y hy
  obtain ⟨ps, hps, hps2⟩ := gatherRows_ok pos idx hlt
  obtain ⟨ss, hss, hss2⟩ := gatherRows_ok sig idx (by rw [hsig]; exact hlt)
  have hsslen : ss.length = Y.length := by
    have := congrArg List.length hss2
    simpa [hidx] using this
  refine ⟨ps, ss.reverse, ?_, ?_, by rw [List.length_reverse, hsslen], ?_, ?_⟩
  · unfold sortForImshow
    rw [hplane]
    dsimp only
    rw [hux, huy, List.length_map, hsort]
    dsimp only
    rw [hps]
    dsimp only
    rw [hss]
    rfl
  · have hinj : Function.Injective (fun l : List (Pt F) => l.map some) :=
      List.map_injective_iff.2 (Option.some_injective _)
    apply List.map_injective_iff.2 hinj
    rw [hps2, hidx, List.map_map, List.map_map, List.map_map]
    apply List.map_congr_left
    intro y hy
    simp only [Function.comp]
    rw [← hrow y hy, List.map_map]
    apply List.map_congr_left
    intro k hk
    have := rowIndices_lt k hk
    simp [this]
  · intro r hr
    rw [List.mem_reverse] at hr
    have hr' : r.map some ∈ ss.map (·.map some) := List.mem_map.2 ⟨r, hr, rfl⟩
    rw [hss2, hidx, List.map_map, List.map_map] at hr'
    obtain ⟨y, hy, he⟩ := List.mem_map.1 hr'
    have := congrArg List.length he
    simp only [Function.comp, List.length_map] at this
    rw [← this]; exact hlen y hy
  · intro i j k x y hi hj hk
    have hi' := (List.getElem?_eq_some_iff.1 hi).1
    have hym : y ∈ Y := List.mem_of_getElem? hi
    have h1 : (ss.map (·.map some))[i]? = some ((rowIndices p pos (roundDec p y)).map fun k => sig[k]?) := by
      rw [hss2, hidx, List.map_map, List.map_map, List.getElem?_map, hi]; rfl
    rw [List.getElem?_map] at h1
    obtain ⟨r, hr, hr2⟩ := Option.map_eq_some_iff.1 h1
    refine ⟨r, ?_, ?_⟩
    · rw [List.getElem?_reverse (by rw [hsslen]; omega), hsslen,
        show Y.length - 1 - (Y.length - 1 - i) = i by omega, hr]
    · have hjl : j < (rowIndices p pos (roundDec p y)).length := by
        rw [hlen y hym]; exact (List.getElem?_eq_some_iff.1 hj).1
      have h2 := congrArg (·[j]?) (hrow y hym)
      simp only [List.getElem?_map, hj, Option.map_some] at h2
      obtain ⟨k', hk', hk2⟩ := Option.map_eq_some_iff.1 h2
      have hk'lt := rowIndices_lt k' (List.mem_of_getElem? hk')
      have hk'e : pos[k']? = some ⟨x, y, z⟩ := by
        rw [List.getElem?_eq_getElem hk'lt] at hk2 ⊢
        rw [← hk2]; rfl
      have hnd : pos.Nodup := hpos.symm.nodup (gridPoints_nodup hX.nodup hY.nodup)
      have hkk : k' = k := (List.getElem?_inj hk'lt hnd).1 (hk'e.trans hk.symm)
      have h3 := congrArg (·[j]?) hr2
      simp only [List.getElem?_map, hk', Option.map_some, hkk] at h3
      cases hrj : r[j]? with
      | none => rw [hrj] at h3; simp at h3
      | some v => rw [hrj] at h3; simp at h3; exact h3

end

/-- **C82** The returned positions and the returned signals are not in the same order: for
two points above each other, the row of the lower position holds the signal of the
upper position. -/
theorem C82_violated : ∃ ps ss, sortForImshow (F := Rat) 5 [⟨0, 0, none⟩, ⟨0, 1, none⟩] [10, 20] = .ok (ps, ss) ∧
    ps = [[⟨0, 0, none⟩], [⟨0, 1, none⟩]] ∧ ss = [[20], [10]] := by
  have hY : Apart (F := Rat) 5 [0, 1] := by unfold Apart; simp; norm_num
  have hX : Apart (F := Rat) 5 [0] := by unfold Apart; simp
  obtain ⟨ps, ss, h, hps, hl, hr, hall⟩ := C81_image (V := Nat) 5 [0] [0, 1] none hX hY (by simp) (by simp)
    [⟨0, 0, none⟩, ⟨0, 1, none⟩] (List.Perm.refl _) [10, 20] rfl
  refine ⟨ps, ss, h, hps, ?_⟩
  obtain ⟨r0, h0, h0'⟩ := hall 0 0 0 0 0 rfl rfl rfl
  obtain ⟨r1, h1, h1'⟩ := hall 1 0 1 0 1 rfl rfl rfl
  match ss, hl with
  | [a, b], _ =>
    simp only [List.length_cons, List.length_nil] at h0 h1
    simp at h0 h1
    subst h0; subst h1
    have ha := hr a (by simp)
    have hb := hr b (by simp)
    match a, ha, b, hb with
    | [u], _, [v], _ => simp at h0' h1'; rw [h0', h1']

/-- **C82** What holds instead: row `i` of the positions belongs to row `i` of the signals
counted from the end. -/
theorem C82_flipped_partial {F : Type} [Field F] [LinearOrder F] [IsStrictOrderedRing F] [FloorRing F] {V : Type}
    (p : Nat) (X Y : List F) (z : Option F) (hX : Apart p X) (hY : Apart p Y)
    (hX0 : X ≠ []) (hY0 : Y ≠ []) (pos : List (Pt F)) (hpos : pos.Perm (gridPoints X Y z)) (sig : List V)
    (hsig : sig.length = pos.length) (ps : List (List (Pt F))) (ss : List (List V))
    (h : sortForImshow p pos sig = .ok (ps, ss)) (i j k : Nat) (pr : List (Pt F)) (q : Pt F)
    (hi : ps[i]? = some pr) (hj : pr[j]? = some q) (hk : pos[k]? = some q) :
    ∃ r, ss.reverse[i]? = some r ∧ r[j]? = sig[k]? := by
  obtain ⟨ps', ss', h', hps, hlen, -, hall⟩ := C81_image p X Y z hX hY hX0 hY0 pos hpos sig hsig
  rw [h] at h'
  have he := Except.ok.inj h'
  injection he with he1 he2
  subst he1; subst he2
  rw [hps, List.getElem?_map] at hi
  obtain ⟨y, hy, rfl⟩ := Option.map_eq_some_iff.1 hi
  rw [List.getElem?_map] at hj
  obtain ⟨x, hx, rfl⟩ := Option.map_eq_some_iff.1 hj
  obtain ⟨r, hr, hr2⟩ := hall i j k x y hy hx hk
  have hil := (List.getElem?_eq_some_iff.1 hy).1
  refine ⟨r, ?_, hr2⟩
  rw [List.getElem?_reverse (by omega), hlen]
  exact hr

/-- A concrete case of the hypotheses of C81: a 2 × 2 grid in a scrambled order. -/
example : Apart (F := Rat) 5 [0, 1] ∧
    ([⟨1, 1, some 2⟩, ⟨0, 0, some 2⟩, ⟨0, 1, some 2⟩, ⟨1, 0, some 2⟩] : List (Pt Rat)).Perm
      (gridPoints [0, 1] [0, 1] (some 2)) := by
  refine ⟨?_, by decide +kernel⟩
  unfold Apart
  simp
  norm_num

end Verif

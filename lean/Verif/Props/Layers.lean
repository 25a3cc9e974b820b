/-
Property C67 of the layered point generators.
-/
import Verif.Lemmas.Layers
import Verif.Props.Rectangle
namespace Verif

/-- The layers of `concentrical_circles` with their start angles. -/
theorem circles_layers (n k : Nat) (hk : 0 < k) (hn : k ≤ n) (radius : Radius) (hr : radius.pair.1 ≤ radius.pair.2)
    (dist : Option ℝ) (off : AngleOffset) (ho : off ≠ .other) (u : Nat → Nat → ℝ)
    (hu : ∀ i j, 0 ≤ u i j ∧ u i j < 1) :
    ∃ (ls : List (List (Pt ℝ))) (angles : List ℝ), concentricalCircles n k radius dist off u = .ok ls.flatten ∧
      startAngles k ((layerSizes n k).headD 0) off = .ok angles ∧
      ls.length = k ∧ ls.flatten.length = n ∧ (∃ q, ∀ c ∈ ls, c.length = q ∨ c.length = q + 1) ∧
      ls.map List.length = layerSizes n k ∧ ∀ (i : Nat) (c : List (Pt ℝ)), ls[i]? = some c →
        (∀ p ∈ c, p.z = dist.map fun d => ((i : ℝ) - ((k : ℝ) - 1) / 2) * d) ∧
        ∃ start : ℝ, angles[i]? = some start ∧ ∀ (j : Nat) (p : Pt ℝ), c[j]? = some p → ∃ ρ, radius.Within ρ ∧
          p.x = ρ * Real.cos (start + j * (2 * Real.pi / c.length)) ∧
          p.y = ρ * Real.sin (start + j * (2 * Real.pi / c.length)) := by
  have hq : 0 < n / k := Nat.div_pos hn hk
  have hpos : ∀ s ∈ layerSizes n k, 0 < s := by
    intro s hs; rcases layerSizes_two n k s hs with h | h <;> omega
  have hhead : 0 < (layerSizes n k).headD 0 := by
    cases hL : layerSizes n k with
    | nil => have := layerSizes_length n k; rw [hL] at this; simp at this; omega
    | cons s _ => exact hpos s (by rw [hL]; exact List.mem_cons_self)
  obtain ⟨angles, ha, hal⟩ := startAngles_ok k _ hhead off ho
  obtain ⟨zs, hzs⟩ : ∃ zs : List (Option ℝ), zs = circleHeights k dist := ⟨_, rfl⟩
  have hzl : zs.length = k := by
    rw [hzs]; cases dist <;> simp [circleHeights, layerHeights_length]
  have hzi : ∀ i < k, zs[i]? = some (dist.map fun d => ((i : ℝ) - ((k : ℝ) - 1) / 2) * d) := by
    intro i hi
    rw [hzs]
    cases dist with
    | none => simp [circleHeights, hi]
    | some d => simp only [circleHeights]; rw [List.getElem?_map, layerHeights_getElem k d i hi]; rfl
  obtain ⟨ls, h1, h2, h3⟩ := circleLayers_ok radius u ((layerSizes n k).zip (angles.zip zs)) 0 (by
    intro e he
    exact hpos _ (List.of_mem_zip (by exact he)).1)
  have hlen : ls.length = k := by
    rw [h2]; simp [layerSizes_length, hal, hzl]
  have key : ∀ (i : Nat) (c : List (Pt ℝ)), ls[i]? = some c → ∃ (s : Nat) (angle : ℝ),
      (layerSizes n k)[i]? = some s ∧ angles[i]? = some angle ∧
      equiangularCircle s radius angle (dist.map fun d => ((i : ℝ) - ((k : ℝ) - 1) / 2) * d) (u i) = .ok c := by
    intro i c hc
    have hi : i < k := by rw [← hlen]; exact (List.getElem?_eq_some_iff.1 hc).1
    have i1 : i < (layerSizes n k).length := by rw [layerSizes_length]; exact hi
    have i2 : i < angles.length := by omega
    have e : ((layerSizes n k).zip (angles.zip zs))[i]? =
        some ((layerSizes n k)[i], angles[i], dist.map fun d => ((i : ℝ) - ((k : ℝ) - 1) / 2) * d) := by
      rw [List.getElem?_zip_eq_some]
      refine ⟨List.getElem?_eq_getElem i1, ?_⟩
      dsimp only
      rw [List.getElem?_zip_eq_some]
      exact ⟨List.getElem?_eq_getElem i2, hzi i hi⟩
    obtain ⟨c', h4, h5⟩ := h3 i _ e
    rw [hc] at h4
    cases h4
    rw [Nat.zero_add] at h5
    exact ⟨_, _, List.getElem?_eq_getElem i1, List.getElem?_eq_getElem i2, h5⟩
  have hsize : ∀ (i : Nat) (c : List (Pt ℝ)), ls[i]? = some c → (layerSizes n k)[i]? = some c.length := by
    intro i c hc
    obtain ⟨s, angle, h4, hang, h5⟩ := key i c hc
    obtain ⟨c', h6, h7, -⟩ := C68_circle s (hpos s (List.mem_of_getElem? h4)) radius hr angle _ (u i) (hu i)
    rw [h5] at h6
    rw [Except.ok.inj h6, h7]; exact h4
  have hsizes : ls.map List.length = layerSizes n k := by
    apply List.ext_getElem?
    intro i
    rw [List.getElem?_map]
    cases hc : ls[i]? with
    | none =>
      rw [Option.map_none, eq_comm, List.getElem?_eq_none_iff, layerSizes_length]
      rw [List.getElem?_eq_none_iff] at hc; omega
    | some c => rw [Option.map_some]; exact (hsize i c hc).symm
  refine ⟨ls, angles, ?_, ha, hlen, ?_, ⟨n / k, ?_⟩, hsizes, ?_⟩
  · unfold concentricalCircles
    rw [if_neg (by omega)]
    dsimp only
    rw [ha]
    dsimp only
    rw [← hzs, h1]
  · rw [List.length_flatten, hsizes, layerSizes_sum n k hk]
  · intro c hc
    obtain ⟨i, hi⟩ := List.mem_iff_getElem?.1 hc
    exact layerSizes_two n k _ (List.mem_of_getElem? (hsize i c hi))
  · intro i c hc
    obtain ⟨s, angle, h4, hang, h5⟩ := key i c hc
    obtain ⟨c', h6, h7, h8⟩ := C68_circle s (hpos s (List.mem_of_getElem? h4)) radius hr angle _ (u i) (hu i)
    rw [h5] at h6
    have := Except.ok.inj h6
    subst this
    refine ⟨?_, angle, hang, ?_⟩
    · intro p hp
      obtain ⟨j, hj⟩ := List.mem_iff_getElem?.1 hp
      exact (h8 j p hj).1
    · intro j p hj
      rw [h7]
      exact (h8 j p hj).2

/-- **C67** `concentrical_circles` with at least as many points as circles, for every
radius, distance, way of choosing the start angles and random outcome: one layer per
circle; the layer sizes are two neighbouring numbers and add up to the number of points;
layer `i` has height `(i - (circles - 1)/2) · distance`, so the heights are evenly spaced
and centred around zero; the points of a layer are equiangular on their circle. -/
theorem C67_circles_partial (n k : Nat) (hk : 0 < k) (hn : k ≤ n) (radius : Radius) (hr : radius.pair.1 ≤ radius.pair.2)
    (dist : Option ℝ) (off : AngleOffset) (ho : off ≠ .other) (u : Nat → Nat → ℝ)
    (hu : ∀ i j, 0 ≤ u i j ∧ u i j < 1) :
    ∃ ls : List (List (Pt ℝ)), concentricalCircles n k radius dist off u = .ok ls.flatten ∧
      ls.length = k ∧ ls.flatten.length = n ∧ (∃ q, ∀ c ∈ ls, c.length = q ∨ c.length = q + 1) ∧
      ∀ (i : Nat) (c : List (Pt ℝ)), ls[i]? = some c →
        (∀ p ∈ c, p.z = dist.map fun d => ((i : ℝ) - ((k : ℝ) - 1) / 2) * d) ∧
        ∃ start : ℝ, ∀ (j : Nat) (p : Pt ℝ), c[j]? = some p → ∃ ρ, radius.Within ρ ∧
          p.x = ρ * Real.cos (start + j * (2 * Real.pi / c.length)) ∧
          p.y = ρ * Real.sin (start + j * (2 * Real.pi / c.length)) := by
  obtain ⟨ls, angles, h1, -, h2, h3, h4, -, h5⟩ := circles_layers n k hk hn radius hr dist off ho u hu
  refine ⟨ls, h1, h2, h3, h4, fun i c hc => ?_⟩
  obtain ⟨a1, start, -, a2⟩ := h5 i c hc
  exact ⟨a1, start, a2⟩

/-- **C67 is violated** for fewer points than circles: `concentrical_circles` raises. -/
theorem C67_violated_few (n k : Nat) (hn : n < k) (radius : Radius) (dist : Option ℝ) (off : AngleOffset)
    (ho : off ≠ .other) (u : Nat → Nat → ℝ) :
    concentricalCircles n k radius dist off u = .error .zeroDivision := by
  unfold concentricalCircles
  rw [if_neg (by omega)]
  dsimp only
  cases ha : startAngles k ((layerSizes n k).headD 0) off with
  | error x =>
    cases off with
    | random v => simp [startAngles] at ha
    | same => simp [startAngles] at ha
    | almostSame v =>
      unfold startAngles at ha
      dsimp only at ha
      split_ifs at ha
      rw [← Except.error.inj ha]
    | distribute =>
      unfold startAngles at ha
      dsimp only at ha
      split_ifs at ha
      rw [← Except.error.inj ha]
    | other => exact absurd rfl ho
  | ok angles =>
    have hal : angles.length = k := by
      cases off with
      | random v => rw [← Except.ok.inj ha]; simp
      | same => rw [← Except.ok.inj ha]; simp
      | almostSame v =>
        unfold startAngles at ha
        dsimp only at ha
        split_ifs at ha
        rw [← Except.ok.inj ha]; simp
      | distribute =>
        unfold startAngles at ha
        dsimp only at ha
        split_ifs at ha
        rw [← Except.ok.inj ha]; simp
      | other => exact absurd rfl ho
    dsimp only
    obtain ⟨zs, hzs⟩ : ∃ zs : List (Option ℝ), zs = circleHeights k dist := ⟨_, rfl⟩
    have hzl : zs.length = k := by
      rw [hzs]; cases dist <;> simp [circleHeights, layerHeights_length]
    rw [← hzs]
    have hlt : k - 1 < ((layerSizes n k).zip (angles.zip zs)).length := by
      simp [layerSizes_length, hal, hzl]; omega
    have := circleLayers_zero radius u ((layerSizes n k).zip (angles.zip zs)) 0
      ⟨_, List.getElem_mem hlt, by
        have h0 : n / k = 0 := Nat.div_eq_of_lt hn
        have h1 : ¬ k - 1 < n := by omega
        simp [layerSizes, h0, h1]⟩
    rw [this]

/-- **C67** `stacked_equidistant_rectangles`, for every number of points, layers, side
lengths and distance: one layer per rectangle; the layer sizes are two neighbouring numbers
and add up to the number of points; layer `i` has height `(i - (layers - 1)/2) · distance`;
the points of a layer are equidistant along the perimeter, with offset `(2i + 1)/(2 · layers)`. -/
theorem C67_stacked {F : Type} [Field F] [LinearOrder F] [IsStrictOrderedRing F] (n k : Nat) (hk : 0 < k) (a b dist : F)
    (ha : 0 < a) (hb : 0 < b) :
    ∃ ls : List (List (Pt F)), stackedRectangles n k (a, b) dist = .ok ls.flatten ∧
      ls.length = k ∧ ls.flatten.length = n ∧ (∃ q, ∀ c ∈ ls, c.length = q ∨ c.length = q + 1) ∧
      ∀ (i : Nat) (c : List (Pt F)), ls[i]? = some c →
        (∀ p ∈ c, p.z = some (((i : F) - ((k : F) - 1) / 2) * dist)) ∧
        (c.map Pt.xy).Perm ((List.range c.length).map fun (j : Nat) =>
          perimeterPoint a b ((j + (2 * i + 1) / (2 * k)) * (2 * (a + b)) / c.length)) := by
  have hk' : (0 : F) < (k : F) := by exact_mod_cast hk
  have loop : ∀ (es : List (Nat × Nat × F)), (∀ e ∈ es, e.1 < k) →
      ∃ ls : List (List (Pt F)), stackedLayers (a, b) k es = .ok ls.flatten ∧
        ls.map List.length = es.map (fun e => e.2.1) ∧
        ∀ (i : Nat) (e : Nat × Nat × F) (c : List (Pt F)), es[i]? = some e → ls[i]? = some c →
          (∀ p ∈ c, p.z = some e.2.2) ∧ (c.map Pt.xy).Perm ((List.range c.length).map fun (j : Nat) =>
            perimeterPoint a b ((j + (2 * e.1 + 1) / (2 * k)) * (2 * (a + b)) / c.length)) := by
    intro es
    induction es with
    | nil => intro _; exact ⟨[], rfl, rfl, by simp⟩
    | cons e es ih =>
      intro h
      obtain ⟨i, m, z⟩ := e
      obtain ⟨ls, h1, h2, h3⟩ := ih (fun e he => h e (List.mem_cons_of_mem _ he))
      have hi : i < k := h (i, m, z) List.mem_cons_self
      have hoff : (2 * (i : F) + 1) / (2 * (k : F)) < 1 := by
        rw [div_lt_one (by positivity)]
        have : (i : F) + 1 ≤ (k : F) := by exact_mod_cast hi
        linarith
      obtain ⟨l, h4, h5, -, h6⟩ := C66_equidistant_partial m a b ((2 * (i : F) + 1) / (2 * (k : F))) none ha hb
        (by positivity) hoff
      refine ⟨l.map (fun p => { p with z := some z }) :: ls, ?_, ?_, ?_⟩
      · simp only [stackedLayers, h4, h1, List.flatten_cons]
        rw [if_neg (not_not.2 h5)]
      · simp [h2, h5]
      · intro j e c he hc
        cases j with
        | zero =>
          simp only [List.getElem?_cons_zero, Option.some.injEq] at he hc
          subst he hc
          constructor
          · intro p hp
            obtain ⟨q, -, rfl⟩ := List.mem_map.1 hp
            rfl
          · rw [List.map_map, List.length_map, h5]
            exact h6
        | succ j =>
          rw [List.getElem?_cons_succ] at he hc
          exact h3 j e c he hc
  obtain ⟨es, hes⟩ : ∃ es : List (Nat × Nat × F),
    es = (List.range k).zip ((layerSizes n k).zip (layerHeights k dist)) := ⟨_, rfl⟩
  have hesl : es.length = k := by rw [hes]; simp [layerSizes_length, layerHeights_length]
  have hsz : es.map (fun e => e.2.1) = layerSizes n k := by
    rw [hes]
    have : (fun e : Nat × Nat × F => e.2.1) = Prod.fst ∘ Prod.snd := rfl
    rw [this, ← List.map_map, List.map_snd_zip (by simp [layerSizes_length, layerHeights_length]),
      List.map_fst_zip (by simp [layerSizes_length, layerHeights_length])]
  obtain ⟨ls, h1, h2, h3⟩ := loop es (by
    intro e he
    rw [hes] at he
    exact List.mem_range.1 (List.of_mem_zip (by exact he)).1)
  rw [hsz] at h2
  have hlen : ls.length = k := by
    have := congrArg List.length h2; simpa [layerSizes_length] using this
  refine ⟨ls, ?_, hlen, ?_, ⟨n / k, ?_⟩, ?_⟩
  · unfold stackedRectangles; rw [if_neg (by omega), ← hes, h1]
  · rw [List.length_flatten, h2, layerSizes_sum n k hk]
  · intro c hc
    apply layerSizes_two n k
    rw [← h2]; exact List.mem_map_of_mem hc
  · intro i c hc
    have hi : i < k := by rw [← hlen]; exact (List.getElem?_eq_some_iff.1 hc).1
    have i1 : i < (layerSizes n k).length := by rw [layerSizes_length]; exact hi
    have e : es[i]? = some (i, (layerSizes n k)[i], ((i : F) - ((k : F) - 1) / 2) * dist) := by
      rw [hes, List.getElem?_zip_eq_some]
      refine ⟨List.getElem?_range hi, ?_⟩
      dsimp only
      rw [List.getElem?_zip_eq_some]
      exact ⟨List.getElem?_eq_getElem i1, layerHeights_getElem k dist i hi⟩
    exact h3 i _ c e hc

/-- No layers at all are refused. -/
theorem C67_no_layers (n : Nat) (radius : Radius) (dist : Option ℝ) (off : AngleOffset) (u : Nat → Nat → ℝ) (side : ℝ × ℝ)
    (d : ℝ) : concentricalCircles n 0 radius dist off u = .error .zeroDivision ∧
      stackedRectangles n 0 side d = .error .zeroDivision := by
  constructor <;> rfl

/-- Seven points in three layers at heights -2, 0, 2, with 3, 2, 2 points. -/
example : (layerSizes 7 3, (layerHeights 3 (2 : ℚ))) = ([3, 2, 2], [-2, 0, 2]) := by decide +kernel

/-- Seven points on three circles with radii between 1 and 2, start angles distributed. -/
example : ∃ ls : List (List (Pt ℝ)),
    concentricalCircles 7 3 (.range 1 2) (some 2) .distribute (fun _ _ => 1 / 2) = .ok ls.flatten ∧
      ls.length = 3 ∧ ls.flatten.length = 7 := by
  obtain ⟨ls, h1, h2, h3, -⟩ := C67_circles_partial 7 3 (by decide) (by decide) (.range 1 2) (by norm_num [Radius.pair])
    (some 2) .distribute (by simp) (fun _ _ => 1 / 2) (fun _ _ => by norm_num)
  exact ⟨ls, h1, h2, h3⟩

/-- Four layers are centred too. -/
example : (layerSizes 9 4, (layerHeights 4 (2 : ℚ))) = ([3, 2, 2, 2], [-3, -1, 1, 3]) := by decide +kernel

example : ∃ l : List (Pt ℚ), stackedRectangles 5 2 ((2 : ℚ), (1 : ℚ)) 1 = .ok l ∧ l.length = 5 ∧
    l.map Pt.z = [some (-1 / 2), some (-1 / 2), some (-1 / 2), some (1 / 2), some (1 / 2)] := by
  apply exists_ok_of
  decide +kernel

end Verif

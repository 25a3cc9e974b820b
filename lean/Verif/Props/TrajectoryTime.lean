/-
Property C64 of linear trajectories with equal times for the segments, and C65 of
circular trajectories.
-/
import Verif.Props.Trajectory
namespace Verif

section
variable {d : Nat}

/-- **C64** For every closed polygon with `m` sides: the position function has the period,
takes the same time for every side and moves evenly on each of them; but that time is
`period/(m+1)`, not `period/m`. -/
theorem C64_equal_times_partial (pts poly : List (Vec d)) (period samplerate : ℝ) (hT : 0 < period * samplerate)
    (hpoly : anchorPoints pts = .ok poly) :
    ∃ f, linearTrajectory pts period samplerate (some false) = .ok f ∧
      (∀ t, f (t + period * samplerate) = f t) ∧
      ∀ (k : Nat) (p q : Vec d) (x : ℝ), poly[k]? = some p → poly[k + 1]? = some q → 0 ≤ x → x < 1 →
        f ((k + x) * (period * samplerate / poly.length)) = .ok (between p q x) := by
  refine ⟨constantTime poly period samplerate, by unfold linearTrajectory; rw [hpoly], ?_, ?_⟩
  · intro t
    have h := fmod_add_nat t _ hT 1
    simp only [Nat.cast_one, one_mul] at h
    unfold constantTime
    simp only [h]
  · intro k p q x hp hq h0 h1
    have hk := (List.getElem?_eq_some_iff.1 hq).1
    have hN : (0 : ℝ) < poly.length := by exact_mod_cast (by omega : 0 < poly.length)
    have hs : 0 < period * samplerate / poly.length := by positivity
    have hk' : (k : ℝ) + 1 + 1 ≤ poly.length := by exact_mod_cast hk
    have eT : period * samplerate = poly.length * (period * samplerate / poly.length) := by field_simp
    have e := fmod_of_lt ((k + x) * (period * samplerate / poly.length)) (period * samplerate) (by positivity) (by
      conv_rhs => rw [eT]
      nlinarith)
    rw [constantTime_low poly period samplerate hT _ k p q hp hq (by rw [e]; nlinarith) (by rw [e]; nlinarith), e]
    congr 2
    rw [← sub_mul, mul_div_assoc, div_self hs.ne']; ring

/-- **C64 is violated**: on every closed polygon with `m ≥ 1` sides the trajectory is back
at its starting point after the fraction `m/(m+1)` of the period and rests there until the
end of the period. -/
theorem C64_violated (pts poly : List (Vec d)) (period samplerate : ℝ) (hT : 0 < period * samplerate)
    (hpoly : anchorPoints pts = .ok poly) (h2 : 2 ≤ poly.length) (hc : poly.getLast? = poly.head?) :
    ∃ f p, linearTrajectory pts period samplerate (some false) = .ok f ∧ poly.head? = some p ∧
      ∀ t, (poly.length - 1 : ℝ) / poly.length * (period * samplerate) ≤ t → t < period * samplerate → f t = .ok p := by
  obtain ⟨p, hp⟩ : ∃ p, poly.head? = some p := by
    cases poly with
    | nil => simp at h2
    | cons p _ => exact ⟨p, rfl⟩
  refine ⟨constantTime poly period samplerate, p, by unfold linearTrajectory; rw [hpoly], hp, ?_⟩
  intro t h3 h4
  have hN : (1 : ℝ) < poly.length := by exact_mod_cast h2
  have h0 : 0 ≤ t := le_trans (by have : (0 : ℝ) ≤ poly.length - 1 := by linarith
                                  positivity) h3
  have e := fmod_of_lt t _ h0 h4
  rw [constantTime_high poly period samplerate hT t p p (by rw [hc, hp]) hp (by
    rw [e]; refine le_trans (le_of_eq ?_) h3; ring)]
  congr 1
  funext i; simp [between]

/-- The unit square takes a fifth of the period for each side: it is back in the corner
(0, 0) after 1600 of 2000 samples. -/
example : ∃ f, linearTrajectory unitSquare 2 1000 (some false) = .ok f ∧ f 400 = .ok ![1, 0] ∧ f 1600 = .ok ![0, 0] := by
  obtain ⟨f, h1, -, h3⟩ := C64_equal_times_partial unitSquare _ 2 1000 (by norm_num) unitSquare_anchor
  obtain ⟨f', p, h4, h5, h6⟩ := C64_violated unitSquare _ 2 1000 (by norm_num) unitSquare_anchor unitSquare_closed.two
    unitSquare_closed.closed
  rw [h1] at h4
  have := Except.ok.inj h4
  subst this
  refine ⟨f, h1, ?_, ?_⟩
  · have := h3 1 _ _ 0 rfl rfl le_rfl (by norm_num)
    rw [between_zero] at this
    rw [← this]
    congr 1
    simp [unitSquare]; norm_num
  · have hp : p = ![0, 0] := (Option.some.inj h5).symm
    rw [← hp]
    have hl : ((unitSquare ++ [![0, 0]]).length : ℝ) = 5 := by simp [unitSquare]
    apply h6 <;> (try rw [hl]) <;> norm_num

end

/-- **C65** For every pair of radii with inner ≤ outer, every centre, every pair of
positive periods (in samples: `A` for the angle, `R` for the radius) and start angle: the
position is in the plane of the centre at all times; it starts at the outer radius at the
start angle; it turns by one full turn per `A`; the radius goes down to the inner radius
in the first half of `R` and back up in the second half. -/
theorem C65_circular (c : Circular) (hr : c.radius.1 ≤ c.radius.2) (hA : 0 < c.anglePeriod * c.samplerate)
    (hR : 0 < c.radialPeriod * c.samplerate) :
    ∃ (pos : ℝ → ℝ × ℝ × ℝ) (rad angle : ℝ → ℝ), c.pos = .ok pos ∧
      (∀ t, pos t = (c.center.1 + rad t * Real.cos (angle t), c.center.2.1 + rad t * Real.sin (angle t), c.center.2.2)) ∧
      (∀ t, c.radius.1 ≤ rad t ∧ rad t ≤ c.radius.2) ∧
      (∀ (j : Nat) (x : ℝ), 0 ≤ x → x < 1 →
        angle ((j + x) * (c.anglePeriod * c.samplerate)) = c.startAngle + 2 * Real.pi * x) ∧
      (∀ (j : Nat) (x : ℝ), 0 ≤ x → x ≤ 1 / 2 →
        rad ((j + x) * (c.radialPeriod * c.samplerate)) = c.radius.2 - 2 * x * (c.radius.2 - c.radius.1)) ∧
      (∀ (j : Nat) (x : ℝ), 1 / 2 ≤ x → x ≤ 1 →
        rad ((j + x) * (c.radialPeriod * c.samplerate)) = c.radius.1 + (2 * x - 1) * (c.radius.2 - c.radius.1)) := by
  have hmod : ∀ (P : ℝ), 0 < P → ∀ (j : Nat) (x : ℝ), 0 ≤ x → x < 1 → fmod ((j + x) * P) P / P = x := by
    intro P hP j x h0 h1
    rw [show (j + x) * P = x * P + j * P by ring, fmod_add_nat _ _ hP, fmod_of_lt _ _ (by positivity) (by nlinarith)]
    field_simp
  have hrad1 : ∀ (j : Nat) (x : ℝ), 0 ≤ x → x < 1 / 2 →
      c.rad ((j + x) * (c.radialPeriod * c.samplerate)) = c.radius.2 - 2 * x * (c.radius.2 - c.radius.1) := by
    intro j x h0 h1
    unfold Circular.rad
    dsimp only
    rw [hmod _ hR j x h0 (by linarith), if_pos h1]; ring
  have hrad2 : ∀ (j : Nat) (x : ℝ), 1 / 2 ≤ x → x < 1 →
      c.rad ((j + x) * (c.radialPeriod * c.samplerate)) = c.radius.1 + (2 * x - 1) * (c.radius.2 - c.radius.1) := by
    intro j x h0 h1
    unfold Circular.rad
    dsimp only
    rw [hmod _ hR j x (by linarith) h1, if_neg (by linarith)]; ring
  refine ⟨_, c.rad, c.angle, by unfold Circular.pos; rw [if_neg (not_not.2 (by linarith))], ?_, ?_, ?_, ?_, ?_⟩
  · intro t
    simp only [pol2cart]
    refine Prod.ext (by dsimp only; ring) (Prod.ext (by dsimp only; ring) (by dsimp only; ring))
  · intro t
    have h := fmod_spec t _ hR
    have h0 : 0 ≤ fmod t (c.radialPeriod * c.samplerate) / (c.radialPeriod * c.samplerate) := div_nonneg h.1 hR.le
    have h1 : fmod t (c.radialPeriod * c.samplerate) / (c.radialPeriod * c.samplerate) < 1 := (div_lt_one hR).2 h.2
    unfold Circular.rad
    dsimp only
    split_ifs with h2
    · constructor <;> nlinarith
    · rw [not_lt] at h2
      constructor <;> nlinarith
  · intro j x h0 h1
    unfold Circular.angle
    rw [hmod _ hA j x h0 h1]
  · intro j x h0 h1
    rcases h1.eq_or_lt with rfl | h1
    · rw [hrad2 j (1 / 2) le_rfl (by norm_num)]; ring
    · exact hrad1 j x h0 h1
  · intro j x h0 h1
    rcases h1.eq_or_lt with rfl | h1
    · rw [show ((j : ℝ) + 1) = (((j + 1 : Nat) : ℝ) + 0) by push_cast; ring, hrad1 (j + 1) 0 le_rfl (by norm_num)]; ring
    · exact hrad2 j x h0 h1

/-- **C65** The distance to the centre, for a non-negative inner radius. -/
theorem C65_distance (c : Circular) (h0 : 0 ≤ c.radius.1) (hr : c.radius.1 ≤ c.radius.2)
    (hA : 0 < c.anglePeriod * c.samplerate) (hR : 0 < c.radialPeriod * c.samplerate) :
    ∃ pos : ℝ → ℝ × ℝ × ℝ, c.pos = .ok pos ∧ ∀ t, (pos t).2.2 = c.center.2.2 ∧
      c.radius.1 ≤ √(((pos t).1 - c.center.1) ^ 2 + ((pos t).2.1 - c.center.2.1) ^ 2) ∧
      √(((pos t).1 - c.center.1) ^ 2 + ((pos t).2.1 - c.center.2.1) ^ 2) ≤ c.radius.2 := by
  obtain ⟨pos, rad, angle, h1, h2, h3, -⟩ := C65_circular c hr hA hR
  refine ⟨pos, h1, fun t => ?_⟩
  rw [h2 t]
  simp only [add_sub_cancel_left]
  rw [hypot_polar _ _ (le_trans h0 (h3 t).1)]
  exact ⟨trivial, h3 t⟩

/-- **C65** The movement repeats after every time that is a multiple of both periods. -/
theorem C65_repeats (c : Circular) (hA : 0 < c.anglePeriod * c.samplerate)
    (hR : 0 < c.radialPeriod * c.samplerate) (a b : Nat) (P : ℝ) (ha : P = a * (c.anglePeriod * c.samplerate))
    (hb : P = b * (c.radialPeriod * c.samplerate)) (pos : ℝ → ℝ × ℝ × ℝ) (h : c.pos = .ok pos) :
    ∀ t, pos (t + P) = pos t := by
  intro t
  unfold Circular.pos at h
  split_ifs at h with hr
  rw [← Except.ok.inj h]
  have e1 : c.angle (t + P) = c.angle t := by
    unfold Circular.angle; rw [ha, fmod_add_nat _ _ hA]
  have e2 : c.rad (t + P) = c.rad t := by
    unfold Circular.rad; dsimp only; rw [hb, fmod_add_nat _ _ hR]
  simp only [e1, e2]

/-- **C65** An outer radius below the inner one is refused. -/
theorem C65_refused (c : Circular) (hr : c.radius.2 < c.radius.1) : c.pos = .error .assertion := by
  unfold Circular.pos; rw [if_pos (by linarith)]

/-- A trajectory between radii 1 and 3 around (1, 2, 3): at half a radial period (and a
quarter turn) it is at the inner radius. -/
example : ∃ pos, Circular.pos ⟨(1, 3), (1, 2, 3), 1, 2, 1000, 0⟩ = .ok pos ∧ pos 0 = (4, 2, 3) ∧ pos 500 = (1, 3, 3) := by
  obtain ⟨pos, rad, angle, h1, h2, -, h4, h5, -⟩ := C65_circular ⟨(1, 3), (1, 2, 3), 1, 2, 1000, 0⟩ (by norm_num)
    (by norm_num) (by norm_num)
  have a0 := h4 0 0 le_rfl (by norm_num)
  have r0 := h5 0 0 le_rfl (by norm_num)
  have a1 := h4 0 (1 / 4) (by norm_num) (by norm_num)
  have r1 := h5 0 (1 / 2) (by norm_num) (by norm_num)
  norm_num at a0 r0 a1 r1
  refine ⟨pos, h1, ?_, ?_⟩
  · rw [h2, a0, r0]; norm_num
  · rw [h2, a1, r1, show 2 * Real.pi * (1 / 4) = Real.pi / 2 by ring]; norm_num

/-- **C80** A collection of trajectories puts the positions of its members one after the
other, in order; it fails if one of them fails, or if there are none. -/
theorem C80_collection {d : Nat} (trajs : List (ℝ → Except PyErr (List (Vec d)))) (t : ℝ) :
    (∀ ls : List (List (Vec d)), trajs ≠ [] → List.Forall₂ (fun f l => f t = .ok l) trajs ls →
      collectionPos trajs t = .ok ls.flatten) ∧
    (∀ f ∈ trajs, ∀ x, f t = .error x → ∃ y, collectionPos trajs t = .error y) ∧
    collectionPos ([] : List (ℝ → Except PyErr (List (Vec d)))) t = .error .value := by
  refine ⟨?_, ?_, rfl⟩
  · intro ls hne hall
    have hm : trajs.mapM (fun f => f t) = .ok ls := by
      clear hne
      induction hall with
      | nil => rfl
      | cons h _ ih => rw [List.mapM_cons, h, ih]; rfl
    unfold collectionPos
    rw [hm]
    cases hall with
    | nil => exact absurd rfl hne
    | cons _ _ => rfl
  · intro f hf x hx
    have hm : ∃ y, trajs.mapM (fun f => f t) = .error y := by
      induction trajs with
      | nil => simp at hf
      | cons g l ih =>
        rw [List.mapM_cons]
        cases hg : g t with
        | error y => exact ⟨y, rfl⟩
        | ok v =>
          rcases List.mem_cons.1 hf with rfl | hf
          · rw [hg] at hx; cases hx
          · obtain ⟨y, hy⟩ := ih hf
            rw [hy]; exact ⟨y, rfl⟩
    obtain ⟨y, hy⟩ := hm
    unfold collectionPos
    rw [hy]; exact ⟨y, rfl⟩

example : collectionPos [fun t => .ok [![t, 0]], fun t => .ok [![0, t]]] 2 = .ok [![2, 0], ![0, (2 : ℝ)]] := rfl

end Verif

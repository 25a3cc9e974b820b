/-
Properties C62, C68 of the coordinate conversions and of circles of points.
-/
import Verif.Lemmas.Points
import Mathlib.Tactic.Linarith
import Mathlib.Tactic.Ring
import Mathlib.Tactic.FieldSimp
import Mathlib.Tactic.Positivity
namespace Verif

/-- **C62** Polar coordinates of every point of the plane lead back to the point. -/
theorem C62_polar (x y : ℝ) : pol2cart (cart2pol x y).1 (cart2pol x y).2 = (x, y) := by
  unfold pol2cart cart2pol
  simp only [hypot_cos, hypot_sin]

/-- **C62** Spherical coordinates of every point of the space lead back to the point. -/
theorem C62_spherical (pts : List (ℝ × ℝ × ℝ)) : spherical2cart (cart2spherical pts) = pts := by
  unfold spherical2cart cart2spherical
  rw [List.map_map]
  conv_rhs => rw [← List.map_id pts]
  apply List.map_congr_left
  intro ⟨x, y, z⟩ _
  have hn : √(x ^ 2 + y ^ 2 + z ^ 2) = √(z ^ 2 + (√(x ^ 2 + y ^ 2)) ^ 2) := by
    rw [Real.sq_sqrt (by positivity)]; congr 1; ring
  have hc := hypot_cos z (√(x ^ 2 + y ^ 2))
  have hs := hypot_sin z (√(x ^ 2 + y ^ 2))
  rw [← hn] at hc hs
  simp only [Function.comp, spherical2cartRow, cart2sphericalRow, id]
  refine Prod.ext ?_ (Prod.ext ?_ ?_)
  · calc _ = (√(x ^ 2 + y ^ 2 + z ^ 2) * Real.sin (arctan2 (√(x ^ 2 + y ^ 2)) z)) * Real.cos (arctan2 y x) := by ring
      _ = x := by rw [hs, hypot_cos]
  · calc _ = (√(x ^ 2 + y ^ 2 + z ^ 2) * Real.sin (arctan2 (√(x ^ 2 + y ^ 2)) z)) * Real.sin (arctan2 y x) := by ring
      _ = y := by rw [hs, hypot_sin]
  · exact hc

/-- **C62** The spherical coordinates are in their ranges: the radius is the distance to
the origin, the angle in the plane is in (-π, π], the zenith angle in [0, π]. -/
theorem C62_ranges (pts : List (ℝ × ℝ × ℝ)) :
    List.Forall₂ (fun p q => q.1 = √(p.1 ^ 2 + p.2.1 ^ 2 + p.2.2 ^ 2) ∧
      (-Real.pi < q.2.1 ∧ q.2.1 ≤ Real.pi) ∧ (0 ≤ q.2.2 ∧ q.2.2 ≤ Real.pi)) pts (cart2spherical pts) := by
  unfold cart2spherical
  rw [List.forall₂_map_right_iff]
  refine List.forall₂_same.2 fun p _ => ?_
  unfold cart2sphericalRow arctan2
  refine ⟨rfl, Complex.arg_mem_Ioc _, ?_, Complex.arg_le_pi _⟩
  rw [Complex.arg_nonneg_iff]
  exact Real.sqrt_nonneg _

/-- **C62** Conversely, spherical coordinates with positive radius, angle in (-π, π]
and zenith angle strictly between 0 and π are recovered from the point. -/
theorem C62_inverse (l : List (ℝ × ℝ × ℝ))
    (h : ∀ q ∈ l, 0 < q.1 ∧ (-Real.pi < q.2.1 ∧ q.2.1 ≤ Real.pi) ∧ (0 < q.2.2 ∧ q.2.2 < Real.pi)) :
    cart2spherical (spherical2cart l) = l := by
  unfold spherical2cart cart2spherical
  rw [List.map_map]
  conv_rhs => rw [← List.map_id l]
  apply List.map_congr_left
  intro ⟨r, θ, φ⟩ hq
  obtain ⟨hr, ⟨h1, h2⟩, h3, h4⟩ := h _ hq
  dsimp only at hr h1 h2 h3 h4
  have hs : 0 < Real.sin φ := Real.sin_pos_of_pos_of_lt_pi h3 h4
  have exy : √((r * Real.cos θ * Real.sin φ) ^ 2 + (r * Real.sin θ * Real.sin φ) ^ 2) = r * Real.sin φ := by
    have := hypot_polar (r * Real.sin φ) θ (by positivity)
    rw [← this]; congr 1; ring_nf
  simp only [Function.comp, spherical2cartRow, cart2sphericalRow, id]
  refine Prod.ext ?_ (Prod.ext ?_ ?_)
  · have e2 : (r * Real.cos θ * Real.sin φ) ^ 2 + (r * Real.sin θ * Real.sin φ) ^ 2 + (r * Real.cos φ) ^ 2
        = (r * Real.cos φ) ^ 2 + (r * Real.sin φ) ^ 2 := by
      have := Real.sin_sq_add_cos_sq θ
      have : Real.sin θ ^ 2 = 1 - Real.cos θ ^ 2 := by linarith
      ring_nf; rw [this]; ring
    show √(_) = r
    rw [e2]; exact hypot_polar r φ hr.le
  · have := arctan2_polar (r * Real.sin φ) θ (by positivity) h1 h2
    show arctan2 _ _ = θ
    rw [show r * Real.sin θ * Real.sin φ = r * Real.sin φ * Real.sin θ by ring,
      show r * Real.cos θ * Real.sin φ = r * Real.sin φ * Real.cos θ by ring]
    exact this
  · show arctan2 _ _ = φ
    rw [exy]
    exact arctan2_polar r φ hr (by linarith [Real.pi_pos]) h4.le

/-- The angles have the documented meaning: the axes. -/
example : cart2spherical [(1, 0, 0), (0, 1, 0), (0, 0, 1), (0, 0, -1), (0, 0, 0)] =
    [(1, 0, Real.pi / 2), (1, Real.pi / 2, Real.pi / 2), (1, 0, 0), (1, 0, Real.pi), (0, 0, 0)] := by
  have hI : (⟨0, 1⟩ : ℂ) = Complex.I := rfl
  have h0 : (⟨0, 0⟩ : ℂ) = 0 := rfl
  have h1 : (⟨1, 0⟩ : ℂ) = 1 := rfl
  have h2 : (⟨-1, 0⟩ : ℂ) = -1 := by apply Complex.ext <;> simp
  simp [cart2spherical, cart2sphericalRow, arctan2, hI, h0, h1, h2]

/-- **C68** For every number of points, radii, start angle and random outcome: exactly
that many points, point `i` at angle `start + i · 2π/n` (so consecutive points are one
`n`-th of a turn apart) and at a distance from the origin between the radii, at the given
height. -/
theorem C68_circle (n : Nat) (hn : 0 < n) (radius : Radius) (hr : radius.pair.1 ≤ radius.pair.2) (start : ℝ)
    (z : Option ℝ) (u : Nat → ℝ) (hu : ∀ i, 0 ≤ u i ∧ u i < 1) :
    ∃ l : List (Pt ℝ), equiangularCircle n radius start z u = .ok l ∧ l.length = n ∧
      ∀ (i : Nat) (p : Pt ℝ), l[i]? = some p →
        p.z = z ∧ ∃ ρ, radius.Within ρ ∧
          p.x = ρ * Real.cos (start + i * (2 * Real.pi / n)) ∧
          p.y = ρ * Real.sin (start + i * (2 * Real.pi / n)) := by
  refine ⟨_, by unfold equiangularCircle; rw [if_neg (by omega)], by simp, ?_⟩
  intro i p hp
  rw [List.getElem?_map] at hp
  obtain ⟨j, hj, rfl⟩ := Option.map_eq_some_iff.1 hp
  obtain ⟨hlt, rfl⟩ := List.getElem?_eq_some_iff.1 hj
  simp only [List.getElem_range]
  refine ⟨trivial, _, uniform_within radius hr _ (hu i).1 (hu i).2, ?_, ?_⟩
  · simp [pol2cart, cos_fmod]
  · simp [pol2cart, sin_fmod]

/-- **C68** The distance of each point from the origin, for non-negative radii. -/
theorem C68_distance (n : Nat) (radius : Radius) (hr : radius.pair.1 ≤ radius.pair.2) (h0 : 0 ≤ radius.pair.1)
    (start : ℝ) (z : Option ℝ) (u : Nat → ℝ) (hu : ∀ i, 0 ≤ u i ∧ u i < 1) (l : List (Pt ℝ))
    (h : equiangularCircle n radius start z u = .ok l) : ∀ p ∈ l, radius.Within (√(p.x ^ 2 + p.y ^ 2)) := by
  have hn : 0 < n := by
    rcases Nat.eq_zero_or_pos n with rfl | h'
    · simp [equiangularCircle] at h
    · exact h'
  obtain ⟨l', h1, -, h3⟩ := C68_circle n hn radius hr start z u hu
  have : l' = l := by rw [h1] at h; exact Except.ok.inj h
  subst this
  intro p hp
  obtain ⟨i, hi⟩ := List.mem_iff_getElem?.1 hp
  obtain ⟨-, ρ, hρ, ex, ey⟩ := h3 i p hi
  have hpos : 0 ≤ ρ := by
    cases radius with
    | one r => simp only [Radius.Within] at hρ; rw [hρ]; exact h0
    | range a b => exact le_trans h0 hρ.1
  rw [ex, ey, hypot_polar _ _ hpos]; exact hρ

/-- A circle of no points is refused. -/
theorem C68_empty (radius : Radius) (start : ℝ) (z : Option ℝ) (u : Nat → ℝ) :
    equiangularCircle 0 radius start z u = .error .zeroDivision := by
  simp [equiangularCircle]

/-- Four points with radius 2. -/
example : ∃ l : List (Pt ℝ), equiangularCircle 4 (.range 1 3) 0 (some 5) (fun _ => 1 / 2) = .ok l ∧ l.length = 4 ∧
    l[1]? = some ⟨0, 2, some 5⟩ := by
  obtain ⟨l, h1, h2, h3⟩ := C68_circle 4 (by decide) (.range 1 3) (by norm_num [Radius.pair]) 0 (some 5) (fun _ => 1 / 2)
    (fun _ => by norm_num)
  refine ⟨l, h1, h2, ?_⟩
  unfold equiangularCircle at h1
  rw [if_neg (by decide)] at h1
  rw [← Except.ok.inj h1]
  simp only [List.getElem?_map]
  simp only [show (List.range 4)[1]? = some 1 from rfl, Option.map_some, pol2cart, cos_fmod, sin_fmod]
  have e : (0 : ℝ) + ((1 : Nat) : ℝ) * (2 * Real.pi / ((4 : Nat) : ℝ)) = Real.pi / 2 := by push_cast; ring
  rw [e, Real.cos_pi_div_two, Real.sin_pi_div_two]
  norm_num [uniform, Radius.pair]

end Verif

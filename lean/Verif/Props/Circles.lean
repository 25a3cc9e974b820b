/-
C145: how the circles of `concentrical_circles` are turned against each other.
-/
import Verif.Props.Layers
namespace Verif

/-- By which angle a circle is turned, in terms of the largest number `m` of points on a
circle: by the part of a full turn that was drawn for "random", not at all for "same", by less than a tenth of the angle
between two points for "almostSame", by `i / k` of this angle for "distribute". -/
def TurnedBy (k m i : Nat) (start : ℝ) : AngleOffset → Prop
  | .random v => start = v i * (2 * Real.pi)
  | .same => start = 0
  | .almostSame _ => 0 ≤ start ∧ start < 2 * Real.pi / m / 10
  | .distribute => start = i / k * (2 * Real.pi / m)
  | .other => False

/-- The numbers drawn for the start angles are in [0, 1). -/
def AngleOffset.Drawn : AngleOffset → Prop
  | .random v => ∀ i, 0 ≤ v i ∧ v i < 1
  | .almostSame v => ∀ i, 0 ≤ v i ∧ v i < 1
  | _ => True

theorem layerSizes_head {n k : Nat} (hk : 0 < k) : (layerSizes n k).headD 0 = (n + k - 1) / k := by
  obtain ⟨k, rfl⟩ : ∃ k', k = k' + 1 := ⟨k - 1, by omega⟩
  unfold layerSizes
  rw [List.range_succ_eq_map, List.map_cons]
  show (if 0 < n - (k + 1) * (n / (k + 1)) then n / (k + 1) + 1 else n / (k + 1)) = _
  have hdm := Nat.div_add_mod n (k + 1)
  have hlt := Nat.mod_lt n hk
  generalize hq : n / (k + 1) = q at *
  generalize hr : n % (k + 1) = r at *
  have h1 : n - (k + 1) * q = r := by omega
  rw [h1]
  split_ifs with h0
  · symm
    rw [Nat.div_eq_iff hk]
    have e1 : (q + 1) * (k + 1) = (k + 1) * q + (k + 1) := by ring
    rw [e1]
    omega
  · symm
    rw [Nat.div_eq_iff hk]
    have e1 : q * (k + 1) = (k + 1) * q := by ring
    rw [e1]
    omega

/-- **C145** Circle `i` is turned as `angle_offset` says: its points are at the angles
`start`, `start + 2π/s`, `start + 2·2π/s`, … for the number `s` of its points, where `start`
is the drawn part of a full turn for "random", zero for "same", smaller than a tenth of the angle between two points for "almostSame" and
the `i / circles`-th part of this angle for "distribute". -/
theorem C145_turned (n k : Nat) (hk : 0 < k) (hn : k ≤ n) (radius : Radius) (hr : radius.pair.1 ≤ radius.pair.2)
    (dist : Option ℝ) (off : AngleOffset) (ho : off ≠ .other) (hd : off.Drawn) (u : Nat → Nat → ℝ)
    (hu : ∀ i j, 0 ≤ u i j ∧ u i j < 1) :
    ∃ ls : List (List (Pt ℝ)), concentricalCircles n k radius dist off u = .ok ls.flatten ∧ ls.length = k ∧
      ∀ (i : Nat) (c : List (Pt ℝ)), ls[i]? = some c → ∃ start : ℝ, TurnedBy k ((n + k - 1) / k) i start off ∧
        ∀ (j : Nat) (p : Pt ℝ), c[j]? = some p → ∃ ρ, radius.Within ρ ∧
          p.x = ρ * Real.cos (start + j * (2 * Real.pi / c.length)) ∧
          p.y = ρ * Real.sin (start + j * (2 * Real.pi / c.length)) := by
  obtain ⟨ls, angles, h1, ha, h2, -, -, -, h5⟩ := circles_layers n k hk hn radius hr dist off ho u hu
  rw [layerSizes_head hk] at ha
  have hm : 0 < (n + k - 1) / k := Nat.div_pos (by omega) hk
  have hm' : (0 : ℝ) < (((n + k - 1) / k : Nat) : ℝ) := by exact_mod_cast hm
  refine ⟨ls, h1, h2, fun i c hc => ?_⟩
  obtain ⟨-, start, hs, a2⟩ := h5 i c hc
  refine ⟨start, ?_, a2⟩
  have hpi := Real.pi_pos
  cases off with
  | random v =>
    rw [← Except.ok.inj ha, List.getElem?_map, Option.map_eq_some_iff] at hs
    obtain ⟨i', hi, rfl⟩ := hs
    rw [List.getElem?_range (by rw [← h2]; exact (List.getElem?_eq_some_iff.1 hc).1)] at hi
    cases hi
    show _ = _
    ring
  | same =>
    rw [← Except.ok.inj ha, List.getElem?_map, Option.map_eq_some_iff] at hs
    obtain ⟨i', hi, rfl⟩ := hs
    rfl
  | almostSame v =>
    unfold startAngles at ha
    dsimp only at ha
    rw [if_neg (by omega)] at ha
    rw [← Except.ok.inj ha, List.getElem?_map, Option.map_eq_some_iff] at hs
    obtain ⟨i', hi, rfl⟩ := hs
    obtain ⟨d1, d2⟩ := hd i'
    have hpos : 0 < 2 * Real.pi / (((n + k - 1) / k : Nat) : ℝ) / 10 := by positivity
    constructor
    · positivity
    · exact mul_lt_of_lt_one_left hpos d2
  | distribute =>
    unfold startAngles at ha
    dsimp only at ha
    rw [if_neg (by omega)] at ha
    rw [← Except.ok.inj ha, List.getElem?_map, Option.map_eq_some_iff] at hs
    obtain ⟨i', hi, rfl⟩ := hs
    rw [List.getElem?_range (by rw [← h2]; exact (List.getElem?_eq_some_iff.1 hc).1)] at hi
    cases hi
    show _ = _
    ring
  | other => exact absurd rfl ho

/-- The point is in the direction of the angle. -/
def InDirection (radius : Radius) (p : Pt ℝ) (angle : ℝ) : Prop :=
  ∃ ρ, radius.Within ρ ∧ p.x = ρ * Real.cos angle ∧ p.y = ρ * Real.sin angle

/-- **C145** With `angle_offset="distribute"` and a number of points that is a multiple of
the number of circles, the points are, seen from above, in the `n` equidistant directions
`0, 2π/n, 2·2π/n, …`, one in each: point `j` of circle `i` is in direction `i + j·circles`. -/
theorem C145_distribute (k m : Nat) (hk : 0 < k) (hm : 0 < m) (radius : Radius) (hr : radius.pair.1 ≤ radius.pair.2)
    (dist : Option ℝ) (u : Nat → Nat → ℝ) (hu : ∀ i j, 0 ≤ u i j ∧ u i j < 1) :
    ∃ ls : List (List (Pt ℝ)), concentricalCircles (k * m) k radius dist .distribute u = .ok ls.flatten ∧
      ls.length = k ∧ (∀ c ∈ ls, c.length = m) ∧
      (∀ (i j : Nat) (c : List (Pt ℝ)) (p : Pt ℝ), ls[i]? = some c → c[j]? = some p →
        InDirection radius p ((i + j * k : Nat) * (2 * Real.pi / (k * m : Nat)))) ∧
      ∀ d < k * m, ∃ p ∈ ls.flatten, InDirection radius p (d * (2 * Real.pi / (k * m : Nat))) := by
  have hle : k ≤ k * m := Nat.le_mul_of_pos_right k hm
  obtain ⟨ls, angles, h1, ha, h2, -, -, hsz, h5⟩ :=
    circles_layers (k * m) k hk hle radius hr dist .distribute (by simp) u hu
  have hsize : ∀ c ∈ ls, c.length = m := by
    intro c hc
    have : c.length ∈ layerSizes (k * m) k := by rw [← hsz]; exact List.mem_map_of_mem hc
    unfold layerSizes at this
    rw [Nat.mul_div_cancel_left m hk, Nat.sub_self] at this
    simp at this
    exact this.2
  have hceil : (k * m + k - 1) / k = m := by
    rw [Nat.div_eq_iff hk]
    have : m * k = k * m := Nat.mul_comm _ _
    rw [this]; omega
  rw [layerSizes_head hk, hceil] at ha
  unfold startAngles at ha
  dsimp only at ha
  rw [if_neg (by omega)] at ha
  have hk' : (k : ℝ) ≠ 0 := by exact_mod_cast (show k ≠ 0 by omega)
  have hm' : (m : ℝ) ≠ 0 := by exact_mod_cast (show m ≠ 0 by omega)
  have hdir : ∀ (i j : Nat) (c : List (Pt ℝ)) (p : Pt ℝ), ls[i]? = some c → c[j]? = some p →
      InDirection radius p ((i + j * k : Nat) * (2 * Real.pi / (k * m : Nat))) := by
    intro i j c p hc hp
    obtain ⟨-, start, hs, a2⟩ := h5 i c hc
    rw [← Except.ok.inj ha, List.getElem?_map, Option.map_eq_some_iff] at hs
    obtain ⟨i', hi, rfl⟩ := hs
    rw [List.getElem?_range (by rw [← h2]; exact (List.getElem?_eq_some_iff.1 hc).1)] at hi
    cases hi
    obtain ⟨ρ, r1, r2, r3⟩ := a2 j p hp
    rw [hsize c (List.mem_of_getElem? hc)] at r2 r3
    have he : ((i + j * k : Nat) : ℝ) * (2 * Real.pi / (k * m : Nat)) =
        (i : ℝ) * (2 * Real.pi / (m : ℝ)) / (k : ℝ) + j * (2 * Real.pi / m) := by
      push_cast
      field_simp
    exact ⟨ρ, r1, by rw [he]; exact r2, by rw [he]; exact r3⟩
  refine ⟨ls, h1, h2, hsize, hdir, fun d hd => ?_⟩
  have hi : d % k < ls.length := by rw [h2]; exact Nat.mod_lt d hk
  have hj : d / k < (ls[d % k]).length := by
    rw [hsize _ (List.getElem_mem hi)]
    exact Nat.div_lt_of_lt_mul hd
  refine ⟨(ls[d % k])[d / k], ?_, ?_⟩
  · exact List.mem_flatten.2 ⟨_, List.getElem_mem hi, List.getElem_mem hj⟩
  · have := hdir (d % k) (d / k) _ _ (List.getElem?_eq_getElem hi) (List.getElem?_eq_getElem hj)
    rw [Nat.mul_comm, Nat.mod_add_div] at this
    exact this

/-- **C145** With `angle_offset="same"` and one radius, circles with equally many points
are exactly above each other. -/
theorem C145_same (n k : Nat) (hk : 0 < k) (hn : k ≤ n) (r : ℝ) (dist : Option ℝ) (u : Nat → Nat → ℝ)
    (hu : ∀ i j, 0 ≤ u i j ∧ u i j < 1) :
    ∃ ls : List (List (Pt ℝ)), concentricalCircles n k (.one r) dist .same u = .ok ls.flatten ∧ ls.length = k ∧
      ∀ c ∈ ls, ∀ c' ∈ ls, c.length = c'.length → c.map Pt.xy = c'.map Pt.xy := by
  obtain ⟨ls, h1, h2, h3⟩ := C145_turned n k hk hn (.one r) le_rfl dist .same (by simp) trivial u hu
  have hone : ∀ c ∈ ls, ∀ (j : Nat) (p : Pt ℝ), c[j]? = some p →
      p.xy = (r * Real.cos (j * (2 * Real.pi / c.length)), r * Real.sin (j * (2 * Real.pi / c.length))) := by
    intro c hc j p hp
    obtain ⟨i, hi⟩ := List.mem_iff_getElem?.1 hc
    obtain ⟨start, hs, h4⟩ := h3 i c hi
    obtain ⟨ρ, hρ, r2, r3⟩ := h4 j p hp
    have hs0 : start = 0 := hs
    have : ρ = r := hρ
    rw [hs0, zero_add, this] at r2 r3
    exact Prod.ext r2 r3
  refine ⟨ls, h1, h2, fun c hc c' hc' hl => ?_⟩
  apply List.ext_getElem (by simpa using hl)
  intro j ha hb
  rw [List.length_map] at ha hb
  rw [List.getElem_map, List.getElem_map, hone c hc j _ (List.getElem?_eq_getElem ha),
    hone c' hc' j _ (List.getElem?_eq_getElem hb), hl]

/-! ### Examples -/

/-- Six points on two circles: three on each, in the directions 0°, 120°, 240° and 60°,
180°, 300°. -/
example : ∃ ls : List (List (Pt ℝ)), concentricalCircles 6 2 (.range 1 2) (some 1) .distribute (fun _ _ => 1 / 2) =
      .ok ls.flatten ∧ ls.length = 2 ∧
    ∀ (d : Nat), d < 6 → ∃ p ∈ ls.flatten, InDirection (.range 1 2) p (d * (2 * Real.pi / (6 : Nat))) := by
  obtain ⟨ls, h1, h2, -, -, h3⟩ := C145_distribute 2 3 (by decide) (by decide) (.range 1 2) (by norm_num [Radius.pair])
    (some 1) (fun _ _ => 1 / 2) (fun _ _ => by norm_num)
  exact ⟨ls, h1, h2, h3⟩

/-- Seven points on three circles with "almostSame" meet the hypotheses. -/
example : (3 : Nat) ≤ 7 ∧ AngleOffset.Drawn (.almostSame fun _ => 9 / 10) ∧ (7 + 3 - 1) / 3 = 3 :=
  ⟨by decide, fun _ => by norm_num, by decide⟩

end Verif

/-
Properties C88, C89, C90 of the disc, the sunflower pattern and the cylinder.
-/
import Verif.Lemmas.Fill
import Verif.Lemmas.Points
namespace Verif

/-- The squared distance of two points in the plane. -/
def Pt.distSq (p q : Pt ℝ) : ℝ := (p.x - q.x) ^ 2 + (p.y - q.y) ^ 2

theorem mem_linspace_sym {r : ℝ} {n : Nat} (hn : 2 ≤ n) (x : ℝ) :
    x ∈ linspace (-r) r n ↔ ∃ i : Nat, i < n ∧ x = -r + (i : ℝ) * (2 * r / ((n : ℝ) - 1)) := by
  constructor
  · intro h
    obtain ⟨i, hx⟩ := List.mem_iff_getElem?.1 h
    have hi : i < n := by
      have := (List.getElem?_eq_some_iff.1 hx).1
      rwa [linspace_length] at this
    refine ⟨i, hi, ?_⟩
    rw [linspace_getElem? (-r) r hi hn] at hx
    rw [← Option.some.inj hx]; ring
  · rintro ⟨i, hi, rfl⟩
    refine List.mem_of_getElem? (i := i) ?_
    rw [linspace_getElem? _ _ hi hn]
    congr 1; ring

theorem disc_ok {d r : ℝ} {z : Option ℝ} {l : List (Pt ℝ)} (hd : 0 < d) (hr : 0 < r)
    (h : uniformDisc d r z = .ok l) (p : Pt ℝ) :
    p ∈ l ↔ (p.x ∈ linspace (-r) r ⌊2 * r / d⌋.toNat ∧ p.y ∈ linspace (-r) r ⌊2 * r / d⌋.toNat) ∧
      p.x ^ 2 + p.y ^ 2 ≤ r ^ 2 ∧ p.z = z := by
  unfold uniformDisc at h
  have hq : 0 ≤ 2 * r / d := by positivity
  rw [if_neg hd.ne'] at h
  simp only [if_pos hq, if_neg (not_lt.2 (Int.floor_nonneg.2 hq))] at h
  rw [← Except.ok.inj h]
  simp only [List.mem_map, List.mem_filter, List.mem_flatMap, decide_eq_true_eq, Prod.exists]
  constructor
  · rintro ⟨x, y, ⟨⟨y', hy', x', hx', he⟩, hs⟩, rfl⟩
    obtain ⟨rfl, rfl⟩ := Prod.mk.inj he
    exact ⟨⟨hx', hy'⟩, (Real.sqrt_le_left hr.le).1 hs, rfl⟩
  · rintro ⟨⟨hx, hy⟩, hs, hz⟩
    exact ⟨p.x, p.y, ⟨⟨p.y, hy, p.x, hx, rfl⟩, (Real.sqrt_le_left hr.le).2 hs⟩, by rw [← hz]⟩

/-- **C88** All points lie in the disc, and they are exactly the points in the disc of
the square lattice that starts in the corner (-r, -r) of the surrounding square and ends
in the corner (r, r), with ⌊2r/d⌋ points to a side. -/
theorem C88_lattice_partial (d r : ℝ) (hd : 0 < d) (hr : 0 < r) (z : Option ℝ) :
    ∃ l, uniformDisc d r z = .ok l ∧ (∀ p ∈ l, p.x ^ 2 + p.y ^ 2 ≤ r ^ 2 ∧ p.z = z) ∧
    ∀ n : Nat, (n : ℤ) = ⌊2 * r / d⌋ → 2 ≤ n → ∀ p : Pt ℝ, p ∈ l ↔
      (∃ i j : Nat, i < n ∧ j < n ∧ p.x * ((n : ℝ) - 1) = r * (2 * (i : ℝ) - ((n : ℝ) - 1)) ∧
        p.y * ((n : ℝ) - 1) = r * (2 * (j : ℝ) - ((n : ℝ) - 1))) ∧
      p.x ^ 2 + p.y ^ 2 ≤ r ^ 2 ∧ p.z = z := by
  have hq : 0 ≤ 2 * r / d := by positivity
  have hok : ∃ l, uniformDisc d r z = .ok l := by
    unfold uniformDisc
    rw [if_neg hd.ne']
    simp only [if_pos hq, if_neg (not_lt.2 (Int.floor_nonneg.2 hq))]
    exact ⟨_, rfl⟩
  obtain ⟨l, hl⟩ := hok
  refine ⟨l, hl, fun p hp => ((disc_ok hd hr hl p).1 hp).2, ?_⟩
  intro n hn h2 p
  have hn1 : ((n : ℝ) - 1) ≠ 0 := by rw [sub_ne_zero]; exact_mod_cast (by omega : n ≠ 1)
  have he : ∀ (x : ℝ) (i : Nat), x = -r + (i : ℝ) * (2 * r / ((n : ℝ) - 1)) ↔
      x * ((n : ℝ) - 1) = r * (2 * (i : ℝ) - ((n : ℝ) - 1)) := by
    intro x i
    rw [← mul_left_inj' hn1]
    constructor
    · intro h; rw [h]; field_simp; ring
    · intro h; rw [h]; field_simp; ring
  rw [disc_ok hd hr hl p, ← hn, Int.toNat_natCast, mem_linspace_sym h2, mem_linspace_sym h2]
  constructor
  · rintro ⟨⟨⟨i, hi, hx⟩, j, hj, hy⟩, hs⟩
    exact ⟨⟨i, j, hi, hj, (he _ _).1 hx, (he _ _).1 hy⟩, hs⟩
  · rintro ⟨⟨i, j, hi, hj, hx, hy⟩, hs⟩
    exact ⟨⟨⟨i, hi, (he _ _).2 hx⟩, j, hj, (he _ _).2 hy⟩, hs⟩

theorem linspace_gap {d r : ℝ} (hd : 0 < d) (hr : 0 < r) {x x' : ℝ}
    (hx : x ∈ linspace (-r) r ⌊2 * r / d⌋.toNat) (hx' : x' ∈ linspace (-r) r ⌊2 * r / d⌋.toNat)
    (hne : x ≠ x') : d ^ 2 < (x - x') ^ 2 := by
  obtain ⟨n, hn⟩ : ∃ n, n = ⌊2 * r / d⌋.toNat := ⟨_, rfl⟩
  rw [← hn] at hx hx'
  have hq : 0 ≤ 2 * r / d := by positivity
  have hnle : (n : ℝ) * d ≤ 2 * r := by
    have h1 : ((⌊2 * r / d⌋.toNat : ℤ) : ℝ) ≤ 2 * r / d := by
      rw [Int.toNat_of_nonneg (Int.floor_nonneg.2 hq)]; exact Int.floor_le _
    rw [← hn, le_div_iff₀ hd] at h1
    exact_mod_cast h1
  by_cases h2 : 2 ≤ n
  · obtain ⟨i, hi, rfl⟩ := (mem_linspace_sym h2 _).1 hx
    obtain ⟨j, hj, rfl⟩ := (mem_linspace_sym h2 _).1 hx'
    have hij : i ≠ j := fun h => hne (by rw [h])
    have hn1 : (0 : ℝ) < (n : ℝ) - 1 := by
      have : (2 : ℝ) ≤ n := by exact_mod_cast h2
      linarith
    have hs : d < 2 * r / ((n : ℝ) - 1) := by
      rw [lt_div_iff₀ hn1]; nlinarith
    have h1 : (1 : ℝ) ≤ ((i : ℝ) - j) ^ 2 := by
      have : (1 : ℤ) ≤ ((i : ℤ) - j) ^ 2 := by
        have := Int.one_le_abs (show ((i : ℤ) - j) ≠ 0 by omega)
        rw [← sq_abs]; nlinarith
      exact_mod_cast this
    have he : (-r + (i : ℝ) * (2 * r / ((n : ℝ) - 1)) - (-r + (j : ℝ) * (2 * r / ((n : ℝ) - 1)))) ^ 2
        = ((i : ℝ) - j) ^ 2 * (2 * r / ((n : ℝ) - 1)) ^ 2 := by ring
    rw [he]
    have h3 : d ^ 2 < (2 * r / ((n : ℝ) - 1)) ^ 2 := by nlinarith
    nlinarith [sq_nonneg (2 * r / ((n : ℝ) - 1))]
  · have h01 : n = 0 ∨ n = 1 := by omega
    rcases h01 with h0 | h0
    · subst h0; simp [linspace] at hx
    · subst h0
      simp [linspace] at hx hx'
      exact absurd (hx.trans hx'.symm) hne

/-- **C88** Different points are always further apart than the requested distance. -/
theorem C88_sparse (d r : ℝ) (hd : 0 < d) (hr : 0 < r) (z : Option ℝ) (l : List (Pt ℝ))
    (h : uniformDisc d r z = .ok l) (p : Pt ℝ) (hp : p ∈ l) (q : Pt ℝ) (hq : q ∈ l) (hne : p ≠ q) :
    d ^ 2 < p.distSq q := by
  obtain ⟨⟨hx, hy⟩, -, hz⟩ := (disc_ok hd hr h p).1 hp
  obtain ⟨⟨hx', hy'⟩, -, hz'⟩ := (disc_ok hd hr h q).1 hq
  unfold Pt.distSq
  by_cases h1 : p.x = q.x
  · have h2 : p.y ≠ q.y := by
      intro h2; apply hne
      cases p; cases q; simp_all
    have := linspace_gap hd hr hy hy' h2
    nlinarith [sq_nonneg (p.x - q.x)]
  · have := linspace_gap hd hr hx hx' h1
    nlinarith [sq_nonneg (p.y - q.y)]

/-- A disc of radius 2 with distance 1: the lattice has 4 points to a side, the corner
(-2, -2) is outside, the point (-2/3, 2) outside, the point (2/3, 2/3) inside. -/
example : ∃ l, uniformDisc 1 2 (some 5) = .ok l ∧ (⟨2 / 3, 2 / 3, some 5⟩ : Pt ℝ) ∈ l ∧
    (⟨-2 / 3, 2, some 5⟩ : Pt ℝ) ∉ l ∧ (⟨1, 0, some 5⟩ : Pt ℝ) ∉ l := by
  obtain ⟨l, hl, hin, hm⟩ := C88_lattice_partial 1 2 one_pos two_pos (some 5)
  have hm := hm 4 (by norm_num) (by norm_num)
  refine ⟨l, hl, ?_, fun h => ?_, fun h => ?_⟩
  · rw [hm]
    exact ⟨⟨2, 2, by norm_num, by norm_num, by norm_num, by norm_num⟩, by norm_num, rfl⟩
  · have := (hin _ h).1; norm_num at this
  · obtain ⟨⟨i, j, hi, hj, h1, -⟩, -⟩ := (hm _).1 h
    match i, hi with
    | 0, _ => norm_num at h1
    | 1, _ => norm_num at h1
    | 2, _ => norm_num at h1
    | 3, _ => norm_num at h1

/-- **C88** The points are not spaced by the requested distance: in the disc of radius 2
with distance 1 there are several points, but no two of them are at distance 1. -/
theorem C88_violated : ∃ l, uniformDisc 1 2 none = .ok l ∧ (∃ p ∈ l, ∃ q ∈ l, p ≠ q) ∧
    ∀ p ∈ l, ∀ q ∈ l, p.distSq q ≠ 1 ^ 2 := by
  obtain ⟨l, hl, -, hm⟩ := C88_lattice_partial 1 2 one_pos two_pos none
  have hm := hm 4 (by norm_num) (by norm_num)
  refine ⟨l, hl, ⟨⟨-2 / 3, -2 / 3, none⟩, ?_, ⟨2 / 3, -2 / 3, none⟩, ?_, ?_⟩, ?_⟩
  · rw [hm]
    exact ⟨⟨1, 1, by norm_num, by norm_num, by norm_num, by norm_num⟩, by norm_num, rfl⟩
  · rw [hm]
    exact ⟨⟨2, 1, by norm_num, by norm_num, by norm_num, by norm_num⟩, by norm_num, rfl⟩
  · intro h
    injection h with h1
    norm_num at h1
  · intro p hp q hq
    by_cases hne : p = q
    · subst hne; unfold Pt.distSq; norm_num
    · exact (C88_sparse 1 2 one_pos two_pos none l hl p hp q hq hne).ne'

/-- The squared distance of a point of the plane to the origin. -/
def normSq (p : ℝ × ℝ) : ℝ := p.1 ^ 2 + p.2 ^ 2

/-- **C89** The sunflower pattern has the requested number of points; the squared
distances to the centre grow evenly from point to point, from half a step to the squared
radius (so that all points lie in the disc, the last one on its edge). -/
theorem C89_radii (n : Nat) (radius offset : ℝ) :
    (sunflowerPattern n radius offset).length = n ∧
    ∀ i : Nat, i < n → ∃ p, (sunflowerPattern n radius offset)[i]? = some p ∧
      normSq p = radius ^ 2 * ((2 * (i : ℝ) + 1) / (2 * (n : ℝ) - 1)) ∧ normSq p ≤ radius ^ 2 ∧
      (i + 1 = n → normSq p = radius ^ 2) := by
  refine ⟨by simp [sunflowerPattern], fun i hi => ?_⟩
  have hn : (1 : ℝ) ≤ n := by exact_mod_cast (by omega : 1 ≤ n)
  have hin : (i : ℝ) + 1 ≤ n := by exact_mod_cast hi
  have hi0 : (0 : ℝ) ≤ i := Nat.cast_nonneg i
  have hv : normSq (pol2cart (radius * √((i : ℝ) + 1 - 1 / 2) / √((n : ℝ) - 1 / 2))
      (((i : ℝ) + 1) * 2 * Real.pi / ((√5 + 1) / 2) ^ 2)) =
      radius ^ 2 * ((2 * (i : ℝ) + 1) / (2 * (n : ℝ) - 1)) := by
    unfold normSq pol2cart
    dsimp only
    rw [mul_pow, mul_pow, ← mul_add, Real.cos_sq_add_sin_sq, mul_one, div_pow, mul_pow,
      Real.sq_sqrt (by linarith), Real.sq_sqrt (by linarith)]
    have h1 : (n : ℝ) - 1 / 2 ≠ 0 := by linarith
    have h2 : 2 * (n : ℝ) - 1 ≠ 0 := by linarith
    field_simp
    ring
  refine ⟨_, ?_, hv, ?_, ?_⟩
  · unfold sunflowerPattern
    rw [List.getElem?_map, List.getElem?_range hi]
    rfl
  · rw [hv]
    have h1 : (2 * (i : ℝ) + 1) / (2 * (n : ℝ) - 1) ≤ 1 := by
      rw [div_le_one (by linarith)]; linarith
    nlinarith [sq_nonneg radius]
  · intro he
    have he' : (i : ℝ) + 1 = n := by exact_mod_cast he
    rw [hv, ← he']
    have : 2 * ((i : ℝ) + 1) - 1 = 2 * i + 1 := by ring
    rw [this, div_self (by linarith), mul_one]

theorem countP_range_lt (n m : Nat) (h : m ≤ n) : (List.range n).countP (fun i => decide (i < m)) = m := by
  induction n with
  | zero => simp at h ⊢; omega
  | succ n ih =>
    rw [List.range_succ, List.countP_append]
    by_cases hm : m ≤ n
    · rw [ih hm]; simp; omega
    · have : m = n + 1 := by omega
      subst this
      rw [List.countP_eq_length.2 (by intro a ha; simp at ha ⊢; omega)]
      simp

/-- **C89** The points are spread evenly over the area: the number of points within
every distance ρ of the centre is, up to one half, the fraction (ρ/radius)² of the
number of points less one half. -/
theorem C89_density (n : Nat) (hn : 0 < n) (radius offset ρ : ℝ) (hr : 0 < radius) (hρ : 0 ≤ ρ) (hle : ρ ≤ radius) :
    |(((sunflowerPattern n radius offset).countP fun p => decide (normSq p ≤ ρ ^ 2) : Nat) : ℝ)
      - ((n : ℝ) - 1 / 2) * (ρ / radius) ^ 2| ≤ 1 / 2 := by
  obtain ⟨t, ht⟩ : ∃ t, t = ((n : ℝ) - 1 / 2) * (ρ / radius) ^ 2 := ⟨_, rfl⟩
  have hn1 : (1 : ℝ) ≤ n := by exact_mod_cast hn
  have hq1 : (ρ / radius) ^ 2 ≤ 1 := by
    have h1 : ρ / radius ≤ 1 := (div_le_one hr).2 hle
    have h2 : 0 ≤ ρ / radius := by positivity
    nlinarith
  have ht0 : 0 ≤ t := by rw [ht]; exact mul_nonneg (by linarith) (sq_nonneg _)
  have htn : t ≤ (n : ℝ) - 1 / 2 := by
    rw [ht]; nlinarith [sq_nonneg (ρ / radius)]
  obtain ⟨m, hm⟩ : ∃ m, m = ⌊t + 1 / 2⌋₊ := ⟨_, rfl⟩
  have hm1 : (m : ℝ) ≤ t + 1 / 2 := by rw [hm]; exact Nat.floor_le (by linarith)
  have hm2 : t + 1 / 2 < m + 1 := by rw [hm]; exact Nat.lt_floor_add_one _
  have hmn : m ≤ n := by
    have : (m : ℝ) ≤ n := by linarith
    exact_mod_cast this
  have hcount : (sunflowerPattern n radius offset).countP (fun p => decide (normSq p ≤ ρ ^ 2)) = m := by
    rw [← countP_range_lt n m hmn]
    have hmap : sunflowerPattern n radius offset =
        (List.range n).map fun i => ((sunflowerPattern n radius offset)[i]?).getD (0, 0) := by
      apply List.ext_getElem?
      intro i
      by_cases hi : i < n
      · obtain ⟨p, hp, -⟩ := (C89_radii n radius offset).2 i hi
        rw [List.getElem?_map, List.getElem?_range hi]
        simp [hp]
      · rw [List.getElem?_eq_none (by rw [(C89_radii n radius offset).1]; omega),
          List.getElem?_eq_none (by simp; omega)]
    rw [hmap, List.countP_map]
    apply List.countP_congr
    intro i hi
    rw [List.mem_range] at hi
    obtain ⟨p, hp, hv, -⟩ := (C89_radii n radius offset).2 i hi
    simp only [Function.comp, hp, Option.getD_some, decide_eq_true_eq, hv]
    have hi0 : (0 : ℝ) ≤ i := Nat.cast_nonneg i
    have key : radius ^ 2 * ((2 * (i : ℝ) + 1) / (2 * (n : ℝ) - 1)) ≤ ρ ^ 2 ↔ (i : ℝ) + 1 / 2 ≤ t := by
      rw [ht, div_pow, ← mul_div_assoc, ← mul_div_assoc, div_le_iff₀ (by linarith), le_div_iff₀ (by positivity)]
      constructor <;> intro h <;> nlinarith
    rw [key]
    constructor
    · intro h
      have : (i : ℝ) + 1 ≤ t + 1 / 2 := by linarith
      have : (i : ℝ) < m := by linarith
      exact_mod_cast this
    · intro h
      have : (i : ℝ) + 1 ≤ m := by exact_mod_cast h
      linarith
  rw [hcount, ← ht, abs_le]
  constructor <;> linarith

/-- Ten points in the disc of radius 2: two of them (a quarter of 9.5, rounded) are within
distance 1 of the centre, and the last one is on the edge. -/
example : ((sunflowerPattern 10 2 0).countP fun p => decide (normSq p ≤ 1 ^ 2)) = 2 ∧
    ∃ p, (sunflowerPattern 10 2 0)[9]? = some p ∧ normSq p = 4 := by
  constructor
  · have h := abs_le.1 (C89_density 10 (by norm_num) 2 0 1 two_pos (by norm_num) (by norm_num))
    norm_num at h
    obtain ⟨h1, h2⟩ := h
    have h3 : (1 : ℝ) < ((sunflowerPattern 10 2 0).countP fun p => decide (normSq p ≤ 1) : Nat) := by linarith
    have h4 : ((sunflowerPattern 10 2 0).countP (fun p => decide (normSq p ≤ 1)) : ℝ) < 3 := by linarith
    rw [one_pow]
    have h3 : 1 < (sunflowerPattern 10 2 0).countP fun p => decide (normSq p ≤ 1) := by exact_mod_cast h3
    have h4 : (sunflowerPattern 10 2 0).countP (fun p => decide (normSq p ≤ 1)) < 3 := by exact_mod_cast h4
    omega
  · obtain ⟨p, hp, -, -, h⟩ := (C89_radii 10 2 0).2 9 (by norm_num)
    exact ⟨p, hp, by rw [h rfl]; norm_num⟩

/-- **C89** The argument `offset_angle` has no effect; in particular half a turn does not
rotate the pattern by half a turn. -/
theorem C89_violated : (∀ (n : Nat) (radius a b : ℝ), sunflowerPattern n radius a = sunflowerPattern n radius b) ∧
    ∃ (n : Nat) (radius a : ℝ), sunflowerPattern n radius a ≠
      (sunflowerPattern n radius 0).map fun p =>
        (Real.cos a * p.1 - Real.sin a * p.2, Real.sin a * p.1 + Real.cos a * p.2) := by
  refine ⟨fun _ _ _ _ => rfl, 1, 1, Real.pi, ?_⟩
  obtain ⟨p, hp, -, -, hv⟩ := (C89_radii 1 1 0).2 0 (by norm_num)
  have hv := hv rfl
  have hl : sunflowerPattern 1 1 0 = [p] := by
    have h1 := (C89_radii 1 1 0).1
    match h : sunflowerPattern 1 1 0, h1 with
    | [q], _ => rw [h] at hp; simp at hp; rw [hp]
  show sunflowerPattern 1 1 0 ≠ _
  rw [hl]
  simp only [List.map_cons, List.map_nil, Real.cos_pi, Real.sin_pi]
  intro h
  injection h with h
  have h1 := congrArg Prod.fst h
  have h2 := congrArg Prod.snd h
  simp only at h1 h2
  unfold normSq at hv
  have h3 : p.1 = 0 := by linarith
  have h4 : p.2 = 0 := by linarith
  rw [h3, h4] at hv
  norm_num at hv

theorem cylinder_heights (height : ℝ) :
    ((linspace (-height / 2) (height / 2) 6).drop 1).dropLast =
      [-height / 2 + 1 * (height / 5), -height / 2 + 2 * (height / 5), -height / 2 + 3 * (height / 5),
        -height / 2 + 4 * (height / 5)] := by
  unfold linspace
  have : List.range 6 = [0, 1, 2, 3, 4, 5] := rfl
  rw [this]
  simp only [List.map_cons, List.map_nil, List.drop_succ_cons, List.drop_zero, List.dropLast]
  norm_num
  ring_nf

/-- **C90** All points of the cylinder are inside it, on four layers that divide the
height into five equal parts, with a sunflower pattern of a quarter of the points on
each; a multiple of four points gives the requested number of points. -/
theorem C90_layers_partial (n : Nat) (radius height : ℝ) (v : Nat → ℝ) :
    (n % 4 = 0 → (uniformCylinder n radius height v).length = n) ∧
    ∀ (j i : Nat), j < 4 → i < n / 4 → ∃ p, (uniformCylinder n radius height v)[j * (n / 4) + i]? = some p ∧
      p.z = some (-height / 2 + ((j : ℝ) + 1) * (height / 5)) ∧
      p.x ^ 2 + p.y ^ 2 = radius ^ 2 * ((2 * (i : ℝ) + 1) / (2 * ((n / 4 : Nat) : ℝ) - 1)) ∧
      p.x ^ 2 + p.y ^ 2 ≤ radius ^ 2 ∧ (0 ≤ height → ∀ z, p.z = some z → |z| ≤ height / 2) := by
  have hlen : ∀ j ∈ List.range 4, ((sunflowerPattern (n / 4) radius (v j * 2 * Real.pi)).map fun q =>
      (⟨q.1, q.2, some ((((linspace (-height / 2) (height / 2) 6).drop 1).dropLast).getD j 0)⟩ : Pt ℝ)).length
      = n / 4 := by
    intro j _; rw [List.length_map, (C89_radii _ _ _).1]
  constructor
  · intro h
    unfold uniformCylinder
    rw [length_flatMap_block hlen, List.length_range]; omega
  · intro j i hj hi
    obtain ⟨q, hq, hv, hv2, -⟩ := (C89_radii (n / 4) radius (v j * 2 * Real.pi)).2 i hi
    have hz : (((linspace (-height / 2) (height / 2) 6).drop 1).dropLast).getD j 0 =
        -height / 2 + ((j : ℝ) + 1) * (height / 5) := by
      rw [cylinder_heights]
      match j, hj with
      | 0, _ => simp
      | 1, _ => rw [List.getD_eq_getElem?_getD]; norm_num
      | 2, _ => rw [List.getD_eq_getElem?_getD]; norm_num
      | 3, _ => rw [List.getD_eq_getElem?_getD]; norm_num
    refine ⟨⟨q.1, q.2, some (-height / 2 + ((j : ℝ) + 1) * (height / 5))⟩, ?_, rfl, hv, hv2, ?_⟩
    · unfold uniformCylinder
      rw [flatMap_block hlen j i hi, List.getElem?_range hj]
      simp only [Option.bind_some, List.getElem?_map, hq, Option.map_some]
      rw [hz]
    · intro h0 z hz'
      rw [← Option.some.inj hz']
      have h1 : (j : ℝ) ≤ 3 := by exact_mod_cast (by omega : j ≤ 3)
      have h2 : (0 : ℝ) ≤ j := Nat.cast_nonneg j
      rw [abs_le]
      constructor <;> nlinarith

/-- Eight points in a cylinder of radius 3 and height 10: layers at -3, -1, 1, 3. -/
example (v : Nat → ℝ) : (uniformCylinder 8 3 10 v).length = 8 ∧
    ∃ p, (uniformCylinder 8 3 10 v)[4]? = some p ∧ p.z = some 1 ∧ p.x ^ 2 + p.y ^ 2 = 3 := by
  refine ⟨(C90_layers_partial 8 3 10 v).1 rfl, ?_⟩
  obtain ⟨p, hp, hz, hr, -⟩ := (C90_layers_partial 8 3 10 v).2 2 0 (by norm_num) (by norm_num)
  exact ⟨p, hp, by rw [hz]; norm_num, by rw [hr]; norm_num⟩

/-- **C90** Otherwise points are missing: five points are requested, four returned. -/
theorem C90_violated (radius height : ℝ) (v : Nat → ℝ) :
    ∃ n, (uniformCylinder n radius height v).length ≠ n := by
  refine ⟨5, ?_⟩
  unfold uniformCylinder
  rw [length_flatMap_block (k := 1)]
  · simp
  · intro j _; rw [List.length_map, (C89_radii _ _ _).1]

end Verif

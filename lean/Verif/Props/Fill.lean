/-
Properties C86, C87 of the filled rectangle and the filled cuboid.
-/
import Verif.Lemmas.Fill
namespace Verif

section
variable {F : Type} [Field F] [LinearOrder F]

/-- The grid: for every row `j` and column `i` the point that divides the limits in the
ratios `i : (k-1-i)` and `j : (k-1-j)`. -/
def IsEvenGrid (k : Nat) (x0 y0 x1 y1 : F) (z : Option F) (l : List (Pt F)) : Prop :=
  l.length = k * k ∧ ∀ (i j : Nat), i < k → j < k →
    ∃ p, l[j * k + i]? = some p ∧ p.z = z ∧
      p.x * ((k : F) - 1) = ((k : F) - 1 - (i : F)) * x0 + (i : F) * x1 ∧
      p.y * ((k : F) - 1) = ((k : F) - 1 - (j : F)) * y0 + (j : F) * y1

theorem rectangle_grid [CharZero F] {k : Nat} (hk : 2 ≤ k) (x0 y0 x1 y1 : F) (z : Option F) :
    IsEvenGrid k x0 y0 x1 y1 z
      ((linspace y0 y1 k).flatMap fun y => (linspace x0 x1 k).map fun x => ⟨x, y, z⟩) := by
  have hlen : ∀ y ∈ linspace y0 y1 k,
      ((linspace x0 x1 k).map fun x => (⟨x, y, z⟩ : Pt F)).length = k := by intro y _; simp
  have hk1 : (k : F) - 1 ≠ 0 := by
    rw [sub_ne_zero]; exact_mod_cast (by omega : k ≠ 1)
  refine ⟨by rw [length_flatMap_block hlen, linspace_length], fun i j hi hj => ?_⟩
  refine ⟨⟨x0 + (i : F) * ((x1 - x0) / ((k : F) - 1)), y0 + (j : F) * ((y1 - y0) / ((k : F) - 1)), z⟩,
    ?_, ?_, ?_, ?_⟩
  · rw [flatMap_block hlen j i hi, linspace_getElem? _ _ hj hk]
    simp only [Option.bind_some, List.getElem?_map]
    rw [linspace_getElem? _ _ hi hk]
    rfl
  · rfl
  · field_simp; ring
  · field_simp; ring

/-- **C86** For every square number of points (at least four) the limits are covered by
an even grid that includes the edges; two limits mean a square. -/
theorem C86_grid_partial [CharZero F] (k : Nat) (hk : 2 ≤ k) (z : Option F) :
    (∀ (x0 y0 x1 y1 : F), ∃ l, uniformFilledRectangle (k * k) (.four x0 y0 x1 y1) z = .ok l ∧
      IsEvenGrid k x0 y0 x1 y1 z l) ∧
    (∀ lo hi : F, ∃ l, uniformFilledRectangle (k * k) (.two lo hi) z = .ok l ∧
      IsEvenGrid k lo lo hi hi z l) := by
  have hc : natClose (k ^ 2) (k * k) = true := by
    rw [pow_two]; exact natClose_self _
  constructor
  · intro x0 y0 x1 y1
    refine ⟨_, ?_, rectangle_grid hk x0 y0 x1 y1 z⟩
    unfold uniformFilledRectangle
    simp only [Nat.sqrt_eq, hc]
    rfl
  · intro lo hi
    refine ⟨_, ?_, rectangle_grid hk lo lo hi hi z⟩
    unfold uniformFilledRectangle
    simp only [Nat.sqrt_eq, hc]
    rfl

/-- **C86** A single point is the corner of the lower limits. -/
theorem C86_one_partial (z : Option F) :
    (∀ x0 y0 x1 y1 : F, uniformFilledRectangle 1 (.four x0 y0 x1 y1) z = .ok [⟨x0, y0, z⟩]) ∧
    (∀ lo hi : F, uniformFilledRectangle 1 (.two lo hi) z = .ok [⟨lo, lo, z⟩]) := by
  have hc : natClose 1 1 = true := natClose_self _
  constructor
  · intro x0 y0 x1 y1
    unfold uniformFilledRectangle
    simp [Nat.sqrt_one, hc, linspace]
  · intro lo hi
    unfold uniformFilledRectangle
    simp [Nat.sqrt_one, hc, linspace]

theorem rectangle_length {n : Nat} {lim : Lim F} {z : Option F} {l : List (Pt F)}
    (h : uniformFilledRectangle n lim z = .ok l) :
    natClose (Nat.sqrt n ^ 2) n = true ∧ l.length = Nat.sqrt n ^ 2 := by
  unfold uniformFilledRectangle at h
  dsimp only at h
  by_cases hc : natClose (Nat.sqrt n ^ 2) n = false
  · rw [if_pos hc] at h; exact absurd h (by simp)
  · rw [if_neg hc] at h
    refine ⟨by simpa using hc, ?_⟩
    cases lim with
    | other => exact absurd h (by simp)
    | two lo hi =>
      rw [← Except.ok.inj h, length_flatMap_block (k := Nat.sqrt n) (by intro y _; simp), linspace_length, pow_two]
    | four x0 y0 x1 y1 =>
      rw [← Except.ok.inj h, length_flatMap_block (k := Nat.sqrt n) (by intro y _; simp), linspace_length, pow_two]

/-- **C86** Below 100000 points, exactly the requested number of points is returned, and
every number that is not a square is rejected. -/
theorem C86_count_partial (n : Nat) (hn : n < 100000) (lim : Lim F) (z : Option F) :
    (∀ l, uniformFilledRectangle n lim z = .ok l → l.length = n) ∧
    ((¬ ∃ k, n = k * k) → uniformFilledRectangle n lim z = .error .assertion) := by
  constructor
  · intro l h
    obtain ⟨hc, hl⟩ := rectangle_length h
    rw [hl]; exact (natClose_small hn).1 hc
  · intro hsq
    have hc : ¬ natClose (Nat.sqrt n ^ 2) n = true := fun h =>
      hsq ⟨Nat.sqrt n, by rw [← pow_two]; exact ((natClose_small hn).1 h).symm⟩
    unfold uniformFilledRectangle
    simp [hc]

/-- **C86** A number of points that is not a square can be accepted, with another
number of points returned: 100490 points are requested and 317² = 100489 returned. -/
theorem C86_violated (lo hi : F) (z : Option F) :
    ∃ n l, uniformFilledRectangle n (.two lo hi) z = .ok l ∧ l.length ≠ n := by
  have hs : Nat.sqrt 100490 = 317 := by
    rw [show (100490 : Nat) = 317 * 317 + 1 by norm_num, Nat.sqrt_add_eq _ (by norm_num)]
  have hc : natClose (Nat.sqrt 100490 ^ 2) 100490 = true := by
    rw [hs]; unfold natClose; norm_num
  have hok : ∃ l, uniformFilledRectangle 100490 (.two lo hi) z = .ok l := by
    refine ⟨(linspace lo hi (Nat.sqrt 100490)).flatMap fun y => (linspace lo hi (Nat.sqrt 100490)).map fun x => ⟨x, y, z⟩, ?_⟩
    unfold uniformFilledRectangle
    simp only [hc]
    rfl
  obtain ⟨l, hl⟩ := hok
  refine ⟨100490, l, hl, ?_⟩
  rw [(rectangle_length hl).2, hs]
  norm_num

/-- A concrete case: nine points on the square from 0 to 2. -/
example : (uniformFilledRectangle (F := Rat) 9 (.two 0 2) none).toOption =
    some [⟨0, 0, none⟩, ⟨1, 0, none⟩, ⟨2, 0, none⟩, ⟨0, 1, none⟩, ⟨1, 1, none⟩, ⟨2, 1, none⟩,
      ⟨0, 2, none⟩, ⟨1, 2, none⟩, ⟨2, 2, none⟩] := by decide +kernel

/-- The centre of the `i`-th of `k` equal cells of the interval from `-d/2` to `d/2`. -/
def cellCentre (d : F) (k i : Nat) : F :=
  ((-d / 2 + (i : F) * (d / (k : F))) + (-d / 2 + ((i : F) + 1) * (d / (k : F)))) / 2

theorem cuboid_ok {n m : Nat} {dims : F × F × F} {l : List (Pt F)} (h : uniformFilledCuboid n dims m = .ok l) :
    m ≠ 0 ∧ natClose (Nat.sqrt (n / m) ^ 2 * m) n = true ∧
    l = ((cellCentres dims.2.1 (Nat.sqrt (n / m))).flatMap fun y =>
        (cellCentres dims.1 (Nat.sqrt (n / m))).flatMap fun x =>
          (cellCentres dims.2.2 m).map fun z => ⟨x, y, some z⟩) := by
  unfold uniformFilledCuboid at h
  dsimp only at h
  by_cases hm : m = 0
  · rw [if_pos hm] at h; exact absurd h (by simp)
  · rw [if_neg hm] at h
    by_cases hc : natClose (Nat.sqrt (n / m) ^ 2 * m) n = false
    · rw [if_pos hc] at h; exact absurd h (by simp)
    · rw [if_neg hc] at h
      exact ⟨hm, by simpa using hc, (Except.ok.inj h).symm⟩

theorem cellCentres_getElem? [CharZero F] (d : F) {k i : Nat} (h : i < k) :
    (cellCentres d k)[i]? = some (cellCentre d k i) := by
  rw [cellCentres_eq, List.getElem?_map, List.getElem?_range h]; rfl

theorem cellCentres_length [CharZero F] (d : F) (k : Nat) : (cellCentres d k).length = k := by
  rw [cellCentres_eq]; simp

/-- **C87** For `k · k · m` points the cuboid is divided into `k × k × m` equal cells and
the points are the centres of the cells, each once. -/
theorem C87_cells_partial [CharZero F] (k m : Nat) (hm : 0 < m) (dims : F × F × F) :
    ∃ l, uniformFilledCuboid (k * k * m) dims m = .ok l ∧ l.length = k * k * m ∧
    ∀ (i j h : Nat), i < k → j < k → h < m →
      l[(j * k + i) * m + h]? =
        some ⟨cellCentre dims.1 k i, cellCentre dims.2.1 k j, some (cellCentre dims.2.2 m h)⟩ := by
  have hq : k * k * m / m = k * k := Nat.mul_div_cancel _ hm
  have hc : natClose (k ^ 2 * m) (k * k * m) = true := by
    rw [pow_two]; exact natClose_self _
  have hx : ∀ y x : F, ((cellCentres dims.2.2 m).map fun z => (⟨x, y, some z⟩ : Pt F)).length = m := by
    intro y x; rw [List.length_map, cellCentres_length]
  have hxy : ∀ y : F, ((cellCentres dims.1 k).flatMap fun x =>
      (cellCentres dims.2.2 m).map fun z => (⟨x, y, some z⟩ : Pt F)).length = k * m := by
    intro y; rw [length_flatMap_block fun x _ => hx y x, cellCentres_length]
  refine ⟨(cellCentres dims.2.1 k).flatMap fun y =>
        (cellCentres dims.1 k).flatMap fun x =>
          (cellCentres dims.2.2 m).map fun z => ⟨x, y, some z⟩, ?_, ?_, ?_⟩
  · unfold uniformFilledCuboid
    simp only [hq, Nat.sqrt_eq, hc, if_neg (by omega : ¬ m = 0)]
    rfl
  · rw [length_flatMap_block fun y _ => hxy y, cellCentres_length]; ring
  · intro i j h hi hj hh
    rw [show (j * k + i) * m + h = j * (k * m) + (i * m + h) by ring,
      flatMap_block (fun y _ => hxy y) j (i * m + h) (by nlinarith), cellCentres_getElem? _ hj]
    simp only [Option.bind_some]
    rw [flatMap_block (fun x _ => hx _ x) i h hh, cellCentres_getElem? _ hi]
    simp only [Option.bind_some, List.getElem?_map]
    rw [cellCentres_getElem? _ hh]
    rfl

/-- **C87** Below 100000 points exactly the requested number of points is returned, and
numbers that are not a square times the number of layers are rejected. -/
theorem C87_count_partial [CharZero F] (n m : Nat) (hn : n < 100000) (hm : 0 < m) (dims : F × F × F) :
    (∀ l, uniformFilledCuboid n dims m = .ok l → l.length = n) ∧
    ((¬ ∃ k, n = k * k * m) → uniformFilledCuboid n dims m = .error .assertion) := by
  constructor
  · intro l h
    obtain ⟨-, hc, hl⟩ := cuboid_ok h
    have := (natClose_small hn).1 hc
    rw [hl, length_flatMap_block (k := Nat.sqrt (n / m) * m), cellCentres_length]
    · rw [← Nat.mul_assoc, ← pow_two]; exact this
    · intro y _
      rw [length_flatMap_block (k := m), cellCentres_length]
      intro x _; rw [List.length_map, cellCentres_length]
  · intro hsq
    have hc : ¬ natClose (Nat.sqrt (n / m) ^ 2 * m) n = true := fun h =>
      hsq ⟨Nat.sqrt (n / m), by rw [← pow_two]; exact ((natClose_small hn).1 h).symm⟩
    unfold uniformFilledCuboid
    simp [hc, Nat.ne_of_gt hm]

/-- **C87** A number of points can be accepted with another number returned: 100490
points in one layer. -/
theorem C87_violated [CharZero F] (dims : F × F × F) :
    ∃ n l, uniformFilledCuboid n dims 1 = .ok l ∧ l.length ≠ n := by
  have hs : Nat.sqrt (100490 / 1) = 317 := by
    rw [show (100490 / 1 : Nat) = 317 * 317 + 1 by norm_num, Nat.sqrt_add_eq _ (by norm_num)]
  have hc : natClose (Nat.sqrt (100490 / 1) ^ 2 * 1) 100490 = true := by
    rw [hs]; unfold natClose; norm_num
  refine ⟨100490, _, by unfold uniformFilledCuboid; simp only [hc]; rfl, ?_⟩
  rw [hs, length_flatMap_block (k := 317), cellCentres_length]
  · norm_num
  · intro y _
    rw [length_flatMap_block (k := 1), cellCentres_length]
    intro x _; rw [List.length_map, cellCentres_length]

/-- A concrete case: eight points in a cube of side length 4, in two layers. -/
example : (uniformFilledCuboid (F := Rat) 8 (4, 4, 4) 2).toOption =
    some [⟨-1, -1, some (-1)⟩, ⟨-1, -1, some 1⟩, ⟨1, -1, some (-1)⟩, ⟨1, -1, some 1⟩,
      ⟨-1, 1, some (-1)⟩, ⟨-1, 1, some 1⟩, ⟨1, 1, some (-1)⟩, ⟨1, 1, some 1⟩] := by decide +kernel

end
end Verif

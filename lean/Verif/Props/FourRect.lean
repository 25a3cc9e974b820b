/-
C139: points on four squares around an area.
-/
import Verif.Model.FourRect
import Verif.Props.Rectangle
import Mathlib.Tactic.Positivity
namespace Verif

section
variable {F : Type} [Field F] [LinearOrder F] [IsStrictOrderedRing F]

/-- `q` is `p` moved by `off` at a right angle to a side of the square of side length `side` on
which `p` is, away from the centre. -/
def MovedOut (side off : F) (p q : F × F) : Prop :=
  (p.1 = side / 2 ∧ q = (p.1 + off, p.2)) ∨ (p.1 = -(side / 2) ∧ q = (p.1 - off, p.2)) ∨
  (p.2 = side / 2 ∧ q = (p.1, p.2 + off)) ∨ (p.2 = -(side / 2) ∧ q = (p.1, p.2 - off))

/-- Points of a square that are not exactly in a corner are at least `d` away from it. -/
def Clear (side d : F) (p : F × F) : Prop :=
  OnBoundary side side p ∧ (|p.1| = side / 2 ∨ |p.1| + d ≤ side / 2)

theorem isClose_same (a : F) : isClose a a = true := by
  unfold isClose
  rw [sub_self, abs_zero, decide_eq_true_iff]
  positivity

theorem pushOutwards_ok {side off d : F} (hside : 0 < side) (htol : 1 / 10 ^ 8 + 1 / 10 ^ 5 * (side / 2) < d)
    (hd : d < side) {p : Pt F} (hp : Clear side d p.xy) :
    ∃ q, pushOutwards side off p = .ok q ∧ q.z = p.z ∧ MovedOut side off p.xy q.xy := by
  obtain ⟨⟨h1, h2, h3⟩, h4⟩ := hp
  have e1 : |side / 2| = side / 2 := abs_of_pos (by positivity)
  have e2 : |-side / 2| = side / 2 := by rw [neg_div, abs_neg, e1]
  have hnot : ∀ x y : F, d ≤ |x - y| → |y| = side / 2 → isClose x y = false := by
    intro x y h hy
    unfold isClose
    rw [hy, decide_eq_false_iff_not]
    exact not_le.2 (lt_of_lt_of_le htol h)
  simp only [Pt.xy] at h1 h2 h3 h4
  unfold pushOutwards
  rcases h4 with hx | hx
  · rcases eq_or_eq_neg_of_abs_eq hx with hx | hx
    · rw [hx, if_pos (isClose_same _)]
      exact ⟨_, rfl, rfl, .inl ⟨hx, by simp [Pt.xy, hx]⟩⟩
    · rw [hx, if_neg (by
        rw [hnot _ _ _ e1]
        · decide
        · rw [← abs_neg, show -(-(side / 2) - side / 2) = side by ring, abs_of_pos hside]
          exact hd.le), if_pos (by rw [neg_div]; exact isClose_same _)]
      exact ⟨_, rfl, rfl, .inr (.inl ⟨hx, by simp [Pt.xy, hx]⟩)⟩
  · have hpos : 0 < d := lt_trans (by positivity) htol
    have hx' := abs_lt.1 (show |p.x| < side / 2 by linarith)
    have hy : |p.y| = side / 2 := by
      rcases h3 with h | h
      · exact absurd h (by linarith [hx, hpos] : |p.x| < side / 2).ne
      · exact h
    have hxx := abs_le.1 (show |p.x| ≤ side / 2 - d by linarith)
    have n1 : isClose p.x (side / 2) = false := by
      refine hnot _ _ ?_ e1
      rw [← abs_neg, abs_of_nonneg (by linarith)]
      linarith
    have n2 : isClose p.x (-side / 2) = false := by
      refine hnot _ _ ?_ e2
      rw [abs_of_nonneg (by rw [neg_div]; linarith), neg_div]
      linarith
    rw [if_neg (by rw [n1]; decide), if_neg (by rw [n2]; decide)]
    rcases eq_or_eq_neg_of_abs_eq hy with hy | hy
    · rw [hy, if_pos (isClose_same _)]
      exact ⟨_, rfl, rfl, .inr (.inr (.inl ⟨hy, by simp [Pt.xy, hy]⟩))⟩
    · rw [hy, if_neg (by
        rw [hnot _ _ _ e1]
        · decide
        · rw [← abs_neg, show -(-(side / 2) - side / 2) = side by ring, abs_of_pos hside]
          exact hd.le), if_pos (by rw [neg_div]; exact isClose_same _)]
      exact ⟨_, rfl, rfl, .inr (.inr (.inr ⟨hy, by simp [Pt.xy, hy]⟩))⟩

theorem fourRectLoop_ok {side off d zl zh : F} (hside : 0 < side)
    (htol : 1 / 10 ^ 8 + 1 / 10 ^ 5 * (side / 2) < d) (hd : d < side) :
    ∀ (l : List (Pt F)) (i : Nat), (∀ p ∈ l, Clear side d p.xy) →
    ∃ r, fourRectLoop side off zl zh i l = .ok r ∧ r.length = l.length ∧
      ∀ (j : Nat) (p q : Pt F), l[j]? = some p → r[j]? = some q →
        q.z = some (if (i + j) % 4 = 2 ∨ (i + j) % 4 = 3 then zh else zl) ∧
        ((i + j) % 2 = 0 → q.xy = p.xy) ∧ ((i + j) % 2 = 1 → MovedOut side off p.xy q.xy) := by
  intro l
  induction l with
  | nil => exact fun i _ => ⟨[], rfl, rfl, fun j p q h => by simp at h⟩
  | cons p l ih =>
    intro i hl
    obtain ⟨r, h1, h2, h3⟩ := ih (i + 1) fun q hq => hl q (List.mem_cons_of_mem _ hq)
    have hhead : ∃ q : Pt F, (if i % 2 = 1 then
          pushOutwards side off { p with z := some (if i % 4 = 2 ∨ i % 4 = 3 then zh else zl) }
        else .ok { p with z := some (if i % 4 = 2 ∨ i % 4 = 3 then zh else zl) }) = .ok q ∧
        q.z = some (if i % 4 = 2 ∨ i % 4 = 3 then zh else zl) ∧
        (i % 2 = 0 → q.xy = p.xy) ∧ (i % 2 = 1 → MovedOut side off p.xy q.xy) := by
      by_cases hi : i % 2 = 1
      · obtain ⟨q, e1, e2, e3⟩ := pushOutwards_ok (off := off) hside htol hd
          (p := { p with z := some (if i % 4 = 2 ∨ i % 4 = 3 then zh else zl) }) (hl p List.mem_cons_self)
        rw [if_pos hi]
        exact ⟨q, e1, e2, fun h => by omega, fun _ => e3⟩
      · rw [if_neg hi]
        exact ⟨_, rfl, rfl, fun _ => rfl, fun h => absurd h hi⟩
    obtain ⟨q, q1, q2, q3⟩ := hhead
    refine ⟨q :: r, ?_, by simp [h2], ?_⟩
    · unfold fourRectLoop
      dsimp only
      rw [q1, h1]
    · intro j p' q' hp hq
      cases j with
      | zero =>
        simp only [List.getElem?_cons_zero, Option.some.injEq] at hp hq
        subst hp hq
        exact ⟨q2, q3⟩
      | succ j =>
        simp only [List.getElem?_cons_succ] at hp hq
        have := h3 j p' q' hp hq
        rw [show i + 1 + j = i + (j + 1) by omega] at this
        exact this

/-- A point of the square at a multiple of `side / n` along its perimeter is in a corner or at least
`side / n` away from it. -/
theorem perimeterPoint_clear {side : F} (hside : 0 < side) {n m : Nat} (hn : 0 < n) (hm : m < 4 * n) :
    Clear side (side / n) (perimeterPoint side side (m * side / n)) := by
  have hn' : (0 : F) < n := by exact_mod_cast hn
  have hmul : ∀ k l : Nat, k < l → (k : F) * side / n + side / n ≤ (l : F) * side / n := by
    intro k l h
    rw [← add_div, div_le_div_iff_of_pos_right hn']
    have : (k : F) + 1 ≤ l := by exact_mod_cast h
    nlinarith
  have hcorner : ∀ k : Nat, ((k * n : Nat) : F) * side / n = k * side := by
    intro k
    push_cast
    field_simp
  have h0 : 0 ≤ (m : F) * side / n := by positivity
  have h4 : (m : F) * side / n ≤ 4 * side := by
    have := hmul m (4 * n) hm
    rw [hcorner] at this
    have hp : 0 < side / n := by positivity
    push_cast at this
    linarith
  refine ⟨perimeterPoint_boundary side side _ hside hside h0 (by linarith), ?_⟩
  have hp : 0 < side / n := by positivity
  have key : ∀ k : Nat, m < k * n ∨ m = k * n ∨ k * n < m := fun k => by omega
  have below : ∀ k : Nat, m < k * n → (m : F) * side / n + side / n ≤ k * side := fun k h => by
    have := hmul _ _ h
    rwa [hcorner] at this
  have above : ∀ k : Nat, k * n < m → (k : F) * side + side / n ≤ m * side / n := fun k h => by
    have := hmul _ _ h
    rwa [hcorner] at this
  have here : ∀ k : Nat, m = k * n → (m : F) * side / n = k * side := fun k h => by
    rw [h, hcorner]
  have cs : |side / 2| = side / 2 := abs_of_pos (by positivity)
  unfold perimeterPoint
  generalize (m : F) * side / n = s at *
  split
  · rename_i h
    rcases key 0 with h' | h' | h'
    · omega
    · left
      have := here 0 h'
      push_cast at this
      rw [this, zero_mul, zero_sub, abs_neg, cs]
    · rcases key 1 with h'' | h'' | h''
      · right
        have a1 := above 0 h'
        have a2 := below 1 h''
        push_cast at a1 a2
        dsimp only
        have : |s - side / 2| ≤ side / 2 - side / n := abs_le.2 ⟨by linarith, by linarith⟩
        linarith
      · left
        have := here 1 h''
        push_cast at this
        dsimp only
        rw [this, show 1 * side - side / 2 = side / 2 by ring, cs]
      · have := above 1 h''
        push_cast at this
        linarith
  · split
    · left
      exact cs
    · split
      · rename_i h1 h2 h3
        rcases key 2 with h' | h' | h'
        · have := below 2 h'
          push_cast at this
          linarith
        · have := here 2 h'
          push_cast at this
          linarith
        · rcases key 3 with h'' | h'' | h''
          · right
            have a1 := above 2 h'
            have a2 := below 3 h''
            push_cast at a1 a2
            dsimp only
            have : |side / 2 - (s - (side + side))| ≤ side / 2 - side / n :=
              abs_le.2 ⟨by linarith, by linarith⟩
            linarith
          · left
            have := here 3 h''
            push_cast at this
            dsimp only
            rw [this, show side / 2 - (3 * side - (side + side)) = -(side / 2) by ring, abs_neg, cs]
          · have := above 3 h''
            push_cast at this
            linarith
      · left
        dsimp only
        rw [abs_neg, cs]

/-- **C139** `num_points` points, if neighbouring points are further apart than the tolerance of
`np.isclose`: taken in pairs they are alternately at the lower and the upper height; the first of
each pair is on the square of the given side length, the second is moved outwards from it by the offset,
on the square that is larger by the offset on every side.  Seen from above and before moving, the points
are evenly spaced along the square. -/
theorem C139_four_rectangles {n : Nat} (hn : 2 ≤ n) {side off zl zh : F} (hside : 0 < side) (hoff : 0 ≤ off)
    (htol : 1 / 10 ^ 8 + 1 / 10 ^ 5 * (side / 2) < side / n) :
    ∃ l : List (F × F), ∃ r : List (Pt F),
      l.Perm ((List.range n).map fun (i : Nat) => perimeterPoint side side ((i + 1 / 2) * (4 * side / n))) ∧
      fourRectangles n side off zl zh true = .ok r ∧ r.length = n ∧
      ∀ j < n, ∃ p q, l[j]? = some p ∧ r[j]? = some q ∧ q.z = some (if j / 2 % 2 = 0 then zl else zh) ∧
        OnBoundary side side p ∧ (j % 2 = 0 → q.xy = p) ∧
        (j % 2 = 1 → MovedOut side off p q.xy ∧ OnBoundary (side + 2 * off) (side + 2 * off) q.xy) := by
  have hn' : (0 : F) < n := by exact_mod_cast (by omega : 0 < n)
  obtain ⟨l, h1, h2, _, h4⟩ := C66_equidistant_partial n side side (1 / 2 : F) none hside hside
    (by norm_num) (by norm_num)
  have hpos : ∀ i : Nat, ((i : F) + 1 / 2) * (2 * (side + side)) / n = ((4 * i + 2 : Nat) : F) * side / n := by
    intro i
    push_cast
    ring
  have hclear : ∀ p ∈ l, Clear side (side / n) p.xy := by
    intro p hp
    obtain ⟨i, hi, e⟩ := List.mem_map.1 (h4.subset (List.mem_map_of_mem (f := Pt.xy) hp))
    rw [← e, hpos]
    have := List.mem_range.1 hi
    exact perimeterPoint_clear hside (by omega) (by omega)
  have hd : side / n < side := by
    have : (2 : F) ≤ n := by exact_mod_cast hn
    rw [div_lt_iff₀ hn']
    nlinarith
  obtain ⟨r, r1, r2, r3⟩ := fourRectLoop_ok (off := off) (zl := zl) (zh := zh) hside htol hd l 0 hclear
  refine ⟨l.map Pt.xy, r, ?_, ?_, by omega, ?_⟩
  · refine h4.trans (List.Perm.of_eq (List.map_congr_left fun i _ => ?_))
    refine congrArg (perimeterPoint side side) ?_
    ring
  · unfold fourRectangles
    rw [if_neg (by decide)]
    simp only [h1, bind, Except.bind]
    rw [if_neg (by omega), r1]
  · intro j hj
    have hl : l[j]? = some l[j] := List.getElem?_eq_getElem (by omega)
    have hr : r[j]? = some r[j] := List.getElem?_eq_getElem (by omega)
    obtain ⟨z1, z2, z3⟩ := r3 j _ _ hl hr
    rw [Nat.zero_add] at z1 z2 z3
    obtain ⟨hb, _⟩ := hclear l[j] (List.getElem_mem _)
    refine ⟨_, _, by rw [List.getElem?_map, hl]; rfl, hr, ?_, hb, z2, fun h => ⟨z3 h, ?_⟩⟩
    · rw [z1]
      by_cases h : j / 2 % 2 = 0
      · rw [if_pos h, if_neg (by omega)]
      · rw [if_neg h, if_pos (by omega)]
    · obtain ⟨b1, b2, _⟩ := hb
      have e : (side + 2 * off) / 2 = side / 2 + off := by ring
      have hge : 0 ≤ side / 2 + off := by positivity
      rcases z3 h with ⟨hp, hq⟩ | ⟨hp, hq⟩ | ⟨hp, hq⟩ | ⟨hp, hq⟩ <;> rw [hq] <;> unfold OnBoundary <;>
        dsimp only <;> rw [e, hp]
      · exact ⟨(abs_of_nonneg hge).le, by linarith, .inl (abs_of_nonneg hge)⟩
      · rw [show -(side / 2) - off = -(side / 2 + off) by ring, abs_neg]
        exact ⟨(abs_of_nonneg hge).le, by linarith, .inl (abs_of_nonneg hge)⟩
      · exact ⟨by linarith, (abs_of_nonneg hge).le, .inr (abs_of_nonneg hge)⟩
      · rw [show -(side / 2) - off = -(side / 2 + off) by ring, abs_neg]
        exact ⟨by linarith, (abs_of_nonneg hge).le, .inr (abs_of_nonneg hge)⟩

end

/-- C139: eight points; numbers 1, 3, 5, 7 are moved outwards, numbers 2, 3, 6, 7 are higher. -/
example : (fourRectangles 8 (4 : ℚ) 1 0 5 true).toOption.map (fun r => r.map fun p => (p.x, p.y, p.z)) = some
    [(-1, 2, some 0), (1, 3, some 0), (2, 1, some 5), (3, -1, some 5), (-1, -2, some 0), (1, -3, some 0),
     (-2, -1, some 5), (-3, 1, some 5)] ∧
    (1 : ℚ) / 10 ^ 8 + 1 / 10 ^ 5 * (4 / 2) < 4 / (8 : Nat) := by
  constructor
  · decide +kernel
  · norm_num

end Verif

/-
Lemmas about the points on the perimeter of a rectangle.
-/
import Verif.Spec.Points
import Mathlib.Tactic.Linarith
import Mathlib.Tactic.Ring
import Mathlib.Tactic.FieldSimp
import Mathlib.Tactic.Positivity
import Mathlib.Algebra.Order.Ring.Abs
namespace Verif

theorem exists_ok_of {α : Type} {e : Except PyErr α} {P : α → Prop} [∀ l, Decidable (P l)]
    (h : (match e with | .ok l => decide (P l) | .error _ => false) = true) : ∃ l, e = .ok l ∧ P l := by
  cases e with
  | error x => exact absurd h (by simp)
  | ok l => exact ⟨l, rfl, of_decide_eq_true h⟩

section
variable {F : Type} [Field F] [LinearOrder F] [IsStrictOrderedRing F]

theorem filter_split {α : Type} (f : α → F) (c : F) : ∀ (L : List α), L.Pairwise (fun x y => f x ≤ f y) →
    L.filter (fun x => decide (f x < c)) ++ L.filter (fun x => decide (c ≤ f x)) = L
  | [], _ => rfl
  | x :: xs, h => by
    obtain ⟨h1, h2⟩ := List.pairwise_cons.1 h
    have ih := filter_split f c xs h2
    by_cases hx : f x < c
    · rw [List.filter_cons_of_pos (by simpa using hx), List.filter_cons_of_neg (by simpa using hx), List.cons_append, ih]
    · have hx' : c ≤ f x := not_lt.1 hx
      rw [List.filter_cons_of_neg (by simpa using hx'), List.filter_cons_of_pos (by simpa using hx')]
      have e : xs.filter (fun x => decide (f x < c)) = [] := by
        rw [List.filter_eq_nil_iff]
        intro y hy
        simpa using le_trans hx' (h1 y hy)
      rw [e] at ih ⊢
      rw [List.nil_append] at ih ⊢
      rw [ih]

theorem filter_four {α : Type} (f : α → F) (b1 b2 b3 b4 : F) (h12 : b1 ≤ b2) (h23 : b2 ≤ b3) (L : List α)
    (hs : L.Pairwise (fun x y => f x ≤ f y)) (h0 : ∀ x ∈ L, 0 ≤ f x) (h4 : ∀ x ∈ L, f x < b4) :
    L.filter (fun x => decide (0 ≤ f x) && decide (f x < b1)) ++
    L.filter (fun x => decide (b1 ≤ f x) && decide (f x < b2)) ++
    L.filter (fun x => decide (b2 ≤ f x) && decide (f x < b3)) ++
    L.filter (fun x => decide (b3 ≤ f x) && decide (f x < b4)) = L := by
  have e3 := filter_split f b3 L hs
  have s3 : (L.filter (fun x => decide (f x < b3))).Pairwise (fun x y => f x ≤ f y) := hs.sublist List.filter_sublist
  have e2 := filter_split f b2 _ s3
  have s2 : ((L.filter (fun x => decide (f x < b3))).filter (fun x => decide (f x < b2))).Pairwise
    (fun x y => f x ≤ f y) := s3.sublist List.filter_sublist
  have e1 := filter_split f b1 _ s2
  simp only [List.filter_filter] at e1 e2
  conv_rhs => rw [← e3, ← e2, ← e1]
  congr 1
  · congr 1
    · congr 1
      · apply List.filter_congr
        intro x hx
        have := h0 x hx
        by_cases h : f x < b1
        · have h2 : f x < b2 := lt_of_lt_of_le h h12
          have h3 : f x < b3 := lt_of_lt_of_le h2 h23
          simp [*]
        · simp [h]
      · apply List.filter_congr
        intro x hx
        by_cases h : f x < b2
        · have h3 : f x < b3 := lt_of_lt_of_le h h23
          simp [*]
        · simp [h]
  · apply List.filter_congr
    intro x hx
    have := h4 x hx
    simp [*]

/-- Position `i` along the perimeter. -/
def circPos (n : Nat) (a b offset : F) (i : Nat) : F := ((i : F) + offset) * (2 * (a + b)) / (n : F)

theorem circPos_eq (n : Nat) (a b offset : F) (i : Nat) :
    (i : F) * (2 * (a + b) / (n : F)) + offset * (2 * (a + b) / (n : F)) = circPos n a b offset i := by
  unfold circPos; ring

theorem circList_eq (n : Nat) (a b offset : F) :
    (List.range n).zip (circPositions n a b offset) = (List.range n).map fun i => (i, circPos n a b offset i) := by
  unfold circPositions
  simp only [circPos_eq]
  conv_lhs => arg 1; rw [← List.map_id (List.range n)]
  rw [List.zip_map']; rfl

theorem circPos_mono (n : Nat) (a b offset : F) (ha : 0 < a) (hb : 0 < b) {i j : Nat} (h : i ≤ j) :
    circPos n a b offset i ≤ circPos n a b offset j := by
  unfold circPos
  have : (i : F) ≤ (j : F) := by exact_mod_cast h
  gcongr

theorem circPos_strict (n : Nat) (hn : 0 < n) (a b offset : F) (ha : 0 < a) (hb : 0 < b) {i j : Nat} (h : i < j) :
    circPos n a b offset i < circPos n a b offset j := by
  unfold circPos
  have : (i : F) < (j : F) := by exact_mod_cast h
  have hn' : (0 : F) < (n : F) := by exact_mod_cast hn
  gcongr

theorem circPos_nonneg (n : Nat) (a b offset : F) (ha : 0 < a) (hb : 0 < b) (h0 : 0 ≤ offset) (i : Nat) :
    0 ≤ circPos n a b offset i := by
  unfold circPos; positivity

theorem circPos_lt (n : Nat) (a b offset : F) (ha : 0 < a) (hb : 0 < b) {i : Nat} (h : (i : F) + offset < (n : F)) (hn : 0 < n) :
    circPos n a b offset i < 2 * (a + b) := by
  have hn' : (0 : F) < (n : F) := by exact_mod_cast hn
  unfold circPos
  rw [div_lt_iff₀ hn']
  have : 0 < 2 * (a + b) := by positivity
  nlinarith

theorem circList_sorted (n m : Nat) (a b offset : F) (ha : 0 < a) (hb : 0 < b) :
    ((List.range m).map fun i => (i, circPos n a b offset i)).Pairwise (fun x y => x.2 ≤ y.2) := by
  rw [List.pairwise_map]
  exact List.Pairwise.imp (fun h => circPos_mono n a b offset ha hb (le_of_lt h)) List.pairwise_lt_range

/-- What is returned for one position. -/
def placed (a b ea eb : F) (p : Nat × F) : F × F := perimeterPointFar a b ea eb p.2 (decide (p.1 % 2 = 1))

theorem side0_eq (a b ea eb : F) (z : Option F) (i : Nat) (s : F) (hs : s < a) :
    placed a b ea eb (i, s) = Pt.xy (⟨s - 0 - a / 2, b / 2 + (if i % 2 = 1 then eb / 2 else 0), z⟩ : Pt F) := by
  unfold placed perimeterPointFar perimeterPoint Pt.xy
  by_cases h : i % 2 = 1
  · simp [h, hs, hs.le]
  · simp [h, hs.le]

theorem side1_eq (a b ea eb : F) (z : Option F) (i : Nat) (s : F) (h1 : a ≤ s) (h2 : s < a + b) :
    placed a b ea eb (i, s) = Pt.xy (⟨a / 2 + (if i % 2 = 1 then ea / 2 else 0), -(s - a - b / 2), z⟩ : Pt F) := by
  unfold placed perimeterPointFar perimeterPoint Pt.xy
  rcases h1.eq_or_lt with rfl | h1'
  · by_cases h : i % 2 = 1
    · simp [h, h2, sub_half]
    · simp [h, sub_half]
  · by_cases h : i % 2 = 1
    · simp [h, h2, h2.le, not_le.2 h1', not_lt.2 h1] <;> first | (constructor <;> ring) | ring
    · simp [h, h2.le, not_le.2 h1'] <;> first | (constructor <;> ring) | ring

theorem side2_eq (a b ea eb : F) (z : Option F) (i : Nat) (s : F) (hb : 0 < b) (h1 : a + b ≤ s) (h2 : s < a + b + a) :
    placed a b ea eb (i, s) = Pt.xy (⟨-(s - (a + b) - a / 2), -b / 2 - (if i % 2 = 1 then eb / 2 else 0), z⟩ : Pt F) := by
  have h0 : a < s := by linarith
  have h2' : s < 2 * a + b := by linarith
  unfold placed perimeterPointFar perimeterPoint Pt.xy
  rcases h1.eq_or_lt with rfl | h1'
  · by_cases h : i % 2 = 1
    · simp [h, h2', not_le.2 h0, not_lt.2 h0.le] <;> first | (constructor <;> ring) | ring
    · simp [h, not_le.2 h0] <;> first | (constructor <;> ring) | ring
  · by_cases h : i % 2 = 1
    · simp [h, h2', h2'.le, not_le.2 h0, not_lt.2 h0.le, not_le.2 h1', not_lt.2 h1] <;> first | (constructor <;> ring) | ring
    · simp [h, h2'.le, not_le.2 h0, not_le.2 h1'] <;> first | (constructor <;> ring) | ring

theorem side3_eq (a b ea eb : F) (z : Option F) (i : Nat) (s : F) (ha : 0 < a) (hb : 0 < b) (h1 : a + b + a ≤ s) :
    placed a b ea eb (i, s) = Pt.xy (⟨-a / 2 - (if i % 2 = 1 then ea / 2 else 0), s - (a + b + a) - b / 2, z⟩ : Pt F) := by
  have h0 : a < s := by linarith
  have h0' : a + b < s := by linarith
  have h1' : 2 * a + b ≤ s := by linarith
  unfold placed perimeterPointFar perimeterPoint Pt.xy
  rcases h1'.eq_or_lt with e | h1''
  · subst e
    by_cases h : i % 2 = 1
    · simp [h, not_le.2 h0, not_lt.2 h0.le, not_le.2 h0', not_lt.2 h0'.le] <;> first | (constructor <;> ring) | ring
    · simp [h, not_le.2 h0, not_le.2 h0'] <;> first | (constructor <;> ring) | ring
  · by_cases h : i % 2 = 1
    · simp [h, not_le.2 h0, not_lt.2 h0.le, not_le.2 h0', not_lt.2 h0'.le, not_le.2 h1'', not_lt.2 h1'] <;> first | (constructor <;> ring) | ring
    · simp [h, not_le.2 h0, not_le.2 h0', not_le.2 h1''] <;> first | (constructor <;> ring) | ring

/-- The positions on a side. -/
def sideOf (n m : Nat) (a b offset lo hi : F) : List (Nat × F) :=
  ((List.range m).map fun i => (i, circPos n a b offset i)).filter fun p => decide (lo ≤ p.2) && decide (p.2 < hi)

theorem onSide_eq (n : Nat) (a b offset lo hi : F) : onSide n a b offset lo hi = sideOf n n a b offset lo hi := by
  unfold onSide sideOf; rw [circList_eq]

theorem sides_append (n m : Nat) (a b offset : F) (ha : 0 < a) (hb : 0 < b) (h0 : 0 ≤ offset)
    (h1 : ∀ i < m, circPos n a b offset i < a + b + a + b) :
    sideOf n m a b offset 0 a ++ sideOf n m a b offset a (a + b) ++ sideOf n m a b offset (a + b) (a + b + a) ++
      sideOf n m a b offset (a + b + a) (a + b + a + b) = (List.range m).map fun i => (i, circPos n a b offset i) := by
  apply filter_four (fun p : Nat × F => p.2)
  · linarith
  · linarith
  · exact circList_sorted n m a b offset ha hb
  · intro x hx
    obtain ⟨i, -, rfl⟩ := List.mem_map.1 hx
    exact circPos_nonneg n a b offset ha hb h0 i
  · intro x hx
    obtain ⟨i, hi, rfl⟩ := List.mem_map.1 hx
    exact h1 i (List.mem_range.1 hi)

theorem mem_sideOf (n m : Nat) (a b offset lo hi : F) {p : Nat × F} (h : p ∈ sideOf n m a b offset lo hi) :
    p.1 < m ∧ p.2 = circPos n a b offset p.1 ∧ lo ≤ p.2 ∧ p.2 < hi := by
  obtain ⟨h1, h2⟩ := List.mem_filter.1 h
  obtain ⟨i, hi, rfl⟩ := List.mem_map.1 h1
  simp only [Bool.and_eq_true, decide_eq_true_eq] at h2
  exact ⟨List.mem_range.1 hi, rfl, h2.1, h2.2⟩

/-- The points of the third side, in the order of the returned array. -/
def lowerSide (a b eb : F) (s2 : List (Nat × F)) : List (F × F) :=
  (s2.zip s2.reverse).map fun p => (-(p.2.2 - (a + b) - a / 2), -b / 2 - (if p.1.1 % 2 = 1 then eb / 2 else 0))

theorem rectangle_form (n : Nat) (a b ea eb offset : F) (z : Option F) (ha : 0 < a) (hb : 0 < b) (h0 : 0 ≤ offset)
    (h1 : offset ≤ 1) : ∃ l : List (Pt F), equidistantRectangle n (a, b) (ea, eb) offset z = .ok l ∧
      (∀ p ∈ l, p.z = z) ∧
      l.map Pt.xy = (sideOf n n a b offset 0 a).map (placed a b ea eb) ++
        (sideOf n n a b offset a (a + b)).map (placed a b ea eb) ++
        lowerSide a b eb (sideOf n n a b offset (a + b) (a + b + a)) ++
        (sideOf n n a b offset (a + b + a) (a + b + a + b)).map (placed a b ea eb) := by
  refine ⟨_, by unfold equidistantRectangle; rw [if_neg (not_not.2 ⟨ha, hb⟩), if_neg (not_not.2 ⟨h0, h1⟩)], ?_, ?_⟩
  · intro p hp
    simp only [List.mem_append, List.mem_map] at hp
    rcases hp with ((⟨q, -, rfl⟩ | ⟨q, -, rfl⟩) | ⟨q, -, rfl⟩) | ⟨q, -, rfl⟩ <;> rfl
  · simp only [onSide_eq, List.map_append, List.map_map, lowerSide]
    congr 1
    · congr 1
      congr 1
      · apply List.map_congr_left
        intro ⟨i, s⟩ hp
        obtain ⟨-, -, -, h⟩ := mem_sideOf _ _ _ _ _ _ _ hp
        rw [side0_eq a b ea eb z i s h]; rfl
      · apply List.map_congr_left
        intro ⟨i, s⟩ hp
        obtain ⟨-, -, h, h'⟩ := mem_sideOf _ _ _ _ _ _ _ hp
        rw [side1_eq a b ea eb z i s h h']; rfl
    · apply List.map_congr_left
      intro ⟨i, s⟩ hp
      obtain ⟨-, -, h, h'⟩ := mem_sideOf _ _ _ _ _ _ _ hp
      rw [side3_eq a b ea eb z i s ha hb h]; rfl

theorem lowerSide_length (a b eb : F) (s2 : List (Nat × F)) : (lowerSide a b eb s2).length = s2.length := by
  simp [lowerSide]

/-- With nothing added on the lower side, or an odd number of points there, its points
are where they should be, in reverse order. -/
theorem lowerSide_eq (a b ea eb : F) (hb : 0 < b) (s2 : List (Nat × F)) (f : Nat)
    (hidx : ∀ (k : Nat) (p : Nat × F), s2[k]? = some p → p.1 = f + k ∧ a + b ≤ p.2 ∧ p.2 < a + b + a)
    (h : eb = 0 ∨ s2.length % 2 = 1) : lowerSide a b eb s2 = (s2.map (placed a b ea eb)).reverse := by
  rw [← List.map_reverse]
  apply List.ext_getElem (by simp [lowerSide])
  intro k h1 h2
  have hk : k < s2.length := by simpa [lowerSide] using h1
  have hk' : s2.length - 1 - k < s2.length := by omega
  obtain ⟨e1, -, -⟩ := hidx k _ (List.getElem?_eq_getElem hk)
  obtain ⟨e2, e3, e4⟩ := hidx (s2.length - 1 - k) _ (List.getElem?_eq_getElem hk')
  simp only [lowerSide, List.getElem_map, List.getElem_zip, List.getElem_reverse]
  rw [show s2[s2.length - 1 - k] = ((s2[s2.length - 1 - k]).1, (s2[s2.length - 1 - k]).2) from rfl,
    side2_eq a b ea eb none _ _ hb e3 e4]
  simp only [Pt.xy]
  congr 2
  rcases h with h | h
  · simp [h]
  · rw [e1, e2]
    have : (f + k) % 2 = (f + (s2.length - 1 - k)) % 2 := by omega
    rw [this]

/-- A segment of a list of consecutive indices consists of consecutive indices. -/
theorem segment_idx {g : Nat → F} {n : Nat} {x s y : List (Nat × F)}
    (h : x ++ s ++ y = (List.range n).map fun i => (i, g i)) (k : Nat) (p : Nat × F) (hp : s[k]? = some p) :
    p.1 = x.length + k := by
  have hk := (List.getElem?_eq_some_iff.1 hp).1
  have : (x ++ s ++ y)[x.length + k]? = some p := by
    rw [List.append_assoc, List.getElem?_append_right (by omega), List.getElem?_append_left (by omega)]
    rw [← hp]; congr 1; omega
  rw [h, List.getElem?_map] at this
  obtain ⟨i, hi, rfl⟩ := Option.map_eq_some_iff.1 this
  obtain ⟨h1, h2⟩ := List.getElem?_eq_some_iff.1 hi
  simpa using h2.symm

theorem perimeterPoint_boundary (a b s : F) (ha : 0 < a) (hb : 0 < b) (h0 : 0 ≤ s) (h1 : s ≤ 2 * (a + b)) :
    OnBoundary a b (perimeterPoint a b s) := by
  unfold OnBoundary perimeterPoint
  have ha2 : |a / 2| = a / 2 := abs_of_pos (by linarith)
  have hb2 : |b / 2| = b / 2 := abs_of_pos (by linarith)
  split_ifs with c1 c2 c3
  · exact ⟨abs_le.2 ⟨by linarith, by linarith⟩, hb2.le, Or.inr hb2⟩
  · exact ⟨ha2.le, abs_le.2 ⟨by linarith, by linarith⟩, Or.inl ha2⟩
  · refine ⟨abs_le.2 ⟨by linarith, by linarith⟩, ?_, Or.inr ?_⟩ <;> simp [abs_neg, hb2]
  · refine ⟨?_, abs_le.2 ⟨by linarith, by linarith⟩, Or.inl ?_⟩ <;> simp [abs_neg, ha2]

theorem perimeterPoint_inj (a b s t : F) (ha : 0 < a) (hb : 0 < b) (hs : 0 ≤ s ∧ s < 2 * (a + b))
    (ht : 0 ≤ t ∧ t < 2 * (a + b)) (h : perimeterPoint a b s = perimeterPoint a b t) : s = t := by
  unfold perimeterPoint at h
  obtain ⟨hs0, hs1⟩ := hs
  obtain ⟨ht0, ht1⟩ := ht
  split_ifs at h with c1 c2 c3 c4 c5 c6 c7 c8 c9 <;> simp only [Prod.mk.injEq] at h <;>
    obtain ⟨h1, h2⟩ := h <;> (try push Not at *) <;> linarith

end
end Verif

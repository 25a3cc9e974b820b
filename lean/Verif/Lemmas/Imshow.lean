/-
Lemmas about sorting the positions of a grid.
-/
import Verif.Model.Plot
import Mathlib.Tactic.Linarith
import Mathlib.Tactic.Ring
import Mathlib.Tactic.Positivity
import Mathlib.Tactic.FieldSimp
import Mathlib.Data.List.Dedup
namespace Verif

theorem pairwise_either {α : Type} {R : α → α → Prop} {a b : α} : ∀ {l : List α}, l.Pairwise R → a ∈ l → b ∈ l →
    a ≠ b → R a b ∨ R b a
  | [], _, h, _, _ => by simp at h
  | c :: l, hp, ha, hb, hne => by
    obtain ⟨h1, h2⟩ := List.pairwise_cons.1 hp
    rcases List.mem_cons.1 ha with rfl | ha'
    · rcases List.mem_cons.1 hb with rfl | hb
      · exact absurd rfl hne
      · exact Or.inl (h1 b hb)
    · rcases List.mem_cons.1 hb with rfl | hb
      · exact Or.inr (h1 a ha')
      · exact pairwise_either h2 ha' hb hne

section
variable {F : Type} [Field F] [LinearOrder F] [IsStrictOrderedRing F] [FloorRing F]

theorem rint_near (x : F) : |(rint x : F) - x| ≤ 1 / 2 := by
  have h1 := Int.floor_le x
  have h2 := Int.lt_floor_add_one x
  unfold rint
  rw [abs_le]
  split_ifs with h3 h4 h5 <;> push_cast <;> constructor <;> linarith

theorem roundDec_near (p : Nat) (x : F) : |roundDec p x - x| ≤ 1 / 2 / 10 ^ p := by
  have h := rint_near (x * 10 ^ p)
  have hp : (0 : F) < 10 ^ p := by positivity
  unfold roundDec
  have e : (rint (x * 10 ^ p) : F) / 10 ^ p - x = ((rint (x * 10 ^ p) : F) - x * 10 ^ p) / 10 ^ p := by
    field_simp
  rw [e, abs_div, abs_of_pos hp]
  exact div_le_div_of_nonneg_right h hp.le

/-- Consecutive values differ by at least two units of the last decimal. -/
def Apart (p : Nat) (X : List F) : Prop := X.Pairwise fun a b => a + 2 / 10 ^ p ≤ b

omit [IsStrictOrderedRing F] [FloorRing F] in
theorem npUnique_eq {l L : List F} (hL : L.Pairwise (· < ·)) (hm : ∀ v, v ∈ L ↔ v ∈ l) : npUnique l = L := by
  have hperm : (npUnique l).Perm L := by
    refine (List.mergeSort_perm _ _).trans ?_
    refine (List.perm_ext_iff_of_nodup (List.nodup_dedup _) (hL.imp fun h => ne_of_lt h)).2 ?_
    intro v; rw [List.mem_dedup, hm]
  refine hperm.eq_of_pairwise (le := (· ≤ ·)) (fun a b _ _ h1 h2 => le_antisymm h1 h2) ?_ (hL.imp fun h => le_of_lt h)
  have := List.pairwise_mergeSort (le := fun a b : F => decide (a ≤ b)) (fun a b c h1 h2 => by
    simp only [decide_eq_true_eq] at *; exact h1.trans h2) (fun a b => by
    simp only [Bool.or_eq_true, decide_eq_true_eq]; exact le_total a b) l.dedup
  exact this.imp fun h => by simpa using h

theorem apart_round {p : Nat} {X : List F} (h : Apart p X) : (X.map (roundDec p)).Pairwise (· < ·) := by
  rw [List.pairwise_map]
  refine h.imp fun {a b} hab => ?_
  have h1 := abs_le.1 (roundDec_near p a)
  have h2 := abs_le.1 (roundDec_near p b)
  have hp : (0 : F) < 1 / 10 ^ p := by positivity
  have e1 : (1 : F) / 2 / 10 ^ p = (1 / 10 ^ p) / 2 := by ring
  have e2 : (2 : F) / 10 ^ p = 2 * (1 / 10 ^ p) := by ring
  rw [e1] at h1 h2
  rw [e2] at hab
  linarith [h1.2, h2.1]

omit [FloorRing F] in
theorem Apart.nodup {p : Nat} {X : List F} (h : Apart p X) : X.Nodup := by
  refine h.imp fun {a b} hab => ?_
  have hp : (0 : F) < 2 / 10 ^ p := by positivity
  intro he; rw [he] at hab; linarith

theorem apart_row {p : Nat} {Y : List F} (h : Apart p Y) {y y' : F} (hy : y ∈ Y) (hy' : y' ∈ Y) :
    |y' - roundDec p y| < 1 / 10 ^ p ↔ y' = y := by
  have hp : (0 : F) < 1 / 10 ^ p := by positivity
  have hr := abs_le.1 (roundDec_near p y)
  have e1 : (1 : F) / 2 / 10 ^ p = (1 / 10 ^ p) / 2 := by ring
  rw [e1] at hr
  constructor
  · intro hlt
    by_contra hne
    have hsep : y + 2 / 10 ^ p ≤ y' ∨ y' + 2 / 10 ^ p ≤ y := by
      exact pairwise_either h hy hy' (Ne.symm hne)
    have e2 : (2 : F) / 10 ^ p = 2 * (1 / 10 ^ p) := by ring
    rw [e2] at hsep
    have hl := abs_lt.1 hlt
    rcases hsep with h1 | h1 <;> linarith [hl.1, hl.2, hr.1, hr.2]
  · rintro rfl
    rw [abs_sub_comm]
    exact lt_of_le_of_lt (roundDec_near p y') (by rw [e1]; linarith)

end

/-- The points of the grid with the given columns and rows. -/
def gridPoints {F : Type} (X Y : List F) (z : Option F) : List (Pt F) :=
  Y.flatMap fun y => X.map fun x => ⟨x, y, z⟩

theorem mem_gridPoints {F : Type} {X Y : List F} {z : Option F} {p : Pt F} :
    p ∈ gridPoints X Y z ↔ p.x ∈ X ∧ p.y ∈ Y ∧ p.z = z := by
  unfold gridPoints
  rw [List.mem_flatMap]
  constructor
  · rintro ⟨y, hy, hp⟩
    obtain ⟨x, hx, rfl⟩ := List.mem_map.1 hp
    exact ⟨hx, hy, rfl⟩
  · rintro ⟨hx, hy, hz⟩
    exact ⟨p.y, hy, List.mem_map.2 ⟨p.x, hx, by rw [← hz]⟩⟩

theorem gridPoints_nodup {F : Type} {X Y : List F} {z : Option F} (hX : X.Nodup) (hY : Y.Nodup) :
    (gridPoints X Y z).Nodup := by
  unfold gridPoints
  rw [List.nodup_flatMap]
  refine ⟨fun y _ => hX.map (fun a b h => by injection h), ?_⟩
  refine hY.imp fun {a b} hab => ?_
  intro q h1 h2
  obtain ⟨x, _, rfl⟩ := List.mem_map.1 h1
  obtain ⟨x', _, he⟩ := List.mem_map.1 h2
  injection he with _ h3
  exact hab h3.symm

theorem gridPoints_filter {F : Type} [DecidableEq F] {X : List F} {z : Option F} {y : F} :
    ∀ {Y : List F}, Y.Nodup → y ∈ Y →
      (gridPoints X Y z).filter (fun p => decide (p.y = y)) = X.map fun x => ⟨x, y, z⟩
  | [], _, h => by simp at h
  | a :: Y, hn, h => by
    have hn' := List.nodup_cons.1 hn
    unfold gridPoints
    rw [List.flatMap_cons, List.filter_append]
    by_cases ha : a = y
    · subst ha
      rw [List.filter_eq_self.2 (by
        intro p hp; obtain ⟨x, _, rfl⟩ := List.mem_map.1 hp; simp),
        List.filter_eq_nil_iff.2 (by
          intro p hp
          have := (mem_gridPoints (X := X) (Y := Y) (z := z)).1 hp
          simp only [decide_eq_true_eq]
          intro he; exact hn'.1 (he ▸ this.2.1)), List.append_nil]
    · rw [List.filter_eq_nil_iff.2 (by
        intro p hp; obtain ⟨x, _, rfl⟩ := List.mem_map.1 hp; simpa using ha), List.nil_append]
      exact gridPoints_filter hn'.2 (by
        rcases List.mem_cons.1 h with h | h
        · exact absurd h.symm ha
        · exact h)

theorem filter_range_map {α : Type} (d : α) (P : α → Bool) (l : List α) :
    ((List.range l.length).filter fun k => P ((l[k]?).getD d)).map (fun k => (l[k]?).getD d) = l.filter P := by
  have h1 : (List.range l.length).map (fun k => (l[k]?).getD d) = l := by
    apply List.ext_getElem?
    intro k
    by_cases hk : k < l.length
    · rw [List.getElem?_map, List.getElem?_range hk, List.getElem?_eq_getElem hk]
      simp [hk]
    · rw [List.getElem?_eq_none (by simp; omega), List.getElem?_eq_none (by omega)]
  conv_rhs => rw [← h1, List.filter_map]
  rfl

section
variable {F : Type} [Field F] [LinearOrder F] [IsStrictOrderedRing F] [FloorRing F]

theorem rowIndices_lt {p : Nat} {pos : List (Pt F)} {y : F} : ∀ k ∈ rowIndices p pos y, k < pos.length := by
  intro k hk
  unfold rowIndices at hk
  rw [List.mem_mergeSort, List.mem_filter, List.mem_range] at hk
  exact hk.1

/-- The indices of a row, sorted by the first coordinate, are those of the grid
points of the row from left to right. -/
theorem rowIndices_points {p : Nat} {pos : List (Pt F)} {X Y : List F} {z : Option F} (hX : Apart p X) (hY : Apart p Y)
    (hpos : pos.Perm (gridPoints X Y z)) {y : F} (hy : y ∈ Y) :
    (rowIndices p pos (roundDec p y)).map (fun k => (pos[k]?).getD ⟨0, 0, none⟩) = X.map fun x => ⟨x, y, z⟩ := by
  have hp2 : (0 : F) < 2 / 10 ^ p := by positivity
  have hget : ∀ k : Nat, ((pos[k]?).map Pt.y).getD 0 = ((pos[k]?).getD ⟨0, 0, none⟩ : Pt F).y := by
    intro k; cases pos[k]? <;> rfl
  have hgetx : ∀ k : Nat, ((pos[k]?).map Pt.x).getD 0 = ((pos[k]?).getD ⟨0, 0, none⟩ : Pt F).x := by
    intro k; cases pos[k]? <;> rfl
  have hfil : ((List.range pos.length).filter fun k =>
      decide (|((pos[k]?).map Pt.y).getD 0 - roundDec p y| < 1 / 10 ^ p)).map
        (fun k => (pos[k]?).getD ⟨0, 0, none⟩) = pos.filter fun q => decide (q.y = y) := by
    have h1 := filter_range_map (⟨0, 0, none⟩ : Pt F) (fun q => decide (|q.y - roundDec p y| < 1 / 10 ^ p)) pos
    simp only [hget]
    rw [h1]
    apply List.filter_congr
    intro q hq
    have hm := (mem_gridPoints (X := X) (Y := Y) (z := z)).1 (hpos.subset hq)
    rw [decide_eq_decide]
    exact apart_row hY hy hm.2.1
  have hperm : ((rowIndices p pos (roundDec p y)).map fun k => (pos[k]?).getD ⟨0, 0, none⟩).Perm
      (X.map fun x => ⟨x, y, z⟩) := by
    rw [← gridPoints_filter (z := z) hY.nodup hy]
    refine ((List.mergeSort_perm _ _).map _).trans ?_
    rw [hfil]
    exact hpos.filter _
  refine hperm.eq_of_pairwise (le := fun a b : Pt F => a.x ≤ b.x) ?_ ?_ ?_
  · intro a b ha hb h1 h2
    obtain ⟨x, _, rfl⟩ := List.mem_map.1 (hperm.subset ha)
    obtain ⟨x', _, rfl⟩ := List.mem_map.1 hb
    rw [show x = x' from le_antisymm h1 h2]
  · rw [List.pairwise_map]
    have := List.pairwise_mergeSort (le := fun a b : Nat =>
        decide (((pos[a]?).map Pt.x).getD 0 ≤ ((pos[b]?).map Pt.x).getD 0)) (fun a b c h1 h2 => by
      simp only [decide_eq_true_eq] at *; exact h1.trans h2) (fun a b => by
      simp only [Bool.or_eq_true, decide_eq_true_eq]; exact le_total _ _)
      ((List.range pos.length).filter fun k =>
        decide (|((pos[k]?).map Pt.y).getD 0 - roundDec p y| < 1 / 10 ^ p))
    refine List.Pairwise.imp (fun {a b} h => ?_) this
    rw [decide_eq_true_eq, hgetx, hgetx] at h
    exact h
  · rw [List.pairwise_map]
    exact hX.imp fun {a b} h => by show a ≤ b; linarith

end

theorem gather_ok {V : Type} (l : List V) : ∀ (idx : List Nat), (∀ k ∈ idx, k < l.length) →
    ∃ vs, gather l idx = .ok vs ∧ vs.map some = idx.map fun k => l[k]?
  | [], _ => ⟨[], rfl, rfl⟩
  | k :: ks, h => by
    obtain ⟨vs, h1, h2⟩ := gather_ok l ks fun x hx => h x (by simp [hx])
    have hk := List.getElem?_eq_getElem (h k (by simp))
    refine ⟨l[k]'(h k (by simp)) :: vs, ?_, ?_⟩
    · unfold gather
      rw [hk, h1]
    · rw [List.map_cons, List.map_cons, h2, hk]

theorem gatherRows_ok {V : Type} (l : List V) : ∀ (idx : List (List Nat)), (∀ r ∈ idx, ∀ k ∈ r, k < l.length) →
    ∃ vs, gatherRows l idx = .ok vs ∧ vs.map (·.map some) = idx.map fun r => r.map fun k => l[k]?
  | [], _ => ⟨[], rfl, rfl⟩
  | r :: rs, h => by
    obtain ⟨v, h1, h2⟩ := gather_ok l r (h r (by simp))
    obtain ⟨vs, h3, h4⟩ := gatherRows_ok l rs fun x hx => h x (by simp [hx])
    refine ⟨v :: vs, ?_, ?_⟩
    · unfold gatherRows
      rw [h1, h3]
    · rw [List.map_cons, List.map_cons, h2, h4]

end Verif

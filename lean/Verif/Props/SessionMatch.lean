/-
C46: what the matching test of sessions compares.
-/
import Verif.Lemmas.Session
namespace Verif

section
variable {F : Type} [Field F] [LinearOrder F]

/-- Two rows of numbers agree up to the tolerances of `np.allclose`. -/
def RowsClose (x y : List F) : Prop :=
  ∀ (k : Nat) (a b : F), x[k]? = some a → y[k]? = some b → |a - b| ≤ 1 / 100000000 + 1 / 100000 * |b|

theorem allCloseRow_true {x y : List F} (hl : x.length = y.length) : allCloseRow x y = .ok true ↔ RowsClose x y := by
  unfold allCloseRow RowsClose
  rw [if_pos hl]
  simp only [Except.ok.injEq, List.all_eq_true, isClose, decide_eq_true_eq]
  constructor
  · intro h k a b ha hb
    have := h (a, b) (List.mem_of_getElem? (i := k) (by rw [List.getElem?_zip_eq_some]; exact ⟨ha, hb⟩))
    norm_num at this ⊢
    exact this
  · rintro h ⟨a, b⟩ hp
    obtain ⟨k, hk⟩ := List.mem_iff_getElem?.1 hp
    rw [List.getElem?_zip_eq_some] at hk
    have := h k a b hk.1 hk.2
    norm_num at this ⊢
    exact this

theorem allCloseRows_true : ∀ {l : List (List F × List F)}, (∀ p ∈ l, p.1.length = p.2.length) →
    (allCloseRows l = .ok true ↔ ∀ p ∈ l, RowsClose p.1 p.2)
  | [], _ => by simp [allCloseRows]
  | p :: l, h => by
    obtain ⟨r, hr⟩ := allCloseRow_ok (h p (by simp))
    obtain ⟨r', hr'⟩ := allCloseRows_ok l fun q hq => h q (by simp [hq])
    have h1 := allCloseRow_true (h p (by simp))
    have h2 := allCloseRows_true (l := l) fun q hq => h q (by simp [hq])
    rw [hr] at h1
    rw [hr'] at h2
    rw [allCloseRows, hr, hr', List.forall_mem_cons, ← h1, ← h2]
    cases r <;> cases r' <;> simp

/-- C46, the matching test: of two collections whose shapes can be compared and whose
arrays have as many points as objects, the test accepts exactly those with the same names,
kinds and numbers, with positions and paths given by the user that agree up to `1e-8` and a
relative error of `1e-5`, and with the same types. -/
theorem C46_accepted {c c0 : Coll (List F) (IrMat F)} (hc : c.Consistent) (hc0 : c0.Consistent)
    (hcmp : Comparable c c0) (hn : ∀ a ∈ c.arrays, a.pos.length = a.num) (hn0 : ∀ a ∈ c0.arrays, a.pos.length = a.num) :
    protoEquals c c0 = .ok true ↔
      (∀ b ∈ c0.arrays, ∃ a ∈ c.arrays, a.name = b.name) ∧
      (∀ a ∈ c.arrays, ∃ b ∈ c0.arrays, b.name = a.name ∧ a.kind = b.kind ∧ a.pos.length = b.pos.length ∧
        ∀ (k : Nat) x y, a.pos[k]? = some x → b.pos[k]? = some y → RowsClose x y) ∧
      ∀ s ∈ c.srcs, ∀ m ∈ c.mics, ∃ t, c.types s m = some t ∧ c0.types s m = some t ∧
        (t = "modified" → ∃ h h0, c.paths s m = some h ∧ c0.paths s m = some h0 ∧
          ∀ i < h.numIn, ∀ j < h.numOut, RowsClose (h.ir i j) (h0.ir i j)) := by
  rw [protoEquals_true, sameArrays_true, samePaths_true]
  have hpos : ∀ a ∈ c.arrays, ∀ b ∈ c0.arrays, b.name = a.name → (allCloseRows (a.pos.zip b.pos) = .ok true ↔
      ∀ (k : Nat) x y, a.pos[k]? = some x → b.pos[k]? = some y → RowsClose x y) := by
    intro a ha b hb hnm
    rw [allCloseRows_true]
    · constructor
      · intro h k x y hx hy
        exact h (x, y) (List.mem_of_getElem? (i := k) (by rw [List.getElem?_zip_eq_some]; exact ⟨hx, hy⟩))
      · rintro h ⟨x, y⟩ hp
        obtain ⟨k, hk⟩ := List.mem_iff_getElem?.1 hp
        rw [List.getElem?_zip_eq_some] at hk
        exact h k x y hk.1 hk.2
    · rintro ⟨x, y⟩ hp
      exact hcmp.dims a ha b hb hnm.symm x (List.of_mem_zip hp).1 y (List.of_mem_zip hp).2
  have hir : ∀ s m h h0, c.types s m = some "modified" → c.paths s m = some h → c0.paths s m = some h0 →
      (allCloseIr h h0 = .ok true ↔ ∀ i < h.numIn, ∀ j < h.numOut, RowsClose (h.ir i j) (h0.ir i j)) := by
    intro s m h h0 ht hp hp0
    unfold allCloseIr
    rw [allCloseRows_true]
    · simp only [List.mem_flatMap, List.mem_range, List.mem_map]
      constructor
      · intro hh i hi j hj
        exact hh (h.ir i j, h0.ir i j) ⟨i, hi, j, hj, rfl⟩
      · rintro hh _ ⟨i, hi, j, hj, rfl⟩
        exact hh i hi j hj
    · simp only [List.mem_flatMap, List.mem_range, List.mem_map]
      rintro _ ⟨i, _, j, _, rfl⟩
      exact hcmp.lens s m h h0 ht hp hp0 i j
  have key : ∀ s m, (∃ t, c.types s m = some t ∧ c0.types s m = some t ∧ (t = "modified" → ∃ h h0,
        c.paths s m = some h ∧ c0.paths s m = some h0 ∧ allCloseIr h h0 = .ok true)) ↔
      ∃ t, c.types s m = some t ∧ c0.types s m = some t ∧ (t = "modified" → ∃ h h0, c.paths s m = some h ∧
        c0.paths s m = some h0 ∧ ∀ i < h.numIn, ∀ j < h.numOut, RowsClose (h.ir i j) (h0.ir i j)) := by
    intro s m
    constructor
    · rintro ⟨t, h1, h2, h3⟩
      refine ⟨t, h1, h2, fun ht => ?_⟩
      obtain ⟨h, h0, q1, q2, q3⟩ := h3 ht
      exact ⟨h, h0, q1, q2, (hir s m h h0 (ht ▸ h1) q1 q2).1 q3⟩
    · rintro ⟨t, h1, h2, h3⟩
      refine ⟨t, h1, h2, fun ht => ?_⟩
      obtain ⟨h, h0, q1, q2, q3⟩ := h3 ht
      exact ⟨h, h0, q1, q2, (hir s m h h0 (ht ▸ h1) q1 q2).2 q3⟩
  constructor
  · rintro ⟨⟨n1, n2⟩, h1, h2⟩
    refine ⟨?_, ?_, ?_⟩
    · intro b hb
      obtain ⟨a, ha, he⟩ := List.mem_map.1 (n2 b hb)
      exact ⟨a, ha, he⟩
    · intro a ha
      obtain ⟨b, q1, q2, q3, q4⟩ := h1 a ha
      obtain ⟨hb, hnm⟩ := Coll.find_some q1
      refine ⟨b, hb, hnm, q2, ?_, (hpos a ha b hb hnm).1 q4⟩
      rw [hn a ha, hn0 b hb, q3]
    · intro s hs m hm
      exact (key s m).1 (h2 (s, m) (Coll.mem_combos.2 ⟨hs, hm⟩))
  · rintro ⟨n2, h1, h2⟩
    refine ⟨⟨?_, ?_⟩, ?_, ?_⟩
    · intro a ha
      obtain ⟨b, hb, hnm, _⟩ := h1 a ha
      exact List.mem_map.2 ⟨b, hb, hnm⟩
    · intro b hb
      obtain ⟨a, ha, hnm⟩ := n2 b hb
      exact List.mem_map.2 ⟨a, ha, hnm⟩
    · intro a ha
      obtain ⟨b, hb, hnm, q1, q2, q3⟩ := h1 a ha
      refine ⟨b, by rw [← hnm]; exact Coll.find_eq hc0.names hb, q1, by rw [← hn a ha, ← hn0 b hb, q2], ?_⟩
      exact (hpos a ha b hb hnm).2 q3
    · rintro ⟨s, m⟩ hp
      have := Coll.mem_combos.1 hp
      exact (key s m).2 (h2 s this.1 m this.2)

end

/-- A microphone moved by a tenth of a millimetre (at 100 metres) is accepted, one moved by
a centimetre is not. -/
example :
    protoEquals (F := ℚ) ((Coll.empty 1).addAll [⟨"m", some .mic, 1, [[100, 0, 1]], none, 1, none, true, []⟩])
      ((Coll.empty 1).addAll [⟨"m", some .mic, 1, [[100 + 1 / 10000, 0, 1]], none, 1, none, true, []⟩]) = .ok true ∧
    protoEquals (F := ℚ) ((Coll.empty 1).addAll [⟨"m", some .mic, 1, [[100, 0, 1]], none, 1, none, true, []⟩])
      ((Coll.empty 1).addAll [⟨"m", some .mic, 1, [[100 + 1 / 100, 0, 1]], none, 1, none, true, []⟩]) = .ok false := by
  decide +kernel

end Verif

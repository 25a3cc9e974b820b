/-
C169: when the processor FxLMS can be made.
-/
import Verif.Model.Anc
import Mathlib.Algebra.Field.Rat
namespace Verif

section
variable {R Pt : Type} {arrays : List (Arr Pt)}

theorem numOfArray_ok {name : String} {n : Nat} (h : numOfArray arrays name = .ok n) :
    ∃ a ∈ arrays, a.name = name ∧ a.num = n := by
  unfold numOfArray at h
  split at h
  · cases h
  · rename_i a ha
    cases h
    exact ⟨a, List.mem_of_find?_eq_some ha, by simpa using List.find?_some ha, rfl⟩

theorem numOfArray_error {name : String} {x : PyErr} (h : numOfArray arrays name = .error x) :
    x = .key ∧ ∀ a ∈ arrays, a.name ≠ name := by
  unfold numOfArray at h
  split at h
  · rename_i ha
    cases h
    refine ⟨rfl, fun a hm => ?_⟩
    have := List.find?_eq_none.1 ha a hm
    simpa using this
  · cases h

/-- C169. The processor can be made if and only if the three arrays exist and the update block is a
positive multiple of a positive block; it then has the sizes of arrays with these names (of the arrays,
as names are distinct).  A missing array gives `KeyError`, a block size of 0 `ZeroDivisionError` and any
other update block `AssertionError`. -/
theorem C169_created (bs ub L : Nat) (mu beta : R) (norm : FxNorm) :
    match fxCreate arrays bs ub L mu beta norm with
    | .ok q => 0 < bs ∧ 0 < ub ∧ bs ∣ ub ∧
        (∃ a ∈ arrays, a.name = "ref" ∧ a.num = q.nr) ∧ (∃ a ∈ arrays, a.name = "error" ∧ a.num = q.ne) ∧
        (∃ a ∈ arrays, a.name = "loudspeaker" ∧ a.num = q.nl) ∧
        q.bs = bs ∧ q.ub = ub ∧ q.L = L ∧ q.mu = mu ∧ q.beta = beta ∧ q.norm = norm
    | .error x => (x = .key ∧ ∃ name ∈ ["ref", "error", "loudspeaker"], ∀ a ∈ arrays, a.name ≠ name) ∨
        ((∀ name ∈ ["ref", "error", "loudspeaker"], ∃ a ∈ arrays, a.name = name) ∧
          (x = .zeroDivision ∧ bs = 0 ∨ x = .assertion ∧ 0 < bs ∧ (ub = 0 ∨ ¬ bs ∣ ub))) := by
  unfold fxCreate
  cases h1 : numOfArray arrays "ref" with
  | error x => obtain ⟨rfl, h⟩ := numOfArray_error h1; exact .inl ⟨rfl, _, by simp, h⟩
  | ok nr =>
    cases h2 : numOfArray arrays "error" with
    | error x => obtain ⟨rfl, h⟩ := numOfArray_error h2; exact .inl ⟨rfl, "error", by simp, h⟩
    | ok ne =>
      cases h3 : numOfArray arrays "loudspeaker" with
      | error x => obtain ⟨rfl, h⟩ := numOfArray_error h3; exact .inl ⟨rfl, "loudspeaker", by simp, h⟩
      | ok nl =>
        obtain ⟨a, a1, a2, a3⟩ := numOfArray_ok h1
        obtain ⟨b, b1, b2, b3⟩ := numOfArray_ok h2
        obtain ⟨c, c1, c2, c3⟩ := numOfArray_ok h3
        have hall : ∀ name ∈ ["ref", "error", "loudspeaker"], ∃ a ∈ arrays, a.name = name := by
          intro name hn
          simp only [List.mem_cons, List.not_mem_nil, or_false] at hn
          rcases hn with rfl | rfl | rfl
          · exact ⟨a, a1, a2⟩
          · exact ⟨b, b1, b2⟩
          · exact ⟨c, c1, c2⟩
        dsimp only
        by_cases h4 : bs = 0
        · rw [if_pos h4]
          exact .inr ⟨hall, .inl ⟨rfl, h4⟩⟩
        rw [if_neg h4]
        by_cases h5 : ub % bs ≠ 0
        · rw [if_pos h5]
          exact .inr ⟨hall, .inr ⟨rfl, by omega, .inr fun hd => h5 (Nat.mod_eq_zero_of_dvd hd)⟩⟩
        rw [if_neg h5]
        rw [not_not] at h5
        have hd := Nat.dvd_of_mod_eq_zero h5
        by_cases h6 : ub < bs
        · rw [if_pos h6]
          refine .inr ⟨hall, .inr ⟨rfl, by omega, .inl ?_⟩⟩
          rcases Nat.eq_zero_or_pos ub with h | h
          · exact h
          · have := Nat.le_of_dvd h hd
            omega
        · rw [if_neg h6]
          exact ⟨by omega, by omega, hd, ⟨a, a1, a2, a3⟩, ⟨b, b1, b2, b3⟩, ⟨c, c1, c2, c3⟩, rfl, rfl, rfl, rfl, rfl, rfl⟩

end

/-- A block of 4 and an update block of 12 fit, one of 10 does not; without "ref" there is no processor. -/
example (L : Nat) (a b : ℚ) (n : FxNorm) (as : List (Arr Nat)) (x : Arr Nat) :
    fxCreate [⟨"ref", some .mic, 2, [0, 1], none, 1, none, true, []⟩, ⟨"error", some .mic, 1, [0], none, 1, none, true, []⟩,
      ⟨"loudspeaker", some .ctrl, 3, [0, 1, 2], none, 1, none, true, []⟩] 4 12 L a b n = .ok ⟨4, 12, L, 2, 3, 1, a, b, n⟩ ∧
    (fxCreate [⟨"ref", some .mic, 2, [0, 1], none, 1, none, true, []⟩, ⟨"error", some .mic, 1, [0], none, 1, none, true, []⟩,
      ⟨"loudspeaker", some .ctrl, 3, [0, 1, 2], none, 1, none, true, []⟩] 4 10 L a b n : Except PyErr (FxPar ℚ)) = .error .assertion ∧
    ((∀ y ∈ x :: as, y.name ≠ "ref") → fxCreate (x :: as) 4 12 L a b n = .error .key) := by
  refine ⟨rfl, rfl, fun h => ?_⟩
  have := C169_created (arrays := x :: as) 4 12 L a b n
  cases hf : fxCreate (x :: as) 4 12 L a b n with
  | ok q =>
    rw [hf] at this
    obtain ⟨-, -, -, ⟨y, hy, hn, -⟩, -⟩ := this
    exact absurd hn (h y hy)
  | error e =>
    rw [hf] at this
    rcases this with ⟨rfl, -⟩ | ⟨hall, -⟩
    · rfl
    · obtain ⟨y, hy, hn⟩ := hall "ref" (by simp)
      exact absurd hn (h y hy)

end Verif

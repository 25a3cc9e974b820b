/-
C27 and C52: access paths of state diagnostics and unique processor names.
-/
import Verif.Lemmas.Access
namespace Verif

/-- C27.  For every object and every path of attributes with items, the getter
made from the written path applies exactly the written accesses in order, and
raises what the first failing access raises. -/
theorem C27_access_path {O : Type} (ops : ObjOps O) (path : List Access) (hne : path ≠ [])
    (hp : ∀ a ∈ path, a.Proper) (o : O) :
    attrItemGet ops (pathWritten path) o = pathApply ops o path :=
  attrItemGet_path ops path hne hp o

section
/-- Objects of the example: the accesses made so far, newest first. -/
private def traced : ObjOps (List Name) where
  attr o a := .ok (('a' :: a) :: o)
  key o k := if k = ['z'] then .error .key else .ok (('k' :: k) :: o)
  idx o i := if i < -2 then .error .index else .ok (('i' :: intStr i) :: o)

/-- `w.mat[-2]['re im'].x[10]` -/
private def trPath : List Access :=
  [⟨['w'], []⟩, ⟨['m', 'a', 't'], [.idx (-2), .key ['r', 'e', ' ', 'i', 'm']]⟩, ⟨['x'], [.idx 10]⟩]

example : trPath ≠ [] ∧ ∀ a ∈ trPath, a.Proper := by
  refine ⟨by decide, ?_⟩
  intro a ha
  simp only [trPath, List.mem_cons, List.not_mem_nil, or_false] at ha
  rcases ha with rfl | rfl | rfl <;>
    exact ⟨by decide, by unfold Plain; decide, by
      intro it hit k hk; subst hk; revert hit; simp +contextual [Plain]⟩

example : pathWritten trPath = "w.mat[-2]['re im'].x[10]".toList ∧
    attrItemGet traced (pathWritten trPath) [] =
      .ok ["i10".toList, "ax".toList, "kre im".toList, "i-2".toList, "amat".toList, "aw".toList] := by
  decide +kernel

/-- The first failing access is the one reported. -/
example : attrItemGet traced "w['z'][-7]".toList [] = .error .key := by decide +kernel
end

/-- C52, names are unique: the loop ends for every list of names; the result has
one name per processor, all different; each is the original name or the
original name with a number; the original name is kept exactly when no earlier
processor has it now, and the number is the smallest free one. -/
theorem C52_unique (procs : List Name) :
    ∃ names : List Name, (∀ fuel, procs.length ≤ fuel → uniqueProcNames fuel procs = .ok names) ∧
      names.length = procs.length ∧ names.Nodup ∧
      ∀ (j : Nat) (p : Name), procs[j]? = some p →
        (p ∉ names.take j ∧ names[j]? = some p) ∨
        (p ∈ names.take j ∧ ∃ k, 1 ≤ k ∧ names[j]? = some (p ++ [' '] ++ pyStr k) ∧
          ∀ i, 1 ≤ i → i < k → p ++ [' '] ++ pyStr i ∈ names.take j) := by
  obtain ⟨names, hn, hrun⟩ := uniqueProcNames_spec procs
  refine ⟨names, hrun, hn.len, hn.nodup, ?_⟩
  intro j p hj
  obtain ⟨k, h1, h2⟩ := hn.each j p hj
  cases k with
  | zero =>
    refine Or.inl ⟨?_, h1⟩
    intro hm
    obtain ⟨i, hi⟩ := List.mem_iff_getElem?.1 hm
    rw [List.getElem?_take] at hi
    split_ifs at hi with hij
    have hil := (List.getElem?_eq_some_iff.1 hi).1
    have := (List.nodup_iff_getElem?_ne_getElem?.1 hn.nodup) i j hij
      (List.getElem?_eq_some_iff.1 h1).1
    exact this (by rw [hi, h1]; rfl)
  | succ k =>
    refine Or.inr ⟨h2 0 (by omega), k + 1, by omega, h1, ?_⟩
    intro i hi hik
    obtain ⟨i, rfl⟩ : ∃ m, i = m + 1 := ⟨i - 1, by omega⟩
    exact h2 (i + 1) hik

/-- C52, first occurrences: when no name in the list is a numbered version of
another, the first processor of each name keeps it.  Missing: names that are
numbered versions of others, see `C52_violated`. -/
theorem C52_first_partial (procs : List Name)
    (hfree : ∀ p ∈ procs, ∀ q ∈ procs, ∀ i, p ≠ q ++ [' '] ++ pyStr i) (fuel : Nat)
    (hfuel : procs.length ≤ fuel) (names : List Name) (h : uniqueProcNames fuel procs = .ok names)
    (j : Nat) (p : Name) (hj : procs[j]? = some p) (hfirst : p ∉ procs.take j) :
    names[j]? = some p := by
  obtain ⟨names', hn, hrun⟩ := uniqueProcNames_spec procs
  rw [hrun fuel hfuel] at h
  cases h
  exact hn.first hfree j p hj hfirst

/-- C52 fails in full: with the names `a`, `a`, `a 1` the only processor called
`a 1` is renamed. -/
theorem C52_violated : ∃ (procs names : List Name) (j : Nat) (p : Name),
    uniqueProcNames procs.length procs = .ok names ∧ procs[j]? = some p ∧ p ∉ procs.take j ∧
      names[j]? ≠ some p :=
  ⟨["a".toList, "a".toList, "a 1".toList], ["a".toList, "a 1".toList, "a 1 1".toList], 2,
    "a 1".toList, by decide +kernel⟩

/-- Three processors of one class and one of another. -/
example : uniqueProcNames 4 ["a".toList, "b".toList, "a".toList, "a".toList] =
    .ok ["a".toList, "b".toList, "a 1".toList, "a 2".toList] := by decide +kernel

example : ∀ p ∈ ["a".toList, "b".toList, "a".toList, "a".toList],
    ∀ q ∈ ["a".toList, "b".toList, "a".toList, "a".toList], ∀ i, p ≠ q ++ [' '] ++ pyStr i := by
  have hl : ∀ p ∈ ["a".toList, "b".toList, "a".toList, "a".toList], p.length = 1 := by decide
  intro p hp q hq i h
  have h1 := hl p hp
  have h2 := hl q hq
  have := congrArg List.length h
  simp [h1, h2] at this

end Verif

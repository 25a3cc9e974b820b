/-
Lemmas about evenly spaced axes and grids of points.
-/
import Verif.Model.Fill
import Mathlib.Tactic.Linarith
import Mathlib.Tactic.Ring
import Mathlib.Tactic.FieldSimp
import Mathlib.Tactic.Positivity
import Mathlib.Tactic.Qify
namespace Verif

theorem flatMap_block {α β : Type} {f : α → List β} {k : Nat} :
    ∀ {l : List α}, (∀ a ∈ l, (f a).length = k) → ∀ (j i : Nat), i < k →
      (l.flatMap f)[j * k + i]? = l[j]?.bind fun a => (f a)[i]?
  | [], _, j, i, _ => by simp
  | a :: l, h, 0, i, hi => by
    rw [List.flatMap_cons, Nat.zero_mul, Nat.zero_add,
      List.getElem?_append_left (by rw [h a (by simp)]; exact hi)]
    simp
  | a :: l, h, j + 1, i, hi => by
    rw [List.flatMap_cons, List.getElem?_append_right (by rw [h a (by simp)]; nlinarith), h a (by simp),
      show (j + 1) * k + i - k = j * k + i by rw [Nat.succ_mul]; omega,
      flatMap_block (fun x hx => h x (by simp [hx])) j i hi]
    simp

theorem length_flatMap_block {α β : Type} {f : α → List β} {k : Nat} :
    ∀ {l : List α}, (∀ a ∈ l, (f a).length = k) → (l.flatMap f).length = l.length * k
  | [], _ => by simp
  | a :: l, h => by
    rw [List.flatMap_cons, List.length_append, h a (by simp),
      length_flatMap_block fun x hx => h x (by simp [hx]), List.length_cons]
    ring

theorem everyOther_getElem? {α : Type} : ∀ (l : List α) (i : Nat), (everyOther l)[i]? = l[2 * i + 1]?
  | [], i => by simp [everyOther]
  | [a], i => by simp [everyOther]
  | a :: b :: rest, 0 => by simp [everyOther]
  | a :: b :: rest, i + 1 => by
    rw [everyOther, List.getElem?_cons_succ, everyOther_getElem? rest i,
      show 2 * (i + 1) + 1 = (2 * i + 1) + 1 + 1 by omega]
    simp

section
variable {F : Type} [Field F]

@[simp] theorem linspace_length (a b : F) (n : Nat) : (linspace a b n).length = n := by simp [linspace]

theorem linspace_getElem? (a b : F) {n i : Nat} (h : i < n) (hn : 2 ≤ n) :
    (linspace a b n)[i]? = some (a + (i : F) * ((b - a) / ((n : F) - 1))) := by
  rw [linspace, List.getElem?_map, List.getElem?_range h]
  simp [show n ≠ 1 by omega]

theorem cellCentres_eq [CharZero F] (d : F) (k : Nat) :
    cellCentres d k = (List.range k).map fun (i : Nat) =>
      ((-d / 2 + (i : F) * (d / (k : F))) + (-d / 2 + ((i : F) + 1) * (d / (k : F)))) / 2 := by
  apply List.ext_getElem?
  intro i
  rw [cellCentres, everyOther_getElem?]
  by_cases h : i < k
  · rw [linspace_getElem? _ _ (by omega) (by omega), List.getElem?_map, List.getElem?_range h]
    have hk : (k : F) ≠ 0 := by exact_mod_cast (by omega : k ≠ 0)
    simp only [Option.map_some]
    congr 1
    push_cast
    rw [show (2 : F) * (k : F) + 1 - 1 = 2 * k by ring]
    field_simp
    ring
  · rw [List.getElem?_eq_none (by simp; omega), List.getElem?_eq_none (by simp; omega)]

end

theorem natClose_self (n : Nat) : natClose n n = true := by
  unfold natClose
  rw [sub_self, abs_zero, decide_eq_true_eq]
  positivity

theorem natClose_small {k n : Nat} (hn : n < 100000) : natClose k n = true ↔ k = n := by
  refine ⟨fun h => ?_, fun h => h ▸ natClose_self _⟩
  by_contra hne
  unfold natClose at h
  rw [decide_eq_true_eq] at h
  have h1 : (1 : Rat) ≤ |((k : Int) : Rat) - ((n : Int) : Rat)| := by
    have : (1 : Int) ≤ |(k : Int) - (n : Int)| := Int.one_le_abs (by omega)
    exact_mod_cast this
  have h2 : |((n : Int) : Rat)| ≤ 99999 := by
    rw [abs_of_nonneg (by positivity)]
    have : n ≤ 99999 := by omega
    exact_mod_cast this
  have h3 : 1 / 10 ^ 5 * |((n : Int) : Rat)| ≤ 1 / 10 ^ 5 * 99999 := mul_le_mul_of_nonneg_left h2 (by positivity)
  linarith

end Verif

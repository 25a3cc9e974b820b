/-
Lemmas about grids and regions.
-/
import Verif.Spec.Region
import Mathlib.Tactic.Linarith
import Mathlib.Tactic.Ring
import Mathlib.Tactic.FieldSimp
import Mathlib.Tactic.Positivity
namespace Verif

section
variable {F : Type} [Field F] [LinearOrder F] [IsStrictOrderedRing F]

theorem gridCoord_inj {c d : F} (hd : 0 < d) {n : Nat} {i j : Nat} (h : gridCoord c d n i = gridCoord c d n j) :
    i = j := by
  unfold gridCoord at h
  have h1 : ((i : F) - ((n : F) - 1) / 2) * d = ((j : F) - ((n : F) - 1) / 2) * d := by linarith
  have h2 := mul_right_cancel₀ hd.ne' h1
  have h3 : (i : F) = j := by linarith
  exact_mod_cast h3

/-- Consecutive coordinates. -/
theorem gridCoord_succ (c d : F) (n k : Nat) : gridCoord c d n (k + 1) - gridCoord c d n k = d := by
  unfold gridCoord
  push_cast
  ring

/-- Reflection at the centre. -/
theorem gridCoord_mirror (c d : F) {n k : Nat} (hk : k < n) :
    2 * c - gridCoord c d n k = gridCoord c d n (n - 1 - k) := by
  unfold gridCoord
  have : ((n - 1 - k : Nat) : F) = (n : F) - 1 - k := by
    rw [Nat.cast_sub (by omega), Nat.cast_sub (by omega), Nat.cast_one]
  rw [this]
  ring

theorem gridCoord_between {side c d : F} (hd : 0 < d) {n : Nat} (hn : FitsTimes side d n) {k : Nat} (hk : k < n) :
    Between side c 0 (gridCoord c d n k) := by
  have h1 : (k : F) + 1 ≤ n := by exact_mod_cast hk
  have h0 : (0 : F) ≤ k := Nat.cast_nonneg k
  have hs := hn.1
  unfold Between gridCoord
  rw [abs_le]
  constructor <;> nlinarith [mul_le_mul_of_nonneg_right h1 hd.le, mul_nonneg h0 hd.le]

/-- Every point is less than one spacing away from a coordinate. -/
theorem gridCoord_near {side c d x : F} (hd : 0 < d) {n : Nat} (hn : FitsTimes side d n) (h1 : 1 ≤ n)
    (hx : Between side c 0 x) : ∃ k < n, |x - gridCoord c d n k| < d := by
  unfold Between at hx
  rw [add_zero, abs_le] at hx
  obtain ⟨hx1, hx2⟩ := hx
  have hs := hn.2
  induction n with
  | zero => omega
  | succ m ih =>
    -- the first coordinate above `x - d`
    clear ih
    by_contra hcon
    push Not at hcon
    have hstep : ∀ k, k ≤ m → gridCoord c d (m + 1) k ≤ x - d := by
      intro k
      induction k with
      | zero =>
        intro _
        have h := hcon 0 (by omega)
        rw [le_abs] at h
        rcases h with h | h
        · linarith
        · exfalso
          unfold gridCoord at h
          push_cast at h hs
          nlinarith
      | succ k ih =>
        intro hk
        have h := hcon (k + 1) (by omega)
        have h' := ih (by omega)
        have h'' := gridCoord_succ c d (m + 1) k
        rw [le_abs] at h
        rcases h with h | h
        · linarith
        · exfalso
          linarith
    have h := hstep m le_rfl
    unfold gridCoord at h
    push_cast at h hs
    nlinarith

variable [FloorRing F]

theorem floor_fits {side d : F} (hd : 0 < d) {n : Nat} (hn : FitsTimes side d n) : ⌊side / d⌋ = (n : Int) := by
  rw [Int.floor_eq_iff]
  refine ⟨?_, ?_⟩
  · rw [le_div_iff₀ hd]; simpa using hn.1
  · rw [div_lt_iff₀ hd]; simpa using hn.2

theorem exists_fits {side d : F} (hd : 0 < d) (hs : 0 ≤ side) : ∃ n, FitsTimes side d n := by
  refine ⟨⌊side / d⌋.toNat, ?_⟩
  have h0 : 0 ≤ ⌊side / d⌋ := Int.floor_nonneg.2 (div_nonneg hs hd.le)
  have hc : ((⌊side / d⌋.toNat : Nat) : F) = (⌊side / d⌋ : F) := by
    rw [← Int.cast_natCast, Int.toNat_of_nonneg h0]
  unfold FitsTimes
  rw [hc]
  exact ⟨(le_div_iff₀ hd).1 (Int.floor_le _), (div_lt_iff₀ hd).1 (Int.lt_floor_add_one _)⟩

theorem singleAxis_eq {side c d : F} (hd : 0 < d) {n : Nat} (hn : FitsTimes side d n) (h1 : 1 ≤ n) :
    (singleAxis side d).map (fun x => x + lowLim side c) = (List.range n).map (gridCoord c d n) := by
  have hnum : numFloor side d = n := by unfold numFloor; rw [floor_fits hd hn]; rfl
  unfold singleAxis
  rw [hnum]
  have hlast : ((List.range n).map fun (k : Nat) => (k : F) * d).getLastD 0 = ((n : F) - 1) * d := by
    obtain ⟨m, rfl⟩ : ∃ m, n = m + 1 := ⟨n - 1, by omega⟩
    rw [List.range_succ, List.map_append, List.map_singleton, List.getLastD_concat]
    push_cast
    ring
  dsimp only
  rw [hlast, List.map_map, List.map_map]
  refine List.map_congr_left fun k _ => ?_
  simp only [Function.comp, lowLim, gridCoord]
  ring

end

/-! ### lists of combinations -/

theorem nodup_flatMap_pairs {α β γ : Type} {l : List α} {f : α → List β} {g : α → β → γ}
    (hl : l.Nodup) (hf : ∀ a ∈ l, (f a).Nodup)
    (hg : ∀ a ∈ l, ∀ b ∈ f a, ∀ a' ∈ l, ∀ b' ∈ f a', g a b = g a' b' → a = a' ∧ b = b') :
    (l.flatMap fun a => (f a).map (g a)).Nodup := by
  rw [List.nodup_flatMap]
  refine ⟨fun a ha => ?_, ?_⟩
  · rw [List.nodup_map_iff_inj_on (hf a ha)]
    intro x hx y hy h
    exact (hg a ha x hx a ha y hy h).2
  · have hp := hl
    rw [List.Nodup, List.pairwise_iff_forall_sublist] at hp
    rw [List.pairwise_iff_forall_sublist]
    intro a b hs
    have hne := hp hs
    have ha : a ∈ l := hs.subset (by simp)
    have hb : b ∈ l := hs.subset (by simp)
    show List.Disjoint _ _
    intro y h1 h2
    obtain ⟨u, hu, rfl⟩ := List.mem_map.1 h1
    obtain ⟨v, hv, e⟩ := List.mem_map.1 h2
    exact hne (hg b hb v hv a ha u hu e).1.symm

end Verif

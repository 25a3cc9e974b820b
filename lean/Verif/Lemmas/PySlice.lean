import Verif.Model.PySlice
import Mathlib.Tactic.Linarith
import Mathlib.Tactic.Push

namespace Verif

theorem pyClamp_nat {len : Nat} {i : Nat} (h : i ≤ len) : pyClamp len (i : Int) = i := by
  unfold pyClamp
  rw [if_neg (by omega)]
  omega

theorem pyClamp_of_nonneg {len : Nat} {i : Int} (h0 : 0 ≤ i) (h : i ≤ len) :
    pyClamp len i = i.toNat := by
  unfold pyClamp
  rw [if_neg (by omega)]
  omega

theorem pyClamp_of_neg {len : Nat} {i : Int} (h0 : i < 0) :
    pyClamp len i = (i + len).toNat := by
  unfold pyClamp
  rw [if_pos h0]

theorem pySlice_append {α : Type} (a b c : List α) {i j : Int} (hi : i = a.length)
    (hj : j = a.length + b.length) : pySlice (a ++ b ++ c) i j = b := by
  subst hi hj
  unfold pySlice
  rw [pyClamp_nat (by simp)]
  have : ((a.length : Int) + b.length) = ((a.length + b.length : Nat) : Int) := by push_cast; rfl
  rw [this, pyClamp_nat (by simp)]
  rw [List.append_assoc, List.take_append]
  simp

theorem pyAssign_append {α : Type} (a b c v : List α) {i j : Int} (hi : i = a.length)
    (hj : j = a.length + b.length) (hv : v.length = b.length) :
    pyAssign (a ++ b ++ c) i j v = some (a ++ v ++ c) := by
  subst hi hj
  unfold pyAssign
  rw [pyClamp_nat (by simp)]
  have : ((a.length : Int) + b.length) = ((a.length + b.length : Nat) : Int) := by push_cast; rfl
  rw [this, pyClamp_nat (by simp)]
  have h1 : max a.length (a.length + b.length) - a.length = v.length := by omega
  have h2 : max a.length (a.length + b.length) = (a ++ b).length := by simp
  simp only [h1, broadcastRow, if_true, Option.map_some]
  have h3 : List.take a.length (a ++ b ++ c) = a := by
    rw [List.append_assoc, List.take_left]
  rw [h2, List.drop_left, h3]

theorem pyAddAssign_append {α : Type} [Add α] (a b c v : List α) {i j : Int} (hi : i = a.length)
    (hj : j = a.length + b.length) (hv : v.length = b.length) :
    pyAddAssign (a ++ b ++ c) i j v = some (a ++ List.zipWith (· + ·) b v ++ c) := by
  subst hi hj
  unfold pyAddAssign
  rw [pyClamp_nat (by simp)]
  have : ((a.length : Int) + b.length) = ((a.length + b.length : Nat) : Int) := by push_cast; rfl
  rw [this, pyClamp_nat (by simp)]
  have h1 : max a.length (a.length + b.length) - a.length = v.length := by omega
  have h2 : max a.length (a.length + b.length) = (a ++ b).length := by simp
  simp only [h1, broadcastRow, if_true, Option.map_some]
  have h3 : List.take a.length (a ++ b ++ c) = a := by
    rw [List.append_assoc, List.take_left]
  rw [h2, List.drop_left, List.take_left, List.drop_left, h3]

theorem mapM_some_map {α β : Type} {f : α → Option β} {g : α → β} :
    ∀ {l : List α}, (∀ x ∈ l, f x = some (g x)) → l.mapM f = some (l.map g)
  | [], _ => by simp
  | x :: xs, h => by
    rw [List.mapM_cons, h x (by simp), mapM_some_map (fun y hy => h y (by simp [hy]))]
    simp

theorem pyRows_map {α : Type} {op : List α → List α → Option (List α)} {n : Nat}
    {f g h : Nat → List α} (H : ∀ c, c < n → op (f c) (g c) = some (h c)) :
    pyRows op ((List.range n).map f) ((List.range n).map g) = some ((List.range n).map h) := by
  unfold pyRows broadcastChan
  simp only [List.length_map, List.length_range, if_true, Option.bind_some]
  have : (List.zip ((List.range n).map f) ((List.range n).map g)) =
      (List.range n).map fun c => (f c, g c) := by
    rw [List.zip_map']
  rw [this, List.mapM_map]
  exact mapM_some_map (fun c hc => H c (by simpa using hc))

end Verif

import Verif.Spec.Stream
import Mathlib.Tactic.Ring
import Mathlib.Tactic.Linarith

namespace Verif

/-- A stream follows from a state invariant that every call preserves. -/
theorem isStream_of_inv {σ R : Type} {get : σ → Nat → Except PyErr (σ × List (List R))}
    {s0 : σ} {ch : Nat} {stream : Nat → Nat → R} (Inv : Nat → σ → Prop) (h0 : Inv 0 s0)
    (hstep : ∀ k s n, Inv k s → ∃ s', get s n = .ok (s', blockOf stream ch k n) ∧ Inv (k + n) s') :
    IsStream get s0 ch stream := by
  have : ∀ ns k s, Inv k s → ∃ s', runRequests get s ns = .ok (s', blocksOf stream ch k ns) := by
    intro ns
    induction ns with
    | nil => intro k s _; exact ⟨s, rfl⟩
    | cons n ns ih =>
      intro k s hs
      obtain ⟨s1, h1, h2⟩ := hstep k s n hs
      obtain ⟨s2, h3⟩ := ih (k + n) s1 h2
      exact ⟨s2, by simp [runRequests, h1, h3, blocksOf]⟩
  exact fun ns => this ns 0 s0 h0

theorem blockOf_getD {R : Type} (stream : Nat → Nat → R) (ch off n c : Nat) (hc : c < ch) :
    (blockOf stream ch off n).getD c [] = (List.range n).map fun j => stream c (off + j) := by
  simp [blockOf, hc]

theorem range_map_add {R : Type} (f : Nat → R) (a b : Nat) :
    (List.range (a + b)).map f = (List.range a).map f ++ (List.range b).map fun j => f (a + j) := by
  rw [List.range_add]
  simp [Function.comp_def]

theorem joinBlocks_blocksOf {R : Type} (stream : Nat → Nat → R) (ch : Nat) :
    ∀ ns off, joinBlocks ch (blocksOf stream ch off ns) = blockOf stream ch off ns.sum := by
  intro ns
  induction ns with
  | nil =>
    intro off
    simp [joinBlocks, blocksOf, blockOf]
  | cons n ns ih =>
    intro off
    have ih' := ih (off + n)
    unfold joinBlocks blockOf at ih' ⊢
    refine List.map_congr_left fun c hc => ?_
    have hc' : c < ch := by simpa using hc
    have := congrArg (fun l => l[c]?) ih'
    simp only [List.getElem?_map, List.getElem?_range hc', Option.map_some, Option.some.injEq] at this
    simp only [blocksOf, List.map_cons, List.flatten_cons, List.sum_cons]
    rw [this, blockOf_getD _ _ _ _ _ hc', range_map_add]
    simp [Nat.add_assoc]

end Verif

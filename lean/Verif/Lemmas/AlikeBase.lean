/-
Helpers for configurations that are alike.
-/
import Verif.Lemmas.Alike
namespace Verif

theorem exists_dyn (as : List ArrInfo) (h : ∀ a ∈ as, ∀ b ∈ as, a.name = b.name → a = b) :
    ∃ dyn : String → Bool, as.map (ArrInfo.withDyn dyn) = as ∧ ∀ a ∈ as, dyn a.name = a.dynamic := by
  have hd : ∀ a ∈ as, (as.find? fun b => b.name == a.name).any ArrInfo.dynamic = a.dynamic := by
    intro a ha
    cases hf : as.find? fun b => b.name == a.name with
    | none =>
      rw [List.find?_eq_none] at hf
      exact absurd (by simp) (hf a ha)
    | some b =>
      have h1 := List.mem_of_find?_eq_some hf
      have h2 : b.name = a.name := by simpa using List.find?_some hf
      rw [h b h1 a ha h2]
      rfl
  refine ⟨fun n => (as.find? fun b => b.name == n).any ArrInfo.dynamic, ?_, hd⟩
  refine (List.map_congr_left fun a ha => ?_).trans (List.map_id as)
  unfold ArrInfo.withDyn
  dsimp only
  rw [hd a ha]
  rfl

/-- With nothing hidden, stores that agree are equal. -/
theorem SameOff.eq {R : Type} {S S' : Sigs R} (h : SameOff (fun _ => false) S S') : S = S' := funext fun k => h k rfl

theorem blind_false {R P D O : Type} (ops : DiagOps R P D O) : Blind (fun _ => false) ops fun _ => True := by
  intro d p S S' iv gv d1 _ hS h
  rw [← hS.eq]
  exact ⟨h, trivial⟩

end Verif

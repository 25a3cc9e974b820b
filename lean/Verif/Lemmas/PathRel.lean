/-
Two collections of arrays that differ in their impulse responses only.
-/
import Verif.Lemmas.Alike
import Verif.Lemmas.HideColl
namespace Verif

section
variable {Pt H H' G : Type}

/-- Two collections with the same arrays whose paths correspond to each other. -/
structure PRel (okT : String → Prop) (RH : H → H' → Prop) (gc : G × Coll Pt H) (gc' : G × Coll Pt H') : Prop where
  gen : gc'.1 = gc.1
  arrays : gc'.2.arrays = gc.2.arrays
  mics : gc'.2.mics = gc.2.mics
  srcs : gc'.2.srcs = gc.2.srcs
  freq : gc'.2.freq = gc.2.freq
  types : gc'.2.types = gc.2.types
  paths : ∀ s m, Option.Rel RH (gc.2.paths s m) (gc'.2.paths s m)
  rirs : List.Forall₂ RH gc.2.rirs gc'.2.rirs
  det : ∀ s m t, gc.2.types s m = some t → okT t

/-- Two generators of impulse responses that correspond to each other. -/
def GenRel (okT : String → Prop) (RH : H → H' → Prop) (gen : GenFn Pt H G) (gen' : GenFn Pt H' G) : Prop :=
  ∀ g a b t g1 h, okT t → gen g a b t = .ok (g1, h) → ∃ h', gen' g a b t = .ok (g1, h') ∧ RH h h'

variable {okT : String → Prop} {RH : H → H' → Prop} {gen : GenFn Pt H G} {gen' : GenFn Pt H' G}

theorem PRel.find {gc : G × Coll Pt H} {gc' : G × Coll Pt H'} (h : PRel okT RH gc gc') (nm : String) :
    gc'.2.find nm = gc.2.find nm := by
  unfold Coll.find
  rw [h.arrays]

theorem PRel.combos {gc : G × Coll Pt H} {gc' : G × Coll Pt H'} (h : PRel okT RH gc gc') : gc'.2.combos = gc.2.combos := by
  unfold Coll.combos
  rw [h.srcs, h.mics]

theorem PRel.set {gc : G × Coll Pt H} {gc' : G × Coll Pt H'} (h : PRel okT RH gc gc') (g : G) (s m : String) {v : H} {v' : H'}
    (hv : RH v v') :
    PRel okT RH (g, { gc.2 with paths := set2 gc.2.paths s m v }) (g, { gc'.2 with paths := set2 gc'.2.paths s m v' }) where
  gen := rfl
  arrays := h.arrays
  mics := h.mics
  srcs := h.srcs
  freq := h.freq
  types := h.types
  paths := fun s' m' => by
    simp only [set2]
    split
    · exact .some hv
    · exact h.paths s' m'
  rirs := h.rirs
  det := h.det

theorem setupOne_rel (hg : GenRel okT RH gen gen') (h0 : okT "none") {gc gc1 : G × Coll Pt H} {gc' : G × Coll Pt H'}
    (h : PRel okT RH gc gc') {p : String × String} (hx : Coll.setupOne gen gc p = .ok gc1) :
    ∃ gc1', Coll.setupOne gen' gc' p = .ok gc1' ∧ PRel okT RH gc1 gc1' := by
  unfold Coll.setupOne at hx ⊢
  rw [h.find, h.find, h.types, h.gen]
  cases hf1 : gc.2.find p.1 with
  | none => rw [hf1] at hx; cases hx
  | some s =>
    cases hf2 : gc.2.find p.2 with
    | none => rw [hf1, hf2] at hx; cases hx
    | some m =>
      rw [hf1, hf2] at hx
      dsimp only at hx ⊢
      cases ht : (if s.num = 0 ∨ m.num = 0 then some "none" else gc.2.types p.1 p.2) with
      | none => rw [ht] at hx; cases hx
      | some t =>
        rw [ht] at hx
        dsimp only at hx ⊢
        have hok : okT t := by
          split at ht
          · cases ht; exact h0
          · exact h.det _ _ _ ht
        split at hx
        · rename_i hne
          rw [if_pos hne]
          split at hx
          · cases hx
          · rename_i g1 v hv
            obtain ⟨v', hv', hr⟩ := hg _ _ _ _ _ _ hok hv
            rw [hv']
            cases hx
            exact ⟨_, rfl, h.set _ _ _ hr⟩
        · rename_i hne
          rw [if_neg hne]
          cases hx
          exact ⟨_, rfl, h⟩

theorem setupIr_rel (hg : GenRel okT RH gen gen') (h0 : okT "none") {gc gc1 : G × Coll Pt H} {gc' : G × Coll Pt H'}
    (h : PRel okT RH gc gc') (hx : gc.2.setupIr gen gc.1 = .ok gc1) :
    ∃ gc1', gc'.2.setupIr gen' gc'.1 = .ok gc1' ∧ PRel okT RH gc1 gc1' := by
  unfold Coll.setupIr at hx ⊢
  have hc' : gc'.2.calcRirParameters = gc.2.calcRirParameters := by
    unfold Coll.calcRirParameters
    rw [h.combos]
    simp only [h.find]
  rw [hc', h.combos]
  cases hc : gc.2.calcRirParameters with
  | error x => rw [hc] at hx; cases hx
  | ok u =>
    rw [hc] at hx
    exact foldlM_alike (PRel okT RH) h (fun p _ a b a1 hab ha => setupOne_rel hg h0 hab ha) hx

theorem updatePath_rel (hg : GenRel okT RH gen gen') {gc gc1 : G × Coll Pt H} {gc' : G × Coll Pt H'}
    (h : PRel okT RH gc gc') {s m : String} (hx : Coll.updatePath gen gc s m = .ok gc1) :
    ∃ gc1', Coll.updatePath gen' gc' s m = .ok gc1' ∧ PRel okT RH gc1 gc1' := by
  unfold Coll.updatePath at hx ⊢
  rw [h.find, h.find, h.types, h.gen]
  cases hf1 : gc.2.find s with
  | none => rw [hf1] at hx; cases hx
  | some a =>
    cases hf2 : gc.2.find m with
    | none => rw [hf1, hf2] at hx; cases hx
    | some b =>
      cases ht : gc.2.types s m with
      | none => rw [hf1, hf2, ht] at hx; cases hx
      | some t =>
        rw [hf1, hf2, ht] at hx
        dsimp only at hx ⊢
        split at hx
        · cases hx
        · rename_i hne
          rw [if_neg hne]
          split at hx
          · cases hx
          · rename_i g1 v hv
            obtain ⟨v', hv', hr⟩ := hg _ _ _ _ _ _ (h.det _ _ _ ht) hv
            rw [hv']
            cases hx
            exact ⟨_, rfl, h.set _ _ _ hr⟩

theorem updateLoop_rel (hg : GenRel okT RH gen gen') : ∀ (l al : List String) {gc gc1 : G × Coll Pt H} {gc' : G × Coll Pt H'},
    PRel okT RH gc gc' → Coll.updateLoop gen l al gc = .ok gc1 →
    ∃ gc1', Coll.updateLoop gen' l al gc' = .ok gc1' ∧ PRel okT RH gc1 gc1'
  | [], al, gc, gc1, gc', h, hx => by
    simp only [Coll.updateLoop] at hx
    cases hx
    exact ⟨_, rfl, h⟩
  | nm :: l, al, gc, gc1, gc', h, hx => by
    simp only [Coll.updateLoop] at hx ⊢
    rw [h.find, h.srcs, h.mics]
    cases hf : gc.2.find nm with
    | none => rw [hf] at hx; cases hx
    | some a =>
      rw [hf] at hx
      dsimp only at hx ⊢
      cases hk : a.kind with
      | none => rw [hk] at hx; cases hx
      | some k =>
        rw [hk] at hx
        cases k with
        | mic =>
          dsimp only at hx ⊢
          cases hfold : (gc.2.srcs.filter fun s => !al.contains s).foldlM (fun gc s => Coll.updatePath gen gc s nm) gc with
          | error x => rw [hfold] at hx; cases hx
          | ok gc2 =>
            rw [hfold] at hx
            obtain ⟨gc2', hf2, hr2⟩ := foldlM_alike (f' := fun gc' s => Coll.updatePath gen' gc' s nm) (PRel okT RH) h
              (fun x _ a b a1 hab ha => updatePath_rel hg hab ha) hfold
            rw [hf2]
            dsimp only at hx ⊢
            rw [hr2.srcs]
            cases hlast : gc2.2.srcs.getLast? with
            | none => rw [hlast] at hx; cases hx
            | some s =>
              rw [hlast] at hx
              dsimp only at hx ⊢
              have hp := hr2.paths s nm
              cases hps : gc2.2.paths s nm with
              | none => rw [hps] at hx; cases hx
              | some v =>
                rw [hps] at hx hp
                cases hps' : gc2'.2.paths s nm with
                | none => rw [hps'] at hp; cases hp
                | some v' =>
                  rw [hps'] at hp
                  cases hp with
                  | some hv =>
                    dsimp only at hx ⊢
                    refine updateLoop_rel hg l (al ++ [nm]) ?_ hx
                    exact ⟨hr2.gen, hr2.arrays, hr2.mics, rfl, hr2.freq, hr2.types, hr2.paths,
                      List.rel_append hr2.rirs (.cons hv .nil), hr2.det⟩
        | free =>
          dsimp only at hx ⊢
          cases hfold : (gc.2.mics.filter fun m => !al.contains m).foldlM (fun gc m => Coll.updatePath gen gc nm m) gc with
          | error x => rw [hfold] at hx; cases hx
          | ok gc2 =>
            rw [hfold] at hx
            obtain ⟨gc2', hf2, hr2⟩ := foldlM_alike (f' := fun gc' m => Coll.updatePath gen' gc' nm m) (PRel okT RH) h
              (fun x _ a b a1 hab ha => updatePath_rel hg hab ha) hfold
            rw [hf2]
            exact updateLoop_rel hg l (al ++ [nm]) hr2 hx
        | ctrl =>
          dsimp only at hx ⊢
          cases hfold : (gc.2.mics.filter fun m => !al.contains m).foldlM (fun gc m => Coll.updatePath gen gc nm m) gc with
          | error x => rw [hfold] at hx; cases hx
          | ok gc2 =>
            rw [hfold] at hx
            obtain ⟨gc2', hf2, hr2⟩ := foldlM_alike (f' := fun gc' m => Coll.updatePath gen' gc' nm m) (PRel okT RH) h
              (fun x _ a b a1 hab ha => updatePath_rel hg hab ha) hfold
            rw [hf2]
            exact updateLoop_rel hg l (al ++ [nm]) hr2 hx

theorem update_rel (hg : GenRel okT RH gen gen') {gc gc1 : G × Coll Pt H} {gc' : G × Coll Pt H'} {n : Nat}
    (h : PRel okT RH gc gc') (hx : Coll.update gen gc n = .ok gc1) :
    ∃ gc1', Coll.update gen' gc' n = .ok gc1' ∧ PRel okT RH gc1 gc1' := by
  unfold Coll.update at hx ⊢
  rw [h.freq, h.arrays, h.gen]
  split at hx
  · cases hx
  · rename_i h1
    rw [if_neg h1]
    split at hx
    · rename_i h2
      rw [if_pos h2]
      cases hx
      exact ⟨_, rfl, h⟩
    · rename_i h2
      rw [if_neg h2]
      refine updateLoop_rel hg _ [] ?_ hx
      exact ⟨rfl, rfl, h.mics, h.srcs, h.freq, h.types, h.paths, h.rirs, h.det⟩

theorem path_rel {gc : G × Coll Pt H} {gc' : G × Coll Pt H'} (h : PRel okT RH gc gc') {s m : String} {v : H}
    (hx : Coll.path gc s m = .ok v) : ∃ v', Coll.path gc' s m = .ok v' ∧ RH v v' := by
  unfold Coll.path at hx ⊢
  have hp := h.paths s m
  cases hv : gc.2.paths s m with
  | none => rw [hv] at hx; cases hx
  | some w =>
    rw [hv] at hx hp
    cases hx
    cases hv' : gc'.2.paths s m with
    | none => rw [hv'] at hp; cases hp
    | some w' =>
      rw [hv'] at hp
      cases hp with
      | some hr => exact ⟨_, rfl, hr⟩

end
end Verif

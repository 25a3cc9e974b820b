/-
Two collections of arrays of which the second one has been given some impulse responses of the first one.
-/
import Verif.Lemmas.Alike
import Verif.Lemmas.HideColl
import Verif.Lemmas.Setup
import Verif.Spec.Given
namespace Verif

section
variable {Pt H G : Type}

/-- With type `t`, the generator gives the same response in every state. -/
def SteadyAt (gen : GenFn Pt H G) (t : String) : Prop :=
  ∀ g g' a b g1 h, gen g a b t = .ok (g1, h) → ∃ g1', gen g' a b t = .ok (g1', h)

/-- Two collections with the same arrays; the second one has been given the responses `P` of the pairs `Q`. -/
structure KRel (gen : GenFn Pt H G) (Q : List (String × String)) (P : String → String → Option H) (gc gc' : G × Coll Pt H) : Prop where
  arrays : gc'.2.arrays = gc.2.arrays
  mics : gc'.2.mics = gc.2.mics
  srcs : gc'.2.srcs = gc.2.srcs
  freq : gc'.2.freq = gc.2.freq
  rirs : gc'.2.rirs = gc.2.rirs
  types : ∀ s ∈ gc.2.srcs, ∀ m ∈ gc.2.mics, (s, m) ∉ Q → gc'.2.types s m = gc.2.types s m
  mod : ∀ s m, (s, m) ∈ Q → gc'.2.types s m = some "modified"
  det : ∀ s ∈ gc.2.srcs, ∀ m ∈ gc.2.mics, (s, m) ∉ Q → ∀ t, gc.2.types s m = some t → SteadyAt gen t
  paths : ∀ s m, (s, m) ∉ Q → gc'.2.paths s m = gc.2.paths s m
  given : ∀ s m, (s, m) ∈ Q → gc'.2.paths s m = P s m

variable {gen : GenFn Pt H G} {Q : List (String × String)} {P : String → String → Option H}

theorem KRel.find {gc gc' : G × Coll Pt H} (h : KRel gen Q P gc gc') (nm : String) : gc'.2.find nm = gc.2.find nm := by
  unfold Coll.find
  rw [h.arrays]

theorem KRel.combos {gc gc' : G × Coll Pt H} (h : KRel gen Q P gc gc') : gc'.2.combos = gc.2.combos := by
  unfold Coll.combos
  rw [h.srcs, h.mics]

theorem KRel.set {gc gc' : G × Coll Pt H} (h : KRel gen Q P gc gc') (g g' : G) {s m : String} (hq : (s, m) ∉ Q) (v : H) :
    KRel gen Q P (g, { gc.2 with paths := set2 gc.2.paths s m v }) (g', { gc'.2 with paths := set2 gc'.2.paths s m v }) where
  arrays := h.arrays
  mics := h.mics
  srcs := h.srcs
  freq := h.freq
  rirs := h.rirs
  types := h.types
  mod := h.mod
  det := h.det
  paths := fun s' m' hq' => by
    simp only [set2]
    rw [h.paths s' m' hq']
  given := fun s' m' hq' => by
    simp only [set2]
    rw [if_neg]
    · exact h.given s' m' hq'
    · rintro ⟨rfl, rfl⟩
      exact hq hq'

theorem KRel.set_left {gc gc' : G × Coll Pt H} (h : KRel gen Q P gc gc') (g : G) {s m : String} (hq : (s, m) ∈ Q) (v : H) :
    KRel gen Q P (g, { gc.2 with paths := set2 gc.2.paths s m v }) gc' where
  arrays := h.arrays
  mics := h.mics
  srcs := h.srcs
  freq := h.freq
  rirs := h.rirs
  types := h.types
  mod := h.mod
  det := h.det
  paths := fun s' m' hq' => by
    simp only [set2]
    rw [if_neg]
    · exact h.paths s' m' hq'
    · rintro ⟨rfl, rfl⟩
      exact hq' hq
  given := h.given

theorem setupOne_given {gc gc' gc1 : G × Coll Pt H} (h : KRel gen Q P gc gc') (hnum : ∀ a ∈ gc.2.arrays, 0 < a.num)
    {p : String × String} (hs : p.1 ∈ gc.2.srcs) (hm : p.2 ∈ gc.2.mics) (hx : Coll.setupOne gen gc p = .ok gc1) :
    ∃ gc1', Coll.setupOne gen gc' p = .ok gc1' ∧ KRel gen Q P gc1 gc1' := by
  unfold Coll.setupOne at hx ⊢
  rw [h.find, h.find]
  cases hf1 : gc.2.find p.1 with
  | none => rw [hf1] at hx; cases hx
  | some s =>
    cases hf2 : gc.2.find p.2 with
    | none => rw [hf1, hf2] at hx; cases hx
    | some m =>
      rw [hf1, hf2] at hx
      dsimp only at hx ⊢
      have h0 : ¬ (s.num = 0 ∨ m.num = 0) := by
        have h1 := hnum s (List.mem_of_find?_eq_some hf1)
        have h2 := hnum m (List.mem_of_find?_eq_some hf2)
        omega
      rw [if_neg h0] at hx ⊢
      by_cases hq : (p.1, p.2) ∈ Q
      · rw [h.mod _ _ hq]
        refine ⟨gc', rfl, ?_⟩
        split at hx
        · cases hx
        · split at hx
          · split at hx
            · cases hx
            · cases hx
              exact h.set_left _ hq _
          · cases hx
            exact h
      · rw [h.types _ hs _ hm hq]
        cases ht : gc.2.types p.1 p.2 with
        | none => rw [ht] at hx; cases hx
        | some t =>
          rw [ht] at hx
          dsimp only at hx ⊢
          split at hx
          · rename_i hne
            rw [if_pos hne]
            split at hx
            · cases hx
            · rename_i g1 v hv
              obtain ⟨g2, hg2⟩ := h.det _ hs _ hm hq _ ht _ gc'.1 _ _ _ _ hv
              rw [hg2]
              cases hx
              exact ⟨_, rfl, h.set _ _ hq _⟩
          · rename_i hne
            rw [if_neg hne]
            cases hx
            exact ⟨_, rfl, h⟩

theorem setupOne_lists' {gc gc1 : G × Coll Pt H} {p : String × String} (hx : Coll.setupOne gen gc p = .ok gc1) :
    gc1.2.arrays = gc.2.arrays ∧ gc1.2.srcs = gc.2.srcs ∧ gc1.2.mics = gc.2.mics := by
  unfold Coll.setupOne at hx
  split at hx
  · split at hx
    · cases hx
    · split at hx
      · split at hx
        · cases hx
        · cases hx; exact ⟨rfl, rfl, rfl⟩
      · cases hx; exact ⟨rfl, rfl, rfl⟩
  · cases hx

theorem setupIr_given {g g' : G} {c c' : Coll Pt H} {gc1 : G × Coll Pt H} (h : KRel gen Q P (g, c) (g', c'))
    (hnum : ∀ a ∈ c.arrays, 0 < a.num) (hx : c.setupIr gen g = .ok gc1) :
    ∃ gc1', c'.setupIr gen g' = .ok gc1' ∧ KRel gen Q P gc1 gc1' ∧ gc1.2.arrays = c.arrays ∧
      gc1.2.srcs = c.srcs ∧ gc1.2.mics = c.mics := by
  unfold Coll.setupIr at hx ⊢
  have hc' : c'.calcRirParameters = c.calcRirParameters := by
    unfold Coll.calcRirParameters
    rw [show c'.combos = c.combos from h.combos]
    simp only [show ∀ nm, c'.find nm = c.find nm from h.find]
  rw [hc', show c'.combos = c.combos from h.combos]
  cases hc : c.calcRirParameters with
  | error x => rw [hc] at hx; cases hx
  | ok u =>
    rw [hc] at hx
    exact foldlM_alike (f' := Coll.setupOne gen)
      (fun a b : G × Coll Pt H => KRel gen Q P a b ∧ a.2.arrays = c.arrays ∧ a.2.srcs = c.srcs ∧ a.2.mics = c.mics) (b := (g', c'))
      ⟨h, rfl, rfl, rfl⟩ (fun p hp a b a1 hab ha => by
        obtain ⟨k1, k2, k3, k4⟩ := hab
        have hp' := Coll.mem_combos.1 (show (p.1, p.2) ∈ c.combos from hp)
        obtain ⟨b1, e1, e2⟩ := setupOne_given k1 (by rw [k2]; exact hnum) (by rw [k3]; exact hp'.1) (by rw [k4]; exact hp'.2) ha
        obtain ⟨l1, l2, l3⟩ := setupOne_lists' ha
        exact ⟨b1, e1, e2, l1.trans k2, l2.trans k3, l3.trans k4⟩) hx

/-- After the preparation: also the first collection has these responses, and their arrays do not move. -/
structure KFull (gen : GenFn Pt H G) (Q : List (String × String)) (P : String → String → Option H) (gc gc' : G × Coll Pt H) : Prop
    extends KRel gen Q P gc gc' where
  same : ∀ s m, (s, m) ∈ Q → gc.2.paths s m = P s m
  fixed : ∀ a ∈ gc.2.arrays, a.dynamic = true → ∀ s m, (s, m) ∈ Q → s ≠ a.name ∧ m ≠ a.name
  names : (gc.2.arrays.map Arr.name).Nodup
  kinds : ∀ a ∈ gc.2.arrays, (a.kind = some .mic → a.name ∈ gc.2.mics) ∧
    (∀ k, a.kind = some k → k ≠ .mic → a.name ∈ gc.2.srcs)

theorem KFull.all {gc gc' : G × Coll Pt H} (h : KFull gen Q P gc gc') (s m : String) : gc'.2.paths s m = gc.2.paths s m := by
  by_cases hq : (s, m) ∈ Q
  · rw [h.given s m hq, h.same s m hq]
  · exact h.paths s m hq

theorem KFull.set {gc gc' : G × Coll Pt H} (h : KFull gen Q P gc gc') (g g' : G) {s m : String} (hq : (s, m) ∉ Q) (v : H) :
    KFull gen Q P (g, { gc.2 with paths := set2 gc.2.paths s m v }) (g', { gc'.2 with paths := set2 gc'.2.paths s m v }) where
  toKRel := h.toKRel.set g g' hq v
  same := fun s' m' hq' => by
    simp only [set2]
    rw [if_neg]
    · exact h.same s' m' hq'
    · rintro ⟨rfl, rfl⟩
      exact hq hq'
  fixed := h.fixed
  names := h.names
  kinds := h.kinds

theorem updatePath_given {gc gc' gc1 : G × Coll Pt H} (h : KFull gen Q P gc gc') {s m : String} (hs : s ∈ gc.2.srcs)
    (hm : m ∈ gc.2.mics) (hq : (s, m) ∉ Q) (hx : Coll.updatePath gen gc s m = .ok gc1) :
    ∃ gc1', Coll.updatePath gen gc' s m = .ok gc1' ∧ KFull gen Q P gc1 gc1' ∧ gc1.2.arrays = gc.2.arrays ∧
      gc1.2.srcs = gc.2.srcs ∧ gc1.2.mics = gc.2.mics := by
  unfold Coll.updatePath at hx ⊢
  rw [h.find, h.find, h.types _ hs _ hm hq]
  cases hf1 : gc.2.find s with
  | none => rw [hf1] at hx; cases hx
  | some a =>
    cases hf2 : gc.2.find m with
    | none => rw [hf1, hf2] at hx; cases hx
    | some b =>
      cases ht : gc.2.types s m with
      | none => rw [hf1, hf2, ht] at hx; cases hx
      | some t =>
        rw [hf1, hf2, ht] at hx
        dsimp only at hx ⊢
        split at hx
        · cases hx
        · rename_i hne
          rw [if_neg hne]
          split at hx
          · cases hx
          · rename_i g1 v hv
            obtain ⟨g2, hg2⟩ := h.det _ hs _ hm hq _ ht _ gc'.1 _ _ _ _ hv
            rw [hg2]
            cases hx
            exact ⟨_, rfl, h.set _ _ hq _, rfl, rfl, rfl⟩

theorem updateFold_given (ls : List (String × String)) {gc gc' gc1 : G × Coll Pt H} (h : KFull gen Q P gc gc')
    (hl : ∀ p ∈ ls, p.1 ∈ gc.2.srcs ∧ p.2 ∈ gc.2.mics ∧ p ∉ Q)
    (hx : ls.foldlM (fun gc p => Coll.updatePath gen gc p.1 p.2) gc = .ok gc1) :
    ∃ gc1', ls.foldlM (fun gc p => Coll.updatePath gen gc p.1 p.2) gc' = .ok gc1' ∧ KFull gen Q P gc1 gc1' ∧
      gc1.2.arrays = gc.2.arrays ∧ gc1.2.srcs = gc.2.srcs ∧ gc1.2.mics = gc.2.mics := by
  refine foldlM_alike (f' := fun gc p => Coll.updatePath gen gc p.1 p.2) (fun a b : G × Coll Pt H => KFull gen Q P a b ∧
    a.2.arrays = gc.2.arrays ∧ a.2.srcs = gc.2.srcs ∧ a.2.mics = gc.2.mics) ⟨h, rfl, rfl, rfl⟩ ?_ hx
  rintro p hp a b a1 ⟨k1, k2, k3, k4⟩ ha
  obtain ⟨e1, e2, e3⟩ := hl p hp
  obtain ⟨b1, l1, l2, l3, l4, l5⟩ := updatePath_given k1 (by rw [k3]; exact e1) (by rw [k4]; exact e2) e3 ha
  exact ⟨b1, l1, l2, l3.trans k2, l4.trans k3, l5.trans k4⟩

theorem updateLoop_given : ∀ (l al : List String) {gc gc' gc1 : G × Coll Pt H}, KFull gen Q P gc gc' →
    (∀ nm ∈ l, ∃ a ∈ gc.2.arrays, a.name = nm ∧ a.dynamic = true) →
    Coll.updateLoop gen l al gc = .ok gc1 → ∃ gc1', Coll.updateLoop gen l al gc' = .ok gc1' ∧ KFull gen Q P gc1 gc1'
  | [], al, gc, gc', gc1, h, _, hx => by
    simp only [Coll.updateLoop] at hx
    cases hx
    exact ⟨_, rfl, h⟩
  | nm :: l, al, gc, gc', gc1, h, hd, hx => by
    simp only [Coll.updateLoop] at hx ⊢
    rw [h.find, h.srcs, h.mics]
    obtain ⟨d, hd1, rfl, hd3⟩ := hd nm List.mem_cons_self
    have hfx := h.fixed d hd1 hd3
    cases hf : gc.2.find d.name with
    | none => rw [hf] at hx; cases hx
    | some a =>
      rw [hf] at hx
      dsimp only at hx ⊢
      have ha : a ∈ gc.2.arrays := List.mem_of_find?_eq_some hf
      have han : a.name = d.name := by simpa using List.find?_some hf
      have had : a = d := inj_of_nodup h.names ha hd1 han
      subst had
      have src : ∀ k, a.kind = some k → k ≠ .mic →
          (match (gc.2.mics.filter fun m => !al.contains m).foldlM (fun gc m => Coll.updatePath gen gc a.name m) gc with
            | .error x => (.error x : Except PyErr (G × Coll Pt H))
            | .ok gc => Coll.updateLoop gen l (al ++ [a.name]) gc) = .ok gc1 →
          ∃ gc1', (match (gc.2.mics.filter fun m => !al.contains m).foldlM (fun gc m => Coll.updatePath gen gc a.name m) gc' with
            | .error x => (.error x : Except PyErr (G × Coll Pt H))
            | .ok gc => Coll.updateLoop gen l (al ++ [a.name]) gc) = .ok gc1' ∧ KFull gen Q P gc1 gc1' := by
        intro k hk hne hx
        cases hfold : (gc.2.mics.filter fun m => !al.contains m).foldlM (fun gc m => Coll.updatePath gen gc a.name m) gc with
        | error x => rw [hfold] at hx; cases hx
        | ok gc2 =>
          rw [hfold] at hx
          obtain ⟨gc2', hf2, hr2, ea, es, em⟩ := updateFold_given
            ((gc.2.mics.filter fun m => !al.contains m).map fun m => (a.name, m)) h (by
              intro p hp
              obtain ⟨m, hm, rfl⟩ := List.mem_map.1 hp
              exact ⟨(h.kinds a ha).2 k hk hne, (List.mem_filter.1 hm).1, fun hq => (hfx _ _ hq).1 rfl⟩)
            (by rw [List.foldlM_map]; exact hfold)
          rw [List.foldlM_map] at hf2
          rw [hf2]
          refine updateLoop_given l _ hr2 ?_ hx
          · rw [ea]; exact fun nm hnm => hd nm (List.mem_cons_of_mem _ hnm)
      cases hk : a.kind with
      | none => rw [hk] at hx; cases hx
      | some k =>
        rw [hk] at hx
        cases k with
        | mic =>
          dsimp only at hx ⊢
          cases hfold : (gc.2.srcs.filter fun s => !al.contains s).foldlM (fun gc s => Coll.updatePath gen gc s a.name) gc with
          | error x => rw [hfold] at hx; cases hx
          | ok gc2 =>
            rw [hfold] at hx
            obtain ⟨gc2', hf2, hr2, ea, es, em⟩ := updateFold_given
              ((gc.2.srcs.filter fun s => !al.contains s).map fun s => (s, a.name)) h (by
                intro p hp
                obtain ⟨m, hm, rfl⟩ := List.mem_map.1 hp
                exact ⟨(List.mem_filter.1 hm).1, (h.kinds a ha).1 hk, fun hq => (hfx _ _ hq).2 rfl⟩)
              (by rw [List.foldlM_map]; exact hfold)
            rw [List.foldlM_map] at hf2
            rw [hf2]
            dsimp only at hx ⊢
            rw [hr2.srcs]
            cases hlast : gc2.2.srcs.getLast? with
            | none => rw [hlast] at hx; cases hx
            | some s =>
              rw [hlast] at hx
              dsimp only at hx ⊢
              rw [hr2.all]
              cases hps : gc2.2.paths s a.name with
              | none => rw [hps] at hx; cases hx
              | some v =>
                rw [hps] at hx
                dsimp only at hx ⊢
                refine updateLoop_given l (al ++ [a.name]) ?_ ?_ hx
                · exact ⟨⟨hr2.arrays, hr2.mics, rfl, hr2.freq, by dsimp only; rw [hr2.rirs], hr2.types, hr2.mod, hr2.det,
                    hr2.paths, hr2.given⟩, hr2.same, hr2.fixed, hr2.names, hr2.kinds⟩
                · dsimp only; rw [ea]; exact fun nm hnm => hd nm (List.mem_cons_of_mem _ hnm)
        | free => exact src _ hk (by decide) hx
        | ctrl => exact src _ hk (by decide) hx

theorem update_given {gc gc' gc1 : G × Coll Pt H} {n : Nat} (h : KFull gen Q P gc gc') (hx : Coll.update gen gc n = .ok gc1) :
    ∃ gc1', Coll.update gen gc' n = .ok gc1' ∧ KFull gen Q P gc1 gc1' := by
  unfold Coll.update at hx ⊢
  rw [h.freq, h.arrays]
  split at hx
  · cases hx
  · rename_i h1
    rw [if_neg h1]
    split at hx
    · rename_i h2
      rw [if_pos h2]
      cases hx
      exact ⟨_, rfl, h⟩
    · rename_i h2
      rw [if_neg h2]
      refine updateLoop_given _ [] ?_ ?_ hx
      · refine ⟨⟨rfl, h.mics, h.srcs, h.freq, h.rirs, h.types, h.mod, h.det, h.paths, h.given⟩, h.same, ?_, ?_, ?_⟩
        · intro a ha hd
          obtain ⟨b, hb, rfl⟩ := List.mem_map.1 ha
          rw [Arr.update_name]
          exact h.fixed b hb (by unfold Arr.dynamic at hd ⊢; rwa [Arr.update_traj] at hd)
        · have : (gc.2.arrays.map (Arr.update n)).map Arr.name = gc.2.arrays.map Arr.name := by
            rw [List.map_map]
            exact List.map_congr_left fun a _ => Arr.update_name n a
          exact this ▸ h.names
        · intro a ha
          obtain ⟨b, hb, rfl⟩ := List.mem_map.1 ha
          rw [Arr.update_name, Arr.update_kind]
          exact h.kinds b hb
      · intro nm hnm
        obtain ⟨a, ha, rfl⟩ := List.mem_map.1 hnm
        obtain ⟨h3, h4⟩ := List.mem_filter.1 ha
        exact ⟨a.update n, List.mem_map.2 ⟨a, h3, rfl⟩, Arr.update_name n a, by unfold Arr.dynamic at h4 ⊢; rwa [Arr.update_traj]⟩

end
end Verif

/-
Preparing arrays whose impulse responses have been prepared before.
-/
import Verif.Lemmas.Given
import Verif.Lemmas.MapPos
namespace Verif

section
variable {Pt H G : Type} {gen : GenFn Pt H G}

/-- What `setup_ir` leaves behind: every pair is of type "modified" or has a response. -/
theorem setupFold_full : ∀ (l : List (String × String)) {gc gc1 : G × Coll Pt H}, (∀ a ∈ gc.2.arrays, 0 < a.num) →
    l.foldlM (Coll.setupOne gen) gc = .ok gc1 →
    gc1.2 = { gc.2 with paths := gc1.2.paths } ∧ (∀ s m, (gc.2.paths s m).isSome → (gc1.2.paths s m).isSome) ∧
    ∀ q ∈ l, (gc.2.find q.1).isSome ∧ (gc.2.find q.2).isSome ∧
      (gc.2.types q.1 q.2 = some "modified" ∨ (gc1.2.paths q.1 q.2).isSome)
  | [], gc, gc1, _, h => by
    cases h
    exact ⟨rfl, fun _ _ h => h, by simp⟩
  | q :: l, gc, gc1, hnum, h => by
    rw [List.foldlM_cons] at h
    cases hx : Coll.setupOne gen gc q with
    | error x => rw [hx] at h; cases h
    | ok gc2 =>
      rw [hx] at h
      have one : gc2.2 = { gc.2 with paths := gc2.2.paths } ∧
          (∀ s m, (gc.2.paths s m).isSome → (gc2.2.paths s m).isSome) ∧
          (gc.2.find q.1).isSome ∧ (gc.2.find q.2).isSome ∧
          (gc.2.types q.1 q.2 = some "modified" ∨ (gc2.2.paths q.1 q.2).isSome) := by
        unfold Coll.setupOne at hx
        cases hf1 : gc.2.find q.1 with
        | none => rw [hf1] at hx; cases hx
        | some s =>
          cases hf2 : gc.2.find q.2 with
          | none => rw [hf1, hf2] at hx; cases hx
          | some m =>
            rw [hf1, hf2] at hx
            dsimp only at hx
            have h1 := hnum s (List.mem_of_find?_eq_some hf1)
            have h2 := hnum m (List.mem_of_find?_eq_some hf2)
            rw [if_neg (by omega)] at hx
            cases ht : gc.2.types q.1 q.2 with
            | none => rw [ht] at hx; cases hx
            | some t =>
              rw [ht] at hx
              dsimp only at hx
              split at hx
              · split at hx
                · cases hx
                · cases hx
                  refine ⟨rfl, fun s' m' h' => ?_, rfl, rfl, .inr ?_⟩
                  · simp only [set2]
                    split
                    · rfl
                    · exact h'
                  · simp [set2]
              · rename_i hne
                cases hx
                exact ⟨rfl, fun _ _ h => h, rfl, rfl, .inl (by rw [not_not.1 hne])⟩
      obtain ⟨o1, o2, o3, o4, o5⟩ := one
      obtain ⟨r1, r2, r3⟩ := setupFold_full l (gc := gc2) (by rw [o1]; exact hnum) h
      refine ⟨by rw [r1, o1], fun s m h' => r2 s m (o2 s m h'), fun p hp => ?_⟩
      rcases List.mem_cons.1 hp with rfl | hp
      · exact ⟨o3, o4, o5.imp id (r2 _ _)⟩
      · have := r3 p hp
        rw [o1] at this
        exact this

theorem setupFold_modified : ∀ (l : List (String × String)) {gc : G × Coll Pt H}, (∀ a ∈ gc.2.arrays, 0 < a.num) →
    (∀ q ∈ l, (gc.2.find q.1).isSome ∧ (gc.2.find q.2).isSome ∧ gc.2.types q.1 q.2 = some "modified") →
    l.foldlM (Coll.setupOne gen) gc = .ok gc
  | [], gc, _, _ => rfl
  | q :: l, gc, hnum, h => by
    rw [List.foldlM_cons]
    obtain ⟨h1, h2, h3⟩ := h q List.mem_cons_self
    obtain ⟨s, hs⟩ := Option.isSome_iff_exists.1 h1
    obtain ⟨m, hm⟩ := Option.isSome_iff_exists.1 h2
    have e : Coll.setupOne gen gc q = .ok gc := by
      unfold Coll.setupOne
      rw [hs, hm]
      dsimp only
      have k1 := hnum s (List.mem_of_find?_eq_some hs)
      have k2 := hnum m (List.mem_of_find?_eq_some hm)
      rw [if_neg (by omega), h3]
      rfl
    rw [e]
    exact setupFold_modified l hnum fun p hp => h p (List.mem_cons_of_mem _ hp)

/-- Preparing prepared arrays again changes only the types, which become "modified", and uses no random numbers. -/
theorem setupIr_again {c : Coll Pt H} {g : G} {gc : G × Coll Pt H} (hnum : ∀ a ∈ c.arrays, 0 < a.num)
    (h : c.setupIr gen g = .ok gc) (t : String) :
    gc.2 = { c with paths := gc.2.paths } ∧ (∃ ty, gc.2.setDefault t = { gc.2 with types := ty }) ∧
    (∀ s ∈ c.srcs, ∀ m ∈ c.mics, (gc.2.setDefault t).types s m = some "modified") ∧
    ∀ (gen' : GenFn Pt H G) (g' : G), (gc.2.setDefault t).setupIr gen' g' = .ok (g', gc.2.setDefault t) := by
  have hf := setupIr_fold h
  obtain ⟨h1, -, h3⟩ := setupFold_full c.combos (gc := (g, c)) hnum hf
  dsimp only at h1 h3
  obtain ⟨⟨ty, hty⟩, hty2⟩ := setDefault_spec t gc.2
  have hsr : gc.2.srcs = c.srcs := by rw [h1]
  have hmi : gc.2.mics = c.mics := by rw [h1]
  have htypes : gc.2.types = c.types := by rw [h1]
  have hmod : ∀ s ∈ c.srcs, ∀ m ∈ c.mics, (gc.2.setDefault t).types s m = some "modified" := by
    intro s hs m hm
    rw [hty2 s (by rw [hsr]; exact hs) m (by rw [hmi]; exact hm)]
    obtain ⟨-, -, h4⟩ := h3 (s, m) (Coll.mem_combos.2 ⟨hs, hm⟩)
    split
    · rfl
    · rename_i hne
      rcases h4 with h4 | h4
      · rw [htypes, h4]; rfl
      · exact absurd h4 hne
  refine ⟨h1, ⟨ty, hty⟩, hmod, fun gen' g' => ?_⟩
  have harr : (gc.2.setDefault t).arrays = c.arrays := by rw [hty, h1]
  have hfind : ∀ nm, (gc.2.setDefault t).find nm = c.find nm := fun nm => by unfold Coll.find; rw [harr]
  have hcom : (gc.2.setDefault t).combos = c.combos := by
    unfold Coll.combos
    rw [hty, h1]
  unfold Coll.setupIr at h ⊢
  have hcalc : (gc.2.setDefault t).calcRirParameters = c.calcRirParameters := by
    unfold Coll.calcRirParameters
    rw [hcom]
    simp only [hfind]
  rw [hcalc, hcom]
  split at h
  · cases h
  · refine setupFold_modified _ (by rw [harr]; exact hnum) fun q hq => ?_
    obtain ⟨k1, k2, -⟩ := h3 q hq
    obtain ⟨k3, k4⟩ := Coll.mem_combos.1 (show (q.1, q.2) ∈ c.combos from hq)
    dsimp only
    rw [hfind, hfind]
    exact ⟨k1, k2, hmod _ k3 _ k4⟩

/-- An update of arrays that are all of type "modified" fails if one of them moves. -/
theorem update_modified {c : Coll Pt H} (hc : c.Consistent) (hs : c.srcs ≠ []) (hm : c.mics ≠ [])
    (hmod : ∀ s ∈ c.srcs, ∀ m ∈ c.mics, c.types s m = some "modified") {a : Arr Pt} (ha : a ∈ c.arrays)
    (hd : a.dynamic = true) {n : Nat} (hf : c.freq ≠ 0) (hn : n % c.freq = 0) (g : G) :
    Coll.update gen (g, c) n = .error .assertion := by
  unfold Coll.update
  dsimp only
  rw [if_neg hf, if_neg (by omega)]
  cases hl : c.arrays.filter Arr.dynamic with
  | nil =>
    have : a ∈ c.arrays.filter Arr.dynamic := List.mem_filter.2 ⟨ha, hd⟩
    rw [hl] at this
    cases this
  | cons b l =>
    have hb : b ∈ c.arrays := (List.mem_filter.1 (hl ▸ List.mem_cons_self : b ∈ c.arrays.filter Arr.dynamic)).1
    have hnames : (((c.arrays.map (Arr.update n))).map Arr.name).Nodup := by
      rw [List.map_map, show (Arr.name ∘ Arr.update n : Arr Pt → String) = Arr.name from funext fun a => Arr.update_name n a]
      exact hc.names
    have hfind : ∀ x ∈ c.arrays, ({ c with arrays := c.arrays.map (Arr.update n) } : Coll Pt H).find x.name =
        some (x.update n) := fun x hx => by
      have := Coll.find_eq (c := { c with arrays := c.arrays.map (Arr.update n) }) hnames
        (List.mem_map.2 ⟨x, hx, rfl⟩)
      rwa [Arr.update_name] at this
    have hpath : ∀ s ∈ c.srcs, ∀ m ∈ c.mics,
        Coll.updatePath gen (g, { c with arrays := c.arrays.map (Arr.update n) }) s m = .error .assertion := by
      intro s hs m hm
      obtain ⟨x, hx, -, rfl⟩ := hc.mem_srcs.1 hs
      obtain ⟨y, hy, -, rfl⟩ := hc.mem_mics.1 hm
      unfold Coll.updatePath
      rw [hfind x hx, hfind y hy, hmod _ hs _ hm]
      rfl
    rw [List.map_cons]
    simp only [Coll.updateLoop]
    rw [hfind b hb]
    dsimp only
    rw [Arr.update_kind]
    obtain ⟨k, hk⟩ := Option.ne_none_iff_exists'.1 (hc.kinds b hb)
    rw [hk]
    have src : ∀ k, b.kind = some k → k ≠ .mic → (match (c.mics.filter fun m => !([] : List String).contains m).foldlM
          (fun gc m => Coll.updatePath gen gc b.name m) (g, { c with arrays := c.arrays.map (Arr.update n) }) with
        | .error x => (.error x : Except PyErr (G × Coll Pt H))
        | .ok gc => Coll.updateLoop gen (l.map Arr.name) ([] ++ [b.name]) gc) = .error .assertion := by
      intro k hk hne
      have hbs : b.name ∈ c.srcs := hc.mem_srcs.2 ⟨b, hb, by
        rw [hk]
        cases k
        · exact absurd rfl hne
        · exact .inl rfl
        · exact .inr rfl, rfl⟩
      obtain ⟨m, ms, hml⟩ := List.exists_cons_of_ne_nil hm
      have e : (c.mics.filter fun m => !([] : List String).contains m) = m :: ms := by simp [hml]
      rw [e, List.foldlM_cons, hpath _ hbs m (by rw [hml]; exact List.mem_cons_self)]
      rfl
    cases k with
    | mic =>
      have hbm : b.name ∈ c.mics := hc.mem_mics.2 ⟨b, hb, hk, rfl⟩
      obtain ⟨s, ss, hsl⟩ := List.exists_cons_of_ne_nil hs
      have e : (c.srcs.filter fun m => !([] : List String).contains m) = s :: ss := by simp [hsl]
      dsimp only
      rw [e, List.foldlM_cons, hpath s (by rw [hsl]; exact List.mem_cons_self) _ hbm]
      rfl
    | free => exact src _ hk (by decide)
    | ctrl => exact src _ hk (by decide)

end
end Verif

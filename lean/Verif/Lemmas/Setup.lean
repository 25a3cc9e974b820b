import Verif.Lemmas.Array
import Verif.Lemmas.Rir
import Verif.Spec.Fir

namespace Verif

section
variable {Pt H G : Type}

/-! ### `set_default_path_type` -/

theorem setDefault_types (t : String) : ∀ (l : List (String × String)) (c : Coll Pt H),
    let c' := l.foldl (fun c p =>
      if (c.types p.1 p.2).isNone && (c.paths p.1 p.2).isNone then
        { c with types := set2 c.types p.1 p.2 t }
      else if (c.paths p.1 p.2).isSome then { c with types := set2 c.types p.1 p.2 "modified" }
      else c) c
    (∃ ty, c' = { c with types := ty }) ∧
    ∀ s m, c'.types s m = if (s, m) ∈ l then
      (if (c.paths s m).isSome then some "modified" else some ((c.types s m).getD t)) else c.types s m
  | [], c => ⟨⟨c.types, rfl⟩, fun s m => by simp⟩
  | p :: l, c => by
    dsimp only
    rw [List.foldl_cons]
    obtain ⟨c1, hc1⟩ : ∃ c1, c1 = (if (c.types p.1 p.2).isNone && (c.paths p.1 p.2).isNone then
        { c with types := set2 c.types p.1 p.2 t }
      else if (c.paths p.1 p.2).isSome then { c with types := set2 c.types p.1 p.2 "modified" }
      else c) := ⟨_, rfl⟩
    rw [← hc1]
    have h1 : (∃ ty, c1 = { c with types := ty }) ∧ ∀ s m, c1.types s m = if (s, m) = p then
        (if (c.paths s m).isSome then some "modified" else some ((c.types s m).getD t)) else c.types s m := by
      rw [hc1]
      constructor
      · split
        · exact ⟨_, rfl⟩
        · split
          · exact ⟨_, rfl⟩
          · exact ⟨c.types, rfl⟩
      · intro s m
        by_cases hp : (s, m) = p
        · subst hp
          rw [if_pos rfl]
          simp only
          cases hty : c.types s m <;> cases hpa : c.paths s m <;> simp [set2, hty]
        · rw [if_neg hp]
          have hne : ¬ (s = p.1 ∧ m = p.2) := by
            rintro ⟨rfl, rfl⟩; exact hp rfl
          split
          · simp [set2, hne]
          · split
            · simp [set2, hne]
            · rfl
    obtain ⟨⟨ty, hty⟩, h3⟩ := setDefault_types t l c1
    obtain ⟨⟨ty1, hty1⟩, h4⟩ := h1
    have hpa : c1.paths = c.paths := by rw [hty1]
    refine ⟨⟨ty, by rw [hty, hty1]⟩, ?_⟩
    intro s m
    rw [h3 s m, h4 s m, hpa]
    by_cases hp : (s, m) = p
    · rw [if_pos hp, if_pos (show (s, m) ∈ p :: l from hp ▸ List.mem_cons_self)]
      by_cases hx : (c.paths s m).isSome = true
      · simp [hx]
      · simp [hx]
    · rw [if_neg hp]
      by_cases hl : (s, m) ∈ l
      · simp [hl]
      · rw [if_neg hl, if_neg]
        rw [List.mem_cons]
        exact fun h => h.elim hp hl

theorem Coll.mem_combos {c : Coll Pt H} {s m : String} : (s, m) ∈ c.combos ↔ s ∈ c.srcs ∧ m ∈ c.mics := by
  unfold Coll.combos
  rw [List.mem_flatMap]
  constructor
  · rintro ⟨x, hx, h⟩
    obtain ⟨y, hy, he⟩ := List.mem_map.1 h
    obtain ⟨rfl, rfl⟩ := Prod.mk.inj he
    exact ⟨hx, hy⟩
  · rintro ⟨h1, h2⟩
    exact ⟨s, h1, List.mem_map.2 ⟨m, h2, rfl⟩⟩

theorem setDefault_spec (t : String) (c : Coll Pt H) :
    (∃ ty, c.setDefault t = { c with types := ty }) ∧
    ∀ s ∈ c.srcs, ∀ m ∈ c.mics, (c.setDefault t).types s m =
      if (c.paths s m).isSome then some "modified" else some ((c.types s m).getD t) := by
  obtain ⟨h1, h2⟩ := setDefault_types t c.combos c
  refine ⟨h1, fun s hs m hm => ?_⟩
  have := h2 s m
  rw [if_pos (Coll.mem_combos.2 ⟨hs, hm⟩)] at this
  exact this

/-! ### `setup_ir` -/

theorem Arr.Initial.geo {a : Arr Pt} (h : a.Initial) : a.geo = a.geoAt 0 := by
  unfold Arr.geo Arr.geoAt
  cases ht : a.traj with
  | none => rfl
  | some f => rw [h f ht]

theorem useType_eq {c : Coll Pt H} (hn : (c.arrays.map Arr.name).Nodup) {a b : Arr Pt} (ha : a ∈ c.arrays)
    (hb : b ∈ c.arrays) : c.useType a.name b.name =
      if a.num = 0 ∨ b.num = 0 then some "none" else c.types a.name b.name := by
  unfold Coll.useType
  congr 1
  rw [eq_iff_iff]
  constructor
  · rintro ⟨x, hx, h1 | h1, h2⟩
    · rw [inj_of_nodup hn hx ha h1] at h2; exact .inl h2
    · rw [inj_of_nodup hn hx hb h1] at h2; exact .inr h2
  · rintro (h | h)
    · exact ⟨a, ha, .inl rfl, h⟩
    · exact ⟨b, hb, .inr rfl, h⟩

theorem setupFold_spec {gen : GenFn Pt H G} {c : Coll Pt H} (hn : (c.arrays.map Arr.name).Nodup)
    (hi : ∀ a ∈ c.arrays, a.Initial) : ∀ (l : List (String × String)) {g g' : G} {p} {c' : Coll Pt H},
      l.foldlM (Coll.setupOne gen) (g, c.with p c.rirs) = .ok (g', c') →
      (∀ q ∈ l, (c.useType q.1 q.2).isSome) ∧
      ∃ p', c' = c.with p' c.rirs ∧ Regen gen c.arrays c.useType 0
        (l.filter fun q => decide (c.useType q.1 q.2 ≠ some "modified")) g p g' p'
  | [], g, g', p, c', h => by cases h; exact ⟨by simp, p, rfl, .nil⟩
  | q :: l, g, g', p, c', h => by
    rw [List.foldlM_cons] at h
    cases hx : Coll.setupOne gen (g, c.with p c.rirs) q with
    | error e => rw [hx] at h; cases h
    | ok y =>
      rw [hx] at h
      have hone : (c.useType q.1 q.2).isSome ∧ ∃ p1, y = (y.1, c.with p1 c.rirs) ∧
          Regen gen c.arrays c.useType 0
            ([q].filter fun q => decide (c.useType q.1 q.2 ≠ some "modified")) g p y.1 p1 := by
        unfold Coll.setupOne at hx
        have hf : ∀ nm, (c.with p c.rirs).find nm = c.find nm := fun _ => rfl
        rw [hf, hf] at hx
        cases ha : c.find q.1 with
        | none => rw [ha] at hx; cases hx
        | some a =>
          cases hb : c.find q.2 with
          | none => rw [ha, hb] at hx; cases hx
          | some b =>
            rw [ha, hb] at hx
            obtain ⟨ha1, ha2⟩ := Coll.find_some ha
            obtain ⟨hb1, hb2⟩ := Coll.find_some hb
            have hu := useType_eq hn ha1 hb1
            rw [ha2, hb2] at hu
            have hty : (c.with p c.rirs).types = c.types := rfl
            simp only [hty] at hx
            rw [← hu] at hx
            cases ht : c.useType q.1 q.2 with
            | none => rw [ht] at hx; cases hx
            | some t =>
              rw [ht] at hx
              refine ⟨rfl, ?_⟩
              simp only at hx
              split at hx
              · rename_i hne
                cases hg : gen g a.geo b.geo t with
                | error x => rw [hg] at hx; cases hx
                | ok z =>
                  rw [hg] at hx
                  cases hx
                  refine ⟨set2 p q.1 q.2 z.2, rfl, ?_⟩
                  rw [List.filter_cons, if_pos (by rw [ht]; simpa using hne), List.filter_nil]
                  rw [(hi a ha1).geo, (hi b hb1).geo] at hg
                  have ht' : c.useType a.name b.name = some t := by rw [ha2, hb2]; exact ht
                  have := Regen.cons (p := p) ha1 hb1 ht' hg Regen.nil
                  rw [ha2, hb2] at this
                  exact this
              · rename_i hne
                cases hx
                refine ⟨p, rfl, ?_⟩
                rw [List.filter_cons, if_neg (by rw [ht]; simpa using hne), List.filter_nil]
                exact .nil
      obtain ⟨k1, p1, k2, k3⟩ := hone
      rw [k2] at h
      obtain ⟨r1, p2, r2, r3⟩ := setupFold_spec hn hi l h
      refine ⟨?_, p2, r2, ?_⟩
      · intro x hx
        rcases List.mem_cons.1 hx with rfl | hx
        · exact k1
        · exact r1 x hx
      · have := k3.append r3
        rw [← List.filter_append] at this
        exact this

theorem setupIr_fold {gen : GenFn Pt H G} {c : Coll Pt H} {g : G} {gc : G × Coll Pt H}
    (h : c.setupIr gen g = .ok gc) : c.combos.foldlM (Coll.setupOne gen) (g, c) = .ok gc := by
  unfold Coll.setupIr at h
  split at h
  · cases h
  · exact h

/-- The constructor of the path generator raises exactly when a pair contains an
array without points. -/
theorem calcRirParameters_spec {c : Coll Pt H} (hc : c.Consistent) :
    ((∃ a ∈ c.arrays, ∃ b ∈ c.arrays, (a.kind = some .free ∨ a.kind = some .ctrl) ∧ b.kind = some .mic ∧
      (a.pos = [] ∨ b.pos = [])) → c.calcRirParameters = .error .value) ∧
    ((∀ a ∈ c.arrays, ∀ b ∈ c.arrays, (a.kind = some .free ∨ a.kind = some .ctrl) → b.kind = some .mic →
      a.pos ≠ [] ∧ b.pos ≠ []) → c.calcRirParameters = .ok ()) := by
  unfold Coll.calcRirParameters
  constructor
  · rintro ⟨a, ha, b, hb, hak, hbk, h0⟩
    rw [if_pos]
    rw [List.any_eq_true]
    refine ⟨(a.name, b.name), Coll.mem_combos.2 ⟨hc.mem_srcs.2 ⟨a, ha, hak, rfl⟩,
      hc.mem_mics.2 ⟨b, hb, hbk, rfl⟩⟩, ?_⟩
    simp only [Coll.find_eq hc.names ha, Coll.find_eq hc.names hb, Bool.or_eq_true, List.isEmpty_iff]
    exact h0
  · intro h
    rw [if_neg]
    rw [List.any_eq_true]
    rintro ⟨⟨s, m⟩, hq, h0⟩
    obtain ⟨hs, hm⟩ := Coll.mem_combos.1 hq
    obtain ⟨a, ha, hak, rfl⟩ := hc.mem_srcs.1 hs
    obtain ⟨b, hb, hbk, rfl⟩ := hc.mem_mics.1 hm
    simp only [Coll.find_eq hc.names ha, Coll.find_eq hc.names hb, Bool.or_eq_true,
      List.isEmpty_iff] at h0
    obtain ⟨h1, h2⟩ := h a ha b hb hak hbk
    exact h0.elim h1 h2

/-- `setup_ir` generates the responses of all pairs except the "modified" ones,
in the order of `mic_src_combos`. -/
theorem setupIr_spec {gen : GenFn Pt H G} {c c' : Coll Pt H} (hn : (c.arrays.map Arr.name).Nodup)
    (hi : ∀ a ∈ c.arrays, a.Initial) {g g' : G} (h : c.setupIr gen g = .ok (g', c')) :
    c' = c.with c'.paths c.rirs ∧ (∀ s ∈ c.srcs, ∀ m ∈ c.mics, (c.useType s m).isSome) ∧
    Regen gen c.arrays c.useType 0
      (c.combos.filter fun q => decide (c.useType q.1 q.2 ≠ some "modified")) g c.paths g' c'.paths := by
  replace h := setupIr_fold h
  obtain ⟨h1, p', h2, h3⟩ := setupFold_spec hn hi c.combos (p := c.paths) h
  refine ⟨by rw [h2]; rfl, fun s hs m hm => h1 (s, m) (Coll.mem_combos.2 ⟨hs, hm⟩), by rw [h2]; exact h3⟩

theorem Coll.Consistent.with {c : Coll Pt H} (hc : c.Consistent) (p r) : (c.with p r).Consistent :=
  ⟨hc.names, hc.kinds, hc.mics, hc.srcs, hc.frees⟩

/-- Conversely it succeeds if every pair has a type and the generation succeeds. -/
theorem setupFold_ok' {gen : GenFn Pt H G} {c : Coll Pt H} (hn : (c.arrays.map Arr.name).Nodup) :
    ∀ (l : List (String × String)) {g : G} {p},
      (∀ q ∈ l, ∃ a ∈ c.arrays, ∃ b ∈ c.arrays, a.name = q.1 ∧ b.name = q.2 ∧
        ∃ t, c.useType q.1 q.2 = some t ∧ (t ≠ "modified" → ∀ g, ∃ g' x, gen g a.geo b.geo t = .ok (g', x))) →
      ∃ g' c', l.foldlM (Coll.setupOne gen) (g, c.with p c.rirs) = .ok (g', c')
  | [], g, p, _ => ⟨g, _, rfl⟩
  | q :: l, g, p, hl => by
    obtain ⟨a, ha, b, hb, ha2, hb2, t, ht, hg⟩ := hl q (by simp)
    have hstep : ∃ g1 p1, Coll.setupOne gen (g, c.with p c.rirs) q = .ok (g1, c.with p1 c.rirs) := by
      unfold Coll.setupOne
      have hf : ∀ nm, (c.with p c.rirs).find nm = c.find nm := fun _ => rfl
      rw [hf, hf]
      have e1 := Coll.find_eq hn ha
      have e2 := Coll.find_eq hn hb
      rw [ha2] at e1
      rw [hb2] at e2
      rw [e1, e2]
      have hu := useType_eq hn ha hb
      rw [ha2, hb2] at hu
      have hty : (c.with p c.rirs).types = c.types := rfl
      simp only [hty]
      rw [← hu, ht]
      simp only
      split
      · rename_i hne
        obtain ⟨g', h, hgen⟩ := hg hne g
        rw [hgen]
        exact ⟨g', _, rfl⟩
      · exact ⟨g, p, rfl⟩
    obtain ⟨g1, p1, hstep⟩ := hstep
    rw [List.foldlM_cons, hstep]
    exact setupFold_ok' hn l fun q hq => hl q (by simp [hq])

theorem combos_nodup {c : Coll Pt H} (hc : c.Consistent) : c.combos.Nodup := by
  have hms : c.mics.Nodup := by rw [hc.mics]; exact Coll.namesOf_nodup hc.names _
  have hss : c.srcs.Nodup := by rw [hc.srcs]; exact Coll.namesOf_nodup hc.names _
  unfold Coll.combos
  generalize c.srcs = ss at hss
  induction ss with
  | nil => exact List.nodup_nil
  | cons s ss ih =>
    rw [List.nodup_cons] at hss
    rw [List.flatMap_cons, List.nodup_append]
    refine ⟨List.pairwise_map.2 (hms.imp fun hne he => hne (Prod.mk.inj he).2), ih hss.2, ?_⟩
    rintro ⟨a, b⟩ h1 q h2 rfl
    obtain ⟨x, _, hx⟩ := List.mem_map.1 h1
    obtain ⟨y, hy, h3⟩ := List.mem_flatMap.1 h2
    obtain ⟨z, _, hz⟩ := List.mem_map.1 h3
    have e1 := (Prod.mk.inj hx).1
    have e2 := (Prod.mk.inj hz).1
    exact hss.1 (by rw [e1, ← e2]; exact hy)

/-! ### success of `update` -/

theorem updatePath_ok {gen : GenFn Pt H G} {c : Coll Pt H} (hc : c.Consistent) {n : Nat} {s m t : String}
    (hg : ∀ a ∈ c.arrays, ∀ b ∈ c.arrays, a.name = s → b.name = m → ∀ g,
      ∃ g' h, gen g (a.geoAt n) (b.geoAt n) t = .ok (g', h))
    (hs : s ∈ c.srcs) (hm : m ∈ c.mics) (ht : c.types s m = some t) (hne : t ≠ "modified") {g : G} {p r} :
    ∃ g' h, Coll.updatePath gen (g, (c.moved n).with p r) s m = .ok (g', (c.moved n).with (set2 p s m h) r) := by
  obtain ⟨a, ha, _, rfl⟩ := hc.mem_srcs.1 hs
  obtain ⟨b, hb, _, rfl⟩ := hc.mem_mics.1 hm
  obtain ⟨g', h, hgen⟩ := hg a ha b hb rfl rfl g
  refine ⟨g', h, ?_⟩
  unfold Coll.updatePath
  have ht' : ((c.moved n).with p r).types a.name b.name = some t := ht
  rw [Coll.moved_find, Coll.moved_find, Coll.find_eq hc.names ha, Coll.find_eq hc.names hb, ht']
  simp only [Option.map_some]
  rw [if_neg hne, Arr.update_geo, Arr.update_geo, hgen]
  rfl

theorem updateFold_ok {gen : GenFn Pt H G} {c : Coll Pt H} {n : Nat} (f : String → String × String) {r} :
    ∀ (l : List String) {g : G} {p : String → String → Option H},
      (∀ x ∈ l, ∀ (g : G) (p : String → String → Option H), ∃ g' h,
        Coll.updatePath gen (g, (c.moved n).with p r) (f x).1 (f x).2 =
          .ok (g', (c.moved n).with (set2 p (f x).1 (f x).2 h) r)) →
      ∃ g' p', l.foldlM (fun gc x => Coll.updatePath gen gc (f x).1 (f x).2) (g, (c.moved n).with p r) =
        .ok (g', (c.moved n).with p' r) ∧ ∀ s m, (p s m).isSome → (p' s m).isSome
  | [], g, p, _ => ⟨g, p, rfl, fun _ _ h => h⟩
  | x :: l, g, p, hl => by
    obtain ⟨g1, h, h1⟩ := hl x (by simp) g p
    obtain ⟨g2, p2, h2, h3⟩ := updateFold_ok f l (g := g1) (p := set2 p (f x).1 (f x).2 h)
      fun y hy => hl y (by simp [hy])
    refine ⟨g2, p2, ?_, ?_⟩
    · rw [List.foldlM_cons, h1]
      exact h2
    · intro s m hs
      apply h3
      unfold set2
      split
      · rfl
      · exact hs

theorem updateLoop_ok {gen : GenFn Pt H G} {c : Coll Pt H} (hc : c.Consistent) {n : Nat} :
    ∀ (ch already : List String) {g : G} {p r},
      (∀ x ∈ ch, ∃ a ∈ c.arrays, a.name = x) →
      (∀ s ∈ c.srcs, ∀ m ∈ c.mics, s ∈ ch ∨ m ∈ ch → ∃ t, c.types s m = some t ∧ t ≠ "modified" ∧
        ∀ a ∈ c.arrays, ∀ b ∈ c.arrays, a.name = s → b.name = m → ∀ g,
          ∃ g' h, gen g (a.geoAt n) (b.geoAt n) t = .ok (g', h)) →
      ((∃ m ∈ c.mics, m ∈ ch) → c.srcs ≠ []) →
      (∀ s ∈ c.srcs, ∀ m ∈ c.mics, (p s m).isSome) →
      ∃ gc', Coll.updateLoop gen ch already (g, (c.moved n).with p r) = .ok gc'
  | [], al, g, p, r, _, _, _, _ => ⟨_, rfl⟩
  | nm :: rest, al, g, p, r, hch, hty, hsrc, hp => by
    obtain ⟨a, ha, han⟩ := hch nm (by simp)
    have hch' : ∀ x ∈ rest, ∃ a ∈ c.arrays, a.name = x := fun x hx => hch x (by simp [hx])
    have hty' : ∀ s ∈ c.srcs, ∀ m ∈ c.mics, s ∈ rest ∨ m ∈ rest →
        ∃ t, c.types s m = some t ∧ t ≠ "modified" ∧
          ∀ a ∈ c.arrays, ∀ b ∈ c.arrays, a.name = s → b.name = m → ∀ g,
            ∃ g' h, gen g (a.geoAt n) (b.geoAt n) t = .ok (g', h) :=
      fun s hs m hm h => hty s hs m hm (h.imp (fun h => by simp [h]) (fun h => by simp [h]))
    have hsrc' : (∃ m ∈ c.mics, m ∈ rest) → c.srcs ≠ [] :=
      fun ⟨m, h1, h2⟩ => hsrc ⟨m, h1, by simp [h2]⟩
    unfold Coll.updateLoop
    rw [Coll.moved_find]
    have e := Coll.find_eq hc.names ha
    rw [han] at e
    rw [e]
    simp only [Option.map_some, Arr.update_kind]
    have hms : ((c.moved n).with p r).mics = c.mics := rfl
    have hss : ((c.moved n).with p r).srcs = c.srcs := rfl
    have hsource : nm ∈ c.srcs → ∃ gc', (match (((c.moved n).with p r).mics.filter (fun m => !al.contains m)).foldlM
          (fun gc m => Coll.updatePath gen gc nm m) (g, (c.moved n).with p r) with
        | .error x => .error x
        | .ok gc => Coll.updateLoop gen rest (al ++ [nm]) gc) = Except.ok gc' := by
      intro hns
      obtain ⟨g1, p1, k1, k2⟩ := updateFold_ok (gen := gen) (c := c) (n := n) (r := r) (fun m => (nm, m))
        (c.mics.filter fun m => !al.contains m) (g := g) (p := p) (by
          intro m hm g p
          have hm' := (List.mem_filter.1 hm).1
          obtain ⟨t, t1, t2, t3⟩ := hty nm hns m hm' (.inl (by simp))
          exact updatePath_ok hc t3 hns hm' t1 t2)
      rw [hms]
      simp only at k1
      rw [k1]
      exact updateLoop_ok hc rest _ hch' hty' hsrc' fun s hs m hm => k2 s m (hp s hs m hm)
    rcases hk : a.kind with _ | k
    · exact absurd hk (hc.kinds a ha)
    · cases k with
      | mic =>
        have hm : nm ∈ c.mics := hc.mem_mics.2 ⟨a, ha, hk, han⟩
        obtain ⟨g1, p1, k1, k2⟩ := updateFold_ok (gen := gen) (c := c) (n := n) (r := r) (fun s => (s, nm))
          (c.srcs.filter fun s => !al.contains s) (g := g) (p := p) (by
            intro s hs g p
            have hs' := (List.mem_filter.1 hs).1
            obtain ⟨t, t1, t2, t3⟩ := hty s hs' nm hm (.inr (by simp))
            exact updatePath_ok hc t3 hs' hm t1 t2)
        simp only at k1
        simp only [hss, k1]
        have hne : c.srcs ≠ [] := hsrc ⟨nm, hm, by simp⟩
        have hss1 : ((c.moved n).with p1 r).srcs = c.srcs := rfl
        rw [hss1, List.getLast?_eq_some_getLast hne]
        have hpp := k2 _ _ (hp _ (List.getLast_mem hne) nm hm)
        obtain ⟨h, hh⟩ := Option.isSome_iff_exists.1 hpp
        have hpp1 : ((c.moved n).with p1 r).paths = p1 := rfl
        simp only [hpp1, hh]
        exact updateLoop_ok hc rest _ (p := p1) (r := r ++ [h]) hch' hty' hsrc'
          fun s hs m hm => k2 s m (hp s hs m hm)
      | free => exact hsource (hc.mem_srcs.2 ⟨a, ha, .inl hk, han⟩)
      | ctrl => exact hsource (hc.mem_srcs.2 ⟨a, ha, .inr hk, han⟩)

theorem update_ok {gen : GenFn Pt H G} {c : Coll Pt H} (hc : c.Consistent) {n : Nat} (g : G)
    (hf : c.freq ≠ 0)
    (hgen : ∀ a ∈ c.arrays, ∀ b ∈ c.arrays, c.Moving a.name b.name → ∀ t g, c.types a.name b.name = some t →
      ∃ g' h, gen g (a.geoAt n) (b.geoAt n) t = .ok (g', h))
    (hpaths : ∀ s ∈ c.srcs, ∀ m ∈ c.mics, (c.paths s m).isSome)
    (htypes : ∀ s ∈ c.srcs, ∀ m ∈ c.mics, c.Moving s m → ∃ t, c.types s m = some t ∧ t ≠ "modified")
    (hsrc : (∃ a ∈ c.arrays, a.kind = some .mic ∧ a.dynamic = true) → c.srcs ≠ []) :
    ∃ gc', Coll.update gen (g, c) n = .ok gc' := by
  unfold Coll.update
  rw [if_neg hf]
  split
  · exact ⟨_, rfl⟩
  · refine updateLoop_ok (p := c.paths) (r := c.rirs) hc _ _ ?_ ?_ ?_ hpaths
    · intro x hx
      obtain ⟨a, ha, rfl⟩ := List.mem_map.1 hx
      exact ⟨a, (List.mem_filter.1 ha).1, rfl⟩
    · intro s hs m hm hmv
      have hmov : c.Moving s m := ?_
      · obtain ⟨t, t1, t2⟩ := htypes s hs m hm hmov
        exact ⟨t, t1, t2, fun a ha b hb e1 e2 g => hgen a ha b hb (by rw [e1, e2]; exact hmov) t g (by rw [e1, e2]; exact t1)⟩
      rcases hmv with hx | hx
      · obtain ⟨a, ha, rfl⟩ := List.mem_map.1 hx
        exact ⟨a, (List.mem_filter.1 ha).1, (List.mem_filter.1 ha).2, .inl rfl⟩
      · obtain ⟨a, ha, rfl⟩ := List.mem_map.1 hx
        exact ⟨a, (List.mem_filter.1 ha).1, (List.mem_filter.1 ha).2, .inr rfl⟩
    · rintro ⟨m, hm, hx⟩
      obtain ⟨a, ha, hna⟩ := List.mem_map.1 hx
      obtain ⟨b, hb, hkb, hnb⟩ := hc.mem_mics.1 hm
      have := hc.inj (List.mem_filter.1 ha).1 hb (hna.trans hnb.symm)
      subst this
      exact hsrc ⟨a, hb, hkb, (List.mem_filter.1 ha).2⟩

end

/-! ### user calls -/

section
variable {Pt R G : Type}

theorem Coll.op_frame (c : Coll Pt (IrMat R)) (o : PathOp R) :
    ∃ p ty, c.op o = { c with paths := p, types := ty } := by
  cases o with
  | path h s m =>
    unfold Coll.op Coll.setPropPath
    dsimp only
    split
    · exact ⟨c.paths, c.types, rfl⟩
    · split
      · exact ⟨c.paths, c.types, rfl⟩
      · split
        · split
          · exact ⟨c.paths, c.types, rfl⟩
          · split
            · exact ⟨c.paths, c.types, rfl⟩
            · exact ⟨_, c.types, rfl⟩
        · exact ⟨c.paths, c.types, rfl⟩
  | type s m t =>
    unfold Coll.op Coll.setPathType
    dsimp only
    split
    · exact ⟨c.paths, c.types, rfl⟩
    · split
      · exact ⟨c.paths, c.types, rfl⟩
      · exact ⟨c.paths, _, rfl⟩

theorem op_spec {c : Coll Pt (IrMat R)} (hc : c.Consistent) (o : PathOp R) {a b : Arr Pt} (ha : a ∈ c.arrays)
    (hb : b ∈ c.arrays) (has : a.name ∈ c.srcs) (hbm : b.name ∈ c.mics) :
    (c.op o).paths a.name b.name = ((userPaths a b [o]).getLast?).or (c.paths a.name b.name) ∧
    (c.op o).types a.name b.name = ((userTypes a b [o]).getLast?).or (c.types a.name b.name) := by
  cases o with
  | type s m t =>
    unfold Coll.op Coll.setPathType userPaths userTypes
    by_cases h : s = a.name ∧ m = b.name
    · obtain ⟨rfl, rfl⟩ := h
      simp [has, hbm, set2, Except.toOption]
    · have h' : ¬ (a.name = s ∧ b.name = m) := fun ⟨h1, h2⟩ => h ⟨h1.symm, h2.symm⟩
      by_cases h1 : s ∈ c.srcs <;> by_cases h2 : m ∈ c.mics <;> simp [h1, h2, h, set2, h', Except.toOption]
  | path h s m =>
    unfold Coll.op Coll.setPropPath userPaths userTypes
    by_cases hp : s = a.name ∧ m = b.name
    · obtain ⟨rfl, rfl⟩ := hp
      dsimp only
      rw [Coll.find_eq hc.names ha, Coll.find_eq hc.names hb]
      by_cases h1 : h.numIn = a.num <;> by_cases h2 : h.numOut = b.num <;>
        simp [has, hbm, h1, h2, set2, Except.toOption]
    · have h' : ¬ (a.name = s ∧ b.name = m) := fun ⟨h1, h2⟩ => hp ⟨h1.symm, h2.symm⟩
      have hf : ¬ (s = a.name ∧ m = b.name ∧ h.numIn = a.num ∧ h.numOut = b.num) :=
        fun ⟨h1, h2, _⟩ => hp ⟨h1, h2⟩
      simp only [List.filterMap_cons, List.filterMap_nil, if_neg hf, List.getLast?_nil, Option.none_or]
      by_cases h1 : s ∈ c.srcs
      · by_cases h2 : m ∈ c.mics
        · rw [if_neg (not_not.2 h1), if_neg (not_not.2 h2)]
          cases c.find s with
          | none => exact ⟨rfl, rfl⟩
          | some x =>
            cases c.find m with
            | none => exact ⟨rfl, rfl⟩
            | some y =>
              simp only
              split
              · exact ⟨rfl, rfl⟩
              · split
                · exact ⟨rfl, rfl⟩
                · simp [Except.toOption, set2, h']
        · rw [if_neg (not_not.2 h1), if_pos h2]
          exact ⟨rfl, rfl⟩
      · rw [if_pos h1]
        exact ⟨rfl, rfl⟩

theorem ops_spec {a b : Arr Pt} : ∀ (os : List (PathOp R)) {c : Coll Pt (IrMat R)}, c.Consistent →
    a ∈ c.arrays → b ∈ c.arrays → a.name ∈ c.srcs → b.name ∈ c.mics →
    (∃ p ty, os.foldl Coll.op c = { c with paths := p, types := ty }) ∧
    (os.foldl Coll.op c).paths a.name b.name = ((userPaths a b os).getLast?).or (c.paths a.name b.name) ∧
    (os.foldl Coll.op c).types a.name b.name = ((userTypes a b os).getLast?).or (c.types a.name b.name)
  | [], c, _, _, _, _, _ => ⟨⟨c.paths, c.types, rfl⟩, rfl, rfl⟩
  | o :: os, c, hc, ha, hb, has, hbm => by
    obtain ⟨p, ty, hf⟩ := c.op_frame o
    obtain ⟨h1, h2⟩ := op_spec hc o ha hb has hbm
    have hc' : (c.op o).Consistent := by
      rw [hf]; exact ⟨hc.names, hc.kinds, hc.mics, hc.srcs, hc.frees⟩
    obtain ⟨⟨p2, ty2, k0⟩, k1, k2⟩ := ops_spec os hc' (by rw [hf]; exact ha) (by rw [hf]; exact hb)
      (by rw [hf]; exact has) (by rw [hf]; exact hbm)
    rw [List.foldl_cons]
    have e1 : userPaths a b (o :: os) = userPaths a b [o] ++ userPaths a b os := by
      unfold userPaths; rw [← List.filterMap_append]; rfl
    have e2 : userTypes a b (o :: os) = userTypes a b [o] ++ userTypes a b os := by
      unfold userTypes; rw [← List.filterMap_append]; rfl
    refine ⟨⟨p2, ty2, by rw [k0, hf]⟩, ?_, ?_⟩
    · rw [k1, h1, e1, List.getLast?_append, Option.or_assoc]
    · rw [k2, h2, e2, List.getLast?_append, Option.or_assoc]

end

/-! ### groups -/

section
variable {Pt : Type}

theorem groupIdxs_flatten_aux : ∀ (sizes : List Nat) (off : Nat),
    ((List.range sizes.length).map fun i =>
      (List.range (sizes.getD i 0)).map fun k => off + (sizes.take i).sum + k).flatten =
      (List.range sizes.sum).map fun k => off + k
  | [], off => rfl
  | n :: sizes, off => by
    rw [List.length_cons, List.range_succ_eq_map, List.map_cons, List.map_map, List.flatten_cons,
      List.sum_cons, List.range_add, List.map_append, List.map_map]
    congr 1
    have ih := groupIdxs_flatten_aux sizes (off + n)
    have e : (fun k => off + (n + k)) = fun k => off + n + k := by funext k; omega
    show _ = List.map ((fun k => off + k) ∘ fun x => n + x) (List.range sizes.sum)
    have e2 : ((fun k => off + k) ∘ fun x => n + x) = fun k => off + n + k := by
      funext k; simp only [Function.comp]; omega
    rw [e2, ← ih]
    congr 1
    refine List.map_congr_left fun i _ => ?_
    simp only [Function.comp, Nat.succ_eq_add_one, List.getD_cons_succ, List.take_succ_cons, List.sum_cons]
    refine List.map_congr_left fun k _ => ?_
    omega

theorem groupIdxs_flatten (l : List (List Pt)) :
    (groupIdxs (l.map List.length)).flatten = List.range l.flatten.length := by
  rw [groupIdxs_eq]
  have h := groupIdxs_flatten_aux (l.map List.length) 0
  simp only [Nat.zero_add] at h
  rw [h, List.length_flatten, List.map_id']

theorem groupIdxs_rows (l : List (List Pt)) :
    (groupIdxs (l.map List.length)).map (fun g => g.map fun i => l.flatten[i]?) =
      l.map fun rows => rows.map some := by
  rw [groupIdxs_eq, List.map_map, List.length_map]
  apply List.ext_getElem (by simp)
  intro i h1 h2
  simp only [List.length_map, List.length_range] at h1 h2
  simp only [List.getElem_map, List.getElem_range, Function.comp, List.map_map]
  apply List.ext_getElem
  · simp [List.getD_eq_getElem?_getD, h2]
  intro k k1 k2
  simp only [List.length_map] at k2
  simp only [List.getElem_map, List.getElem_range, Function.comp]
  have e : ((l.map List.length).take i).sum = (l.take i).flatten.length := by
    rw [List.length_flatten, List.map_take]
  have hsplit : l.flatten = (l.take i).flatten ++ (l[i] ++ (l.drop (i + 1)).flatten) := by
    rw [← List.flatten_cons, List.getElem_cons_drop, ← List.flatten_append, List.take_append_drop]
  rw [e, hsplit, List.getElem?_append_right (by omega), Nat.add_sub_cancel_left,
    List.getElem?_append_left k2, List.getElem?_eq_getElem k2]

end

/-! ### shapes during a run -/

section
variable {R S P D O Pt G : Type}
  {cfg : SimCfg R (IrMat R) (Fir R) S (G × Coll Pt (IrMat R)) P D O}

theorem coll_shape {c0 : Coll Pt (IrMat R)} {g0 : G} {gen : GenFn Pt (IrMat R) G} (hc : c0.Consistent)
    (hsz : ∀ a ∈ c0.arrays, a.Sized) (hfit : c0.PathsFit)
    (hgen : ∀ g a b t g' x, gen g a b t = .ok (g', x) → a.pos.length = a.num → b.pos.length = b.num →
      x.numIn = a.num ∧ x.numOut = b.num)
    (hafter : ∀ n, cfg.arrAfter (g0, c0) n = Coll.after gen (g0, c0) n)
    (hinfo' : ∀ x ∈ cfg.arrays, ∃ a ∈ c0.arrays, a.kind = some x.kind ∧ a.name = x.name ∧ a.num = x.num ∧
      a.dynamic = x.dynamic)
    (hget : ∀ {gc : G × Coll Pt (IrMat R)} {s m x}, cfg.arrPath gc s m = .ok x → gc.2.paths s m = some x) :
    cfg.PathShape (g0, c0) := by
  intro n gc hn s m x hs hm hx
  obtain ⟨a, ha, hka, ha2, ha3, _⟩ := hinfo' s hs
  obtain ⟨b, hb, hkb, hb2, hb3, _⟩ := hinfo' m hm
  rw [hafter] at hn
  have hinv := after_spec hc n (g' := gc.1) (c' := gc.2) hn
  have hx' := hget hx
  rw [← ha2, ← hb2] at hx'
  by_cases hmv : a.name ∈ c0.srcs ∧ b.name ∈ c0.mics ∧ c0.Moving a.name b.name ∧ 0 < n
  · obtain ⟨h1, h2, h3, h4⟩ := hmv
    obtain ⟨y, y1, a', ha', b', hb', e1, e2, t, g1, g2, e3, e4⟩ := hinv.gen a.name b.name h1 h2 h3 h4
    obtain rfl := hc.inj ha' ha e1
    obtain rfl := hc.inj hb' hb e2
    rw [hx'] at y1
    cases y1
    rw [← hb3]
    exact (hgen _ _ _ _ _ _ e4 (hsz _ ha _) (hsz _ hb _)).2
  · rw [← hb3]
    refine (hfit a ha b hb x ?_).2
    rw [← hinv.other a.name b.name hmv]
    exact hx'

end
end Verif

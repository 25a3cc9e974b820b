import Verif.Spec.Array

namespace Verif

section
variable {Pt H G : Type}

/-! ### registration -/

theorem Coll.find_some {c : Coll Pt H} {nm : String} {a : Arr Pt} (h : c.find nm = some a) :
    a ∈ c.arrays ∧ a.name = nm := by
  unfold Coll.find at h
  exact ⟨List.mem_of_find?_eq_some h, by simpa using List.find?_some h⟩

theorem Coll.find_isSome {c : Coll Pt H} {nm : String} :
    (c.find nm).isSome ↔ ∃ a ∈ c.arrays, a.name = nm := by
  unfold Coll.find
  simp [List.find?_isSome]

theorem inj_of_nodup {l : List (Arr Pt)} (hn : (l.map Arr.name).Nodup) :
    ∀ {a b : Arr Pt}, a ∈ l → b ∈ l → a.name = b.name → a = b := by
  induction l with
  | nil => intro a b ha; cases ha
  | cons x l ih =>
    rw [List.map_cons, List.nodup_cons] at hn
    intro a b ha hb hab
    rcases List.mem_cons.1 ha with rfl | ha'
    · rcases List.mem_cons.1 hb with rfl | hb'
      · rfl
      · exact absurd (List.mem_map.2 ⟨b, hb', hab.symm⟩) hn.1
    · rcases List.mem_cons.1 hb with rfl | hb'
      · exact absurd (List.mem_map.2 ⟨a, ha', hab⟩) hn.1
      · exact ih hn.2 ha' hb' hab

theorem Coll.find_eq {c : Coll Pt H} (hn : (c.arrays.map Arr.name).Nodup) {a : Arr Pt}
    (ha : a ∈ c.arrays) : c.find a.name = some a := by
  have hs : (c.find a.name).isSome := Coll.find_isSome.2 ⟨a, ha, rfl⟩
  obtain ⟨b, hb⟩ := Option.isSome_iff_exists.1 hs
  obtain ⟨h1, h2⟩ := Coll.find_some hb
  rw [hb, inj_of_nodup hn h1 ha h2]

theorem Coll.Consistent.inj {c : Coll Pt H} (h : c.Consistent) {a b : Arr Pt} (ha : a ∈ c.arrays)
    (hb : b ∈ c.arrays) (hab : a.name = b.name) : a = b :=
  inj_of_nodup h.names ha hb hab

theorem Coll.mem_namesOf {c : Coll Pt H} {p : Option ArrKind → Bool} {nm : String} :
    nm ∈ c.namesOf p ↔ ∃ a ∈ c.arrays, p a.kind = true ∧ a.name = nm := by
  unfold Coll.namesOf
  simp [and_assoc]

theorem Coll.namesOf_nodup {c : Coll Pt H} (h : (c.arrays.map Arr.name).Nodup)
    (p : Option ArrKind → Bool) : (c.namesOf p).Nodup :=
  (List.filter_sublist.map _).nodup h

theorem Coll.Consistent.mem_mics {c : Coll Pt H} (h : c.Consistent) {nm : String} :
    nm ∈ c.mics ↔ ∃ a ∈ c.arrays, a.kind = some .mic ∧ a.name = nm := by
  rw [h.mics, Coll.mem_namesOf]
  simp

theorem Coll.Consistent.mem_srcs {c : Coll Pt H} (h : c.Consistent) {nm : String} :
    nm ∈ c.srcs ↔ ∃ a ∈ c.arrays, (a.kind = some .free ∨ a.kind = some .ctrl) ∧ a.name = nm := by
  rw [h.srcs, Coll.mem_namesOf]
  simp

theorem Coll.Consistent.mem_frees {c : Coll Pt H} (h : c.Consistent) {nm : String} :
    nm ∈ c.frees ↔ ∃ a ∈ c.arrays, a.kind = some .free ∧ a.name = nm := by
  rw [h.frees, Coll.mem_namesOf]
  simp

theorem Coll.Consistent.disjoint {c : Coll Pt H} (h : c.Consistent) {nm : String} (hm : nm ∈ c.mics) :
    nm ∉ c.srcs := by
  intro hs
  obtain ⟨a, ha, hk, hna⟩ := h.mem_mics.1 hm
  obtain ⟨b, hb, hkb, hnb⟩ := h.mem_srcs.1 hs
  have := h.inj ha hb (hna.trans hnb.symm)
  subst this
  rw [hk] at hkb
  simp at hkb

theorem Coll.empty_consistent (f : Nat) : (Coll.empty f : Coll Pt H).Consistent :=
  ⟨by simp [Coll.empty], by simp [Coll.empty], rfl, rfl, rfl⟩

theorem Coll.addArray_dup {c : Coll Pt H} {a : Arr Pt} (h : ∃ b ∈ c.arrays, b.name = a.name) :
    c.addArray a = (c, some .assertion) := by
  unfold Coll.addArray
  rw [if_pos (Coll.find_isSome.2 h)]

theorem Coll.addArray_new {c : Coll Pt H} {a : Arr Pt} (h : ¬ ∃ b ∈ c.arrays, b.name = a.name)
    (hk : a.kind ≠ none) (hc : c.Consistent) :
    (c.addArray a).2 = none ∧ (c.addArray a).1.Consistent ∧
      (c.addArray a).1.arrays = c.arrays ++ [a] := by
  have hnd : ((c.arrays ++ [a]).map Arr.name).Nodup := by
    rw [List.map_append, List.nodup_append]
    refine ⟨hc.names, by simp, ?_⟩
    intro x hx y hy hxy
    obtain ⟨b, hb, rfl⟩ := List.mem_map.1 hx
    simp only [List.map_cons, List.map_nil, List.mem_singleton] at hy
    exact h ⟨b, hb, hxy.trans hy⟩
  have hkinds : ∀ x ∈ c.arrays ++ [a], x.kind ≠ none := by
    intro x hx
    rcases List.mem_append.1 hx with hx | hx
    · exact hc.kinds x hx
    · rw [List.mem_singleton] at hx; subst hx; exact hk
  unfold Coll.addArray
  rw [if_neg (fun hs => h (Coll.find_isSome.1 hs))]
  have e1 := hc.mics
  have e2 := hc.srcs
  have e3 := hc.frees
  unfold Coll.namesOf at e1 e2 e3
  rcases hkd : a.kind with _ | k
  · exact absurd hkd hk
  · cases k <;>
    · refine ⟨rfl, ⟨hnd, hkinds, ?_, ?_, ?_⟩, rfl⟩ <;>
      simp [Coll.namesOf, List.filter_append, hkd, e1, e2, e3]

theorem Coll.addAll_spec : ∀ (as : List (Arr Pt)) {c : Coll Pt H}, c.Consistent →
    (∀ a ∈ as, a.kind ≠ none) →
    (c.addAll as).Consistent ∧ c.arrays <+: (c.addAll as).arrays ∧
      (∀ a ∈ as, ∃ b ∈ (c.addAll as).arrays, b.name = a.name) ∧
      ∀ b ∈ (c.addAll as).arrays, b ∈ c.arrays ∨ b ∈ as
  | [], c, hc, _ => ⟨hc, List.prefix_refl _, by simp, fun b hb => .inl hb⟩
  | a :: as, c, hc, hk => by
    by_cases hd : ∃ b ∈ c.arrays, b.name = a.name
    · have e : c.addAll (a :: as) = c.addAll as := by
        unfold Coll.addAll
        rw [List.foldl_cons, Coll.addArray_dup hd]
      obtain ⟨h1, h2, h3, h4⟩ := Coll.addAll_spec as hc fun a ha => hk a (by simp [ha])
      rw [e]
      refine ⟨h1, h2, ?_, fun b hb => ?_⟩
      · intro x hx
        rcases List.mem_cons.1 hx with rfl | hx
        · obtain ⟨b, hb, hn⟩ := hd
          exact ⟨b, h2.subset hb, hn⟩
        · exact h3 x hx
      · rcases h4 b hb with hb | hb
        · exact .inl hb
        · exact .inr (by simp [hb])
    · obtain ⟨g1, g2, g3⟩ := Coll.addArray_new hd (hk a (by simp)) hc
      have e : c.addAll (a :: as) = (c.addArray a).1.addAll as := rfl
      obtain ⟨h1, h2, h3, h4⟩ := Coll.addAll_spec as g2 fun a ha => hk a (by simp [ha])
      rw [e]
      rw [g3] at h2 h4
      refine ⟨h1, (List.prefix_append _ _).trans h2, ?_, fun b hb => ?_⟩
      · intro x hx
        rcases List.mem_cons.1 hx with rfl | hx
        · exact ⟨x, h2.subset (by simp), rfl⟩
        · exact h3 x hx
      · rcases h4 b hb with hb | hb
        · rcases List.mem_append.1 hb with hb | hb
          · exact .inl hb
          · rw [List.mem_singleton] at hb; subst hb; exact .inr (by simp)
        · exact .inr (by simp [hb])

/-! ### groups -/

theorem cumsum_length : ∀ (acc : Nat) (l : List Nat), (cumsum acc l).length = l.length
  | _, [] => rfl
  | acc, n :: l => by simp [cumsum, cumsum_length (acc + n) l]

theorem cumsum_getD : ∀ (l : List Nat) (acc i : Nat), i < l.length →
    (cumsum acc l).getD i 0 = acc + (l.take (i + 1)).sum
  | [], _, _, h => by simp at h
  | n :: l, acc, 0, _ => by simp [cumsum]
  | n :: l, acc, i + 1, h => by
    rw [cumsum, List.getD_cons_succ, cumsum_getD l (acc + n) i (by simpa using h), List.take_succ_cons,
      List.sum_cons]
    omega

/-- Group `i` consists of the indices from the sum of the earlier sizes on. -/
theorem groupIdxs_eq (sizes : List Nat) :
    groupIdxs sizes = (List.range sizes.length).map fun i =>
      (List.range (sizes.getD i 0)).map fun k => (sizes.take i).sum + k := by
  unfold groupIdxs
  dsimp only
  rw [cumsum_length]
  simp only [List.length_cons, Nat.add_sub_cancel]
  refine List.map_congr_left fun i hi => ?_
  rw [List.mem_range] at hi
  have h1 : (cumsum 0 (0 :: sizes)).getD i 0 = (sizes.take i).sum := by
    rw [cumsum_getD _ _ _ (by simp; omega)]
    simp [List.take_succ_cons]
  have h2 : (cumsum 0 (0 :: sizes)).getD (i + 1) 0 = (sizes.take i).sum + sizes.getD i 0 := by
    rw [cumsum_getD _ _ _ (by simpa using hi), List.take_succ_cons, List.sum_cons,
      List.take_add_one, List.sum_append]
    simp [List.getElem?_eq_getElem hi, List.getD_eq_getElem?_getD]
  rw [h1, h2, Nat.add_sub_cancel_left]

/-! ### update -/

theorem Arr.update_name (n : Nat) (a : Arr Pt) : (a.update n).name = a.name := by
  unfold Arr.update; split <;> rfl

theorem Arr.update_kind (n : Nat) (a : Arr Pt) : (a.update n).kind = a.kind := by
  unfold Arr.update; split <;> rfl

theorem Arr.update_traj (n : Nat) (a : Arr Pt) : (a.update n).traj = a.traj := by
  unfold Arr.update
  split
  · rename_i h; rw [h]
  · rfl

theorem Arr.update_num (n : Nat) (a : Arr Pt) : (a.update n).num = a.num := by
  unfold Arr.update; split <;> rfl

theorem Arr.update_geo (n : Nat) (a : Arr Pt) : (a.update n).geo = a.geoAt n := by
  unfold Arr.update Arr.geo Arr.geoAt
  cases a.traj <;> rfl

theorem Arr.update_geoAt (n u : Nat) (a : Arr Pt) : (a.update n).geoAt u = a.geoAt u := by
  unfold Arr.update Arr.geoAt
  cases h : a.traj <;> simp [h]

theorem find?_map_name (f : Arr Pt → Arr Pt) (hf : ∀ a, (f a).name = a.name) (nm : String) :
    ∀ l : List (Arr Pt), (l.map f).find? (fun a => a.name == nm) =
      (l.find? fun a => a.name == nm).map f
  | [] => rfl
  | a :: l => by
    rw [List.map_cons, List.find?_cons, List.find?_cons, hf]
    cases a.name == nm with
    | true => rfl
    | false => exact find?_map_name f hf nm l

/-- Same collection with other paths and debugging list. -/
def Coll.with (c : Coll Pt H) (p : String → String → Option H) (r : List H) : Coll Pt H :=
  { c with paths := p, rirs := r }

theorem Coll.with_self (c : Coll Pt H) : c.with c.paths c.rirs = c := rfl

theorem Regen.append {gen : GenFn Pt H G} {arrays : List (Arr Pt)} {types u ps qs g p g1 p1 g2 p2}
    (h : Regen gen arrays types u ps g p g1 p1) (h' : Regen gen arrays types u qs g1 p1 g2 p2) :
    Regen gen arrays types u (ps ++ qs) g p g2 p2 := by
  induction h with
  | nil => exact h'
  | cons ha hb ht hg _ ih => exact .cons ha hb ht hg (ih h')

theorem Regen.old {gen : GenFn Pt H G} {arrays : List (Arr Pt)} {types u ps g p g' p'}
    (h : Regen gen arrays types u ps g p g' p') {s m : String} (hn : (s, m) ∉ ps) : p' s m = p s m := by
  induction h with
  | nil => rfl
  | cons _ _ _ _ _ ih =>
    rw [List.mem_cons, not_or] at hn
    rw [ih hn.2]
    unfold set2
    rw [if_neg]
    rintro ⟨rfl, rfl⟩
    exact hn.1 rfl

theorem Regen.new {gen : GenFn Pt H G} {arrays : List (Arr Pt)} {types u ps g p g' p'}
    (h : Regen gen arrays types u ps g p g' p') {s m : String} (hn : (s, m) ∈ ps) :
    ∃ a ∈ arrays, ∃ b ∈ arrays, a.name = s ∧ b.name = m ∧ ∃ t g1 g2 h, types s m = some t ∧
      gen g1 (a.geoAt u) (b.geoAt u) t = .ok (g2, h) ∧ p' s m = some h := by
  induction h with
  | nil => cases hn
  | @cons a b t g g1 g2 h ps p p2 ha hb ht hg hr ih =>
    by_cases hin : (s, m) ∈ ps
    · exact ih hin
    · rcases List.mem_cons.1 hn with he | he
      · obtain ⟨rfl, rfl⟩ := Prod.mk.inj he
        refine ⟨a, ha, b, hb, rfl, rfl, t, g, g1, h, ht, hg, ?_⟩
        rw [hr.old hin]
        simp [set2]
      · exact absurd he hin

/-- The collection during the second loop of `update` in step `n`. -/
def Coll.moved (c : Coll Pt H) (n : Nat) : Coll Pt H :=
  { c with arrays := c.arrays.map (Arr.update n) }

theorem Coll.moved_find (c : Coll Pt H) (n : Nat) (p : String → String → Option H) (r : List H)
    (nm : String) : ((c.moved n).with p r).find nm = (c.find nm).map (Arr.update n) :=
  find?_map_name _ (Arr.update_name n) nm c.arrays

theorem updatePath_spec {gen : GenFn Pt H G} {c : Coll Pt H} {n : Nat} {g g' : G} {p r} {c' : Coll Pt H}
    {s m : String}
    (h : Coll.updatePath gen (g, (c.moved n).with p r) s m = .ok (g', c')) :
    ∃ p', c' = (c.moved n).with p' r ∧ Regen gen c.arrays c.types n [(s, m)] g p g' p' := by
  unfold Coll.updatePath at h
  rw [Coll.moved_find, Coll.moved_find] at h
  cases ha : c.find s with
  | none => rw [ha] at h; cases h
  | some a =>
    cases hb : c.find m with
    | none => rw [ha, hb] at h; cases h
    | some b =>
      cases ht : c.types s m with
      | none =>
        have ht' : ((c.moved n).with p r).types s m = none := ht
        rw [ha, hb, ht'] at h
        cases h
      | some t =>
        have ht' : ((c.moved n).with p r).types s m = some t := ht
        rw [ha, hb, ht'] at h
        simp only [Option.map_some] at h
        split at h
        · cases h
        · cases hg : gen g (a.update n).geo (b.update n).geo t with
          | error x => rw [hg] at h; cases h
          | ok y =>
            rw [hg] at h
            cases h
            obtain ⟨ha1, rfl⟩ := Coll.find_some ha
            obtain ⟨hb1, rfl⟩ := Coll.find_some hb
            rw [Arr.update_geo, Arr.update_geo] at hg
            exact ⟨_, rfl, .cons ha1 hb1 ht hg .nil⟩

theorem updateFold_spec {gen : GenFn Pt H G} {c : Coll Pt H} {n : Nat} (f : String → String × String) :
    ∀ (l : List String) {g g' : G} {p r} {c' : Coll Pt H},
      l.foldlM (fun gc x => Coll.updatePath gen gc (f x).1 (f x).2) (g, (c.moved n).with p r) =
        .ok (g', c') →
      ∃ p', c' = (c.moved n).with p' r ∧ Regen gen c.arrays c.types n (l.map f) g p g' p'
  | [], g, g', p, r, c', h => by cases h; exact ⟨p, rfl, .nil⟩
  | x :: l, g, g', p, r, c', h => by
    rw [List.foldlM_cons] at h
    cases hx : Coll.updatePath gen (g, (c.moved n).with p r) (f x).1 (f x).2 with
    | error e => rw [hx] at h; cases h
    | ok y =>
      rw [hx] at h
      obtain ⟨p1, h1, h2⟩ := updatePath_spec hx
      have hy : y = (y.1, (c.moved n).with p1 r) := by rw [← h1]
      rw [hy] at h
      obtain ⟨p2, h3, h4⟩ := updateFold_spec f l h
      exact ⟨p2, h3, by
        have := h2.append h4
        exact this⟩

/-- The pairs the second loop handles, in order. -/
def Coll.duePairs (c : Coll Pt H) : List String → List String → List (String × String)
  | [], _ => []
  | nm :: rest, already =>
    (if nm ∈ c.mics then (c.srcs.filter fun s => !already.contains s).map fun s => (s, nm)
      else (c.mics.filter fun m => !already.contains m).map fun m => (nm, m)) ++
      Coll.duePairs c rest (already ++ [nm])

theorem updateLoop_spec {gen : GenFn Pt H G} {c : Coll Pt H} (hc : c.Consistent) {n : Nat} :
    ∀ (ch already : List String) {g g' : G} {p r} {c' : Coll Pt H},
      Coll.updateLoop gen ch already (g, (c.moved n).with p r) = .ok (g', c') →
      ∃ p' r', c' = (c.moved n).with p' r' ∧
        Regen gen c.arrays c.types n (c.duePairs ch already) g p g' p'
  | [], al, g, g', p, r, c', h => by cases h; exact ⟨p, r, rfl, .nil⟩
  | nm :: rest, al, g, g', p, r, c', h => by
    unfold Coll.updateLoop at h
    rw [Coll.moved_find] at h
    cases ha : c.find nm with
    | none => rw [ha] at h; cases h
    | some a =>
      rw [ha] at h
      simp only [Option.map_some, Arr.update_kind] at h
      obtain ⟨ham, han⟩ := Coll.find_some ha
      unfold Coll.duePairs
      rcases hk : a.kind with _ | k
      · rw [hk] at h; cases h
      · rw [hk] at h
        have hsrc : k ≠ .mic → nm ∉ c.mics := by
          intro hne hm
          obtain ⟨b, hb, hkb, hnb⟩ := hc.mem_mics.1 hm
          have := hc.inj hb ham (hnb.trans han.symm)
          subst this
          rw [hk] at hkb
          exact hne (Option.some.inj hkb)
        have hsource : k ≠ .mic → (match ((c.moved n).with p r).mics.filter (fun m => !al.contains m) |>.foldlM
              (fun gc m => Coll.updatePath gen gc nm m) (g, (c.moved n).with p r) with
            | .error x => .error x
            | .ok gc => Coll.updateLoop gen rest (al ++ [nm]) gc) = Except.ok (g', c') →
            ∃ p' r', c' = (c.moved n).with p' r' ∧ Regen gen c.arrays c.types n
              ((if nm ∈ c.mics then (c.srcs.filter fun s => !al.contains s).map fun s => (s, nm)
              else (c.mics.filter fun m => !al.contains m).map fun m => (nm, m)) ++
              c.duePairs rest (al ++ [nm])) g p g' p' := by
          intro hne h
          rw [if_neg (hsrc hne)]
          split at h
          · cases h
          · rename_i gc hgc
            obtain ⟨p1, h1, h2⟩ := updateFold_spec (fun m => (nm, m)) _ hgc
            have hy : gc = (gc.1, (c.moved n).with p1 r) := by rw [← h1]
            rw [hy] at h
            obtain ⟨p2, r2, h3, h4⟩ := updateLoop_spec hc rest _ h
            exact ⟨p2, r2, h3, h2.append h4⟩
        cases k with
        | mic =>
          have hm : nm ∈ c.mics := hc.mem_mics.2 ⟨a, ham, hk, han⟩
          rw [if_pos hm]
          simp only at h
          split at h
          · cases h
          · rename_i gc hgc
            obtain ⟨p1, h1, h2⟩ := updateFold_spec (fun s => (s, nm)) _ hgc
            split at h
            · cases h
            · split at h
              · cases h
              · rename_i hh _
                have hy : gc = (gc.1, (c.moved n).with p1 r) := by rw [← h1]
                rw [hy] at h
                obtain ⟨p2, r2, h3, h4⟩ := updateLoop_spec hc rest _ (p := p1) (r := r ++ [hh]) h
                exact ⟨p2, r2, h3, h2.append h4⟩
        | free => exact hsource (by decide) h
        | ctrl => exact hsource (by decide) h

theorem mem_duePairs {c : Coll Pt H} (hc : c.Consistent) {s m : String} :
    ∀ (ch already : List String), ch.Nodup → (∀ x ∈ ch, x ∉ already ∧ (x ∈ c.mics ∨ x ∈ c.srcs)) →
      ((s, m) ∈ c.duePairs ch already ↔
        s ∈ c.srcs ∧ m ∈ c.mics ∧ s ∉ already ∧ m ∉ already ∧ (s ∈ ch ∨ m ∈ ch))
  | [], al, _, _ => by simp [Coll.duePairs]
  | nm :: rest, al, hnd, hch => by
    rw [List.nodup_cons] at hnd
    obtain ⟨hn1, hn2⟩ := hch nm (by simp)
    have ih := mem_duePairs hc (s := s) (m := m) rest (al ++ [nm]) hnd.2 (by
      intro x hx
      obtain ⟨h1, h2⟩ := hch x (by simp [hx])
      refine ⟨?_, h2⟩
      rw [List.mem_append, List.mem_singleton, not_or]
      exact ⟨h1, fun he => hnd.1 (he ▸ hx)⟩)
    unfold Coll.duePairs
    rw [List.mem_append, ih]
    have hdis : nm ∈ c.mics → nm ∉ c.srcs := fun hm => hc.disjoint hm
    by_cases hmic : nm ∈ c.mics
    · rw [if_pos hmic]
      simp only [List.mem_map, List.mem_filter, List.contains_eq_mem, Bool.not_eq_true',
        decide_eq_false_iff_not, Prod.mk.injEq, List.mem_append, List.mem_cons, List.not_mem_nil, or_false, not_or]
      constructor
      · rintro (⟨x, ⟨hx1, hx2⟩, rfl, rfl⟩ | ⟨h1, h2, ⟨h3, h4⟩, ⟨h5, h6⟩, h7⟩)
        · exact ⟨hx1, hmic, hx2, hn1, .inr (.inl rfl)⟩
        · exact ⟨h1, h2, h3, h5, h7.imp .inr .inr⟩
      · rintro ⟨h1, h2, h3, h5, h7⟩
        by_cases hm : m = nm
        · subst hm
          exact .inl ⟨s, ⟨h1, h3⟩, rfl, rfl⟩
        · right
          have hs : s ≠ nm := fun he => hdis hmic (he ▸ h1)
          refine ⟨h1, h2, ⟨h3, hs⟩, ⟨h5, hm⟩, ?_⟩
          rcases h7 with (h7 | h7) | (h7 | h7)
          · exact absurd h7 hs
          · exact .inl h7
          · exact absurd h7 hm
          · exact .inr h7
    · rw [if_neg hmic]
      have hsr : nm ∈ c.srcs := hn2.resolve_left hmic
      simp only [List.mem_map, List.mem_filter, List.contains_eq_mem, Bool.not_eq_true',
        decide_eq_false_iff_not, Prod.mk.injEq, List.mem_append, List.mem_cons, List.not_mem_nil, or_false, not_or]
      constructor
      · rintro (⟨x, ⟨hx1, hx2⟩, rfl, rfl⟩ | ⟨h1, h2, ⟨h3, h4⟩, ⟨h5, h6⟩, h7⟩)
        · exact ⟨hsr, hx1, hn1, hx2, .inl (.inl rfl)⟩
        · exact ⟨h1, h2, h3, h5, h7.imp .inr .inr⟩
      · rintro ⟨h1, h2, h3, h5, h7⟩
        by_cases hs : s = nm
        · subst hs
          exact .inl ⟨m, ⟨h2, h5⟩, rfl, rfl⟩
        · right
          have hm : m ≠ nm := fun he => hmic (he ▸ h2)
          refine ⟨h1, h2, ⟨h3, hs⟩, ⟨h5, hm⟩, ?_⟩
          rcases h7 with (h7 | h7) | (h7 | h7)
          · exact absurd h7 hs
          · exact .inl h7
          · exact absurd h7 hm
          · exact .inr h7

theorem duePairs_nodup {c : Coll Pt H} (hc : c.Consistent) :
    ∀ (ch already : List String), ch.Nodup → (∀ x ∈ ch, x ∉ already ∧ (x ∈ c.mics ∨ x ∈ c.srcs)) →
      (c.duePairs ch already).Nodup
  | [], al, _, _ => by simp [Coll.duePairs]
  | nm :: rest, al, hnd, hch => by
    rw [List.nodup_cons] at hnd
    have hch' : ∀ x ∈ rest, x ∉ al ++ [nm] ∧ (x ∈ c.mics ∨ x ∈ c.srcs) := by
      intro x hx
      obtain ⟨h1, h2⟩ := hch x (by simp [hx])
      refine ⟨?_, h2⟩
      rw [List.mem_append, List.mem_singleton, not_or]
      exact ⟨h1, fun he => hnd.1 (he ▸ hx)⟩
    have ih := duePairs_nodup hc rest (al ++ [nm]) hnd.2 hch'
    have hms : c.mics.Nodup := by rw [hc.mics]; exact Coll.namesOf_nodup hc.names _
    have hss : c.srcs.Nodup := by rw [hc.srcs]; exact Coll.namesOf_nodup hc.names _
    unfold Coll.duePairs
    rw [List.nodup_append]
    refine ⟨?_, ih, ?_⟩
    · split
      · exact List.pairwise_map.2 ((hss.filter _).imp fun hne he => hne (Prod.mk.inj he).1)
      · exact List.pairwise_map.2 ((hms.filter _).imp fun hne he => hne (Prod.mk.inj he).2)
    · rintro ⟨s, m⟩ h1 q h2 rfl
      have h3 := (mem_duePairs hc rest (al ++ [nm]) hnd.2 hch').1 h2
      have h4 : s = nm ∨ m = nm := by
        split at h1
        · obtain ⟨x, _, hx⟩ := List.mem_map.1 h1
          exact .inr (Prod.mk.inj hx).2.symm
        · obtain ⟨x, _, hx⟩ := List.mem_map.1 h1
          exact .inl (Prod.mk.inj hx).1.symm
      rcases h4 with rfl | rfl
      · exact h3.2.2.1 (by simp)
      · exact h3.2.2.2.1 (by simp)

theorem Coll.Consistent.listed {c : Coll Pt H} (hc : c.Consistent) {a : Arr Pt} (ha : a ∈ c.arrays) :
    a.name ∈ c.mics ∨ a.name ∈ c.srcs := by
  rcases hk : a.kind with _ | k
  · exact absurd hk (hc.kinds a ha)
  · cases k with
    | mic => exact .inl (hc.mem_mics.2 ⟨a, ha, hk, rfl⟩)
    | free => exact .inr (hc.mem_srcs.2 ⟨a, ha, .inl hk, rfl⟩)
    | ctrl => exact .inr (hc.mem_srcs.2 ⟨a, ha, .inr hk, rfl⟩)

/-- One update step. -/
theorem update_spec {gen : GenFn Pt H G} {c c' : Coll Pt H} (hc : c.Consistent) {n : Nat} {g g' : G}
    (hf : c.freq ∣ n) (h : Coll.update gen (g, c) n = .ok (g', c')) :
    ∃ ps r', ps.Nodup ∧ (∀ s m, (s, m) ∈ ps ↔ s ∈ c.srcs ∧ m ∈ c.mics ∧ c.Moving s m) ∧
      Regen gen c.arrays c.types n ps g c.paths g' c'.paths ∧ c' = (c.moved n).with c'.paths r' := by
  unfold Coll.update at h
  dsimp only at h
  split at h
  · cases h
  · rw [if_neg (by simp [Nat.mod_eq_zero_of_dvd hf])] at h
    have hnd : ((c.arrays.filter Arr.dynamic).map Arr.name).Nodup :=
      (List.filter_sublist.map _).nodup hc.names
    have hch : ∀ x ∈ (c.arrays.filter Arr.dynamic).map Arr.name,
        x ∉ ([] : List String) ∧ (x ∈ c.mics ∨ x ∈ c.srcs) := by
      intro x hx
      obtain ⟨a, ha, rfl⟩ := List.mem_map.1 hx
      exact ⟨by simp, hc.listed (List.mem_filter.1 ha).1⟩
    obtain ⟨p', r', h1, h2⟩ := updateLoop_spec (n := n) hc _ [] (p := c.paths) (r := c.rirs) h
    refine ⟨_, r', duePairs_nodup hc _ _ hnd hch, ?_, by rw [h1]; exact h2, by rw [h1]; rfl⟩
    intro s m
    rw [mem_duePairs hc _ _ hnd hch]
    have hmv : (s ∈ (c.arrays.filter Arr.dynamic).map Arr.name ∨
        m ∈ (c.arrays.filter Arr.dynamic).map Arr.name) ↔ c.Moving s m := by
      unfold Coll.Moving
      simp only [List.mem_map, List.mem_filter]
      constructor
      · rintro (⟨a, ⟨h1, h2⟩, h3⟩ | ⟨a, ⟨h1, h2⟩, h3⟩)
        · exact ⟨a, h1, h2, .inl h3⟩
        · exact ⟨a, h1, h2, .inr h3⟩
      · rintro ⟨a, h1, h2, h3 | h3⟩
        · exact .inl ⟨a, ⟨h1, h2⟩, h3⟩
        · exact .inr ⟨a, ⟨h1, h2⟩, h3⟩
    rw [hmv]
    simp

theorem Coll.moved_consistent {c : Coll Pt H} (hc : c.Consistent) (n : Nat) (p r) :
    ((c.moved n).with p r).Consistent := by
  have hmap : ∀ q : Option ArrKind → Bool, ((c.moved n).with p r).namesOf q = c.namesOf q := by
    intro q
    show ((c.arrays.map (Arr.update n)).filter fun a => q a.kind).map Arr.name =
      (c.arrays.filter fun a => q a.kind).map Arr.name
    rw [List.filter_map, List.map_map]
    congr 1
    · funext a; exact Arr.update_name n a
    · congr 1
      funext a
      simp [Arr.update_kind]
  refine ⟨?_, ?_, ?_, ?_, ?_⟩
  · show ((c.arrays.map (Arr.update n)).map Arr.name).Nodup
    rw [List.map_map]
    have : Arr.name ∘ Arr.update n = (Arr.name : Arr Pt → String) := by
      funext a; exact Arr.update_name n a
    rw [this]
    exact hc.names
  · intro a ha
    obtain ⟨b, hb, rfl⟩ := List.mem_map.1 (show a ∈ c.arrays.map (Arr.update n) from ha)
    rw [Arr.update_kind]
    exact hc.kinds b hb
  · rw [hmap]; exact hc.mics
  · rw [hmap]; exact hc.srcs
  · rw [hmap]; exact hc.frees

theorem Coll.moved_moving {c : Coll Pt H} (n : Nat) (p r) {s m : String} :
    ((c.moved n).with p r).Moving s m ↔ c.Moving s m := by
  unfold Coll.Moving
  constructor
  · rintro ⟨a, ha, hd, hn⟩
    obtain ⟨b, hb, rfl⟩ := List.mem_map.1 (show a ∈ c.arrays.map (Arr.update n) from ha)
    rw [Arr.update_name] at hn
    exact ⟨b, hb, by simpa [Arr.dynamic, Arr.update_traj] using hd, hn⟩
  · rintro ⟨a, ha, hd, hn⟩
    refine ⟨a.update n, List.mem_map_of_mem ha, by simpa [Arr.dynamic, Arr.update_traj] using hd, ?_⟩
    rw [Arr.update_name]
    exact hn

/-- The state of the collection after the updates of the first `n` iterations. -/
structure AfterInv (gen : GenFn Pt H G) (c : Coll Pt H) (n : Nat) (c' : Coll Pt H) : Prop where
  con : c'.Consistent
  srcs : c'.srcs = c.srcs
  mics : c'.mics = c.mics
  types : c'.types = c.types
  freq : c'.freq = c.freq
  moving : ∀ s m, c'.Moving s m ↔ c.Moving s m
  geoAt : ∀ a' ∈ c'.arrays, ∃ a ∈ c.arrays, a.name = a'.name ∧ ∀ u, a.geoAt u = a'.geoAt u
  still : ∀ s m, ¬ c.Moving s m → c'.paths s m = c.paths s m
  other : ∀ s m, ¬ (s ∈ c.srcs ∧ m ∈ c.mics ∧ c.Moving s m ∧ 0 < n) → c'.paths s m = c.paths s m
  gen : ∀ s m, s ∈ c.srcs → m ∈ c.mics → c.Moving s m → 0 < n →
    ∃ h, c'.paths s m = some h ∧ GeneratedAt gen c s m (c.freq * ((n - 1) / c.freq)) h

theorem after_spec {gen : GenFn Pt H G} {c : Coll Pt H} (hc : c.Consistent) {g : G} :
    ∀ (n : Nat) {g' : G} {c' : Coll Pt H}, Coll.after gen (g, c) n = .ok (g', c') →
      AfterInv gen c n c'
  | 0, g', c', h => by
    cases h
    exact ⟨hc, rfl, rfl, rfl, rfl, fun _ _ => Iff.rfl, fun a ha => ⟨a, ha, rfl, fun _ => rfl⟩,
      fun _ _ _ => rfl, fun _ _ _ => rfl, fun _ _ _ _ _ h => absurd h (by omega)⟩
  | n + 1, g', c', h => by
    unfold Coll.after at h
    cases h1 : Coll.after gen (g, c) n with
    | error x => rw [h1] at h; cases h
    | ok y =>
      rw [h1] at h
      obtain ⟨gy, cy⟩ := y
      have ih := after_spec hc n h1
      simp only at h
      have hf0 : c.freq ≠ 0 := by
        intro h0
        unfold Coll.update at h
        rw [if_pos (by rw [← h0]; exact ih.freq)] at h
        cases h
      by_cases hd : c.freq ∣ n
      · obtain ⟨ps, r', k1, k2, k3, k4⟩ := update_spec ih.con (by rw [ih.freq]; exact hd) h
        refine ⟨by rw [k4]; exact Coll.moved_consistent ih.con n _ _, by rw [k4]; exact ih.srcs,
          by rw [k4]; exact ih.mics, by rw [k4]; exact ih.types, by rw [k4]; exact ih.freq, ?_, ?_, ?_, ?_, ?_⟩
        · intro s m
          rw [k4, Coll.moved_moving]
          exact ih.moving s m
        · intro a' ha'
          rw [k4] at ha'
          obtain ⟨b, hb, rfl⟩ := List.mem_map.1 (show a' ∈ cy.arrays.map (Arr.update n) from ha')
          obtain ⟨a, ha, e1, e2⟩ := ih.geoAt b hb
          exact ⟨a, ha, by rw [Arr.update_name]; exact e1, fun u => by rw [Arr.update_geoAt]; exact e2 u⟩
        · intro s m hm
          rw [k3.old, ih.still s m hm]
          rw [k2]
          rintro ⟨_, _, hmv⟩
          exact hm ((ih.moving s m).1 hmv)
        · intro s m hm
          rw [k3.old, ih.other s m fun ⟨h1, h2, h3, _⟩ => hm ⟨h1, h2, h3, by omega⟩]
          rw [k2, ih.srcs, ih.mics]
          rintro ⟨h1, h2, hmv⟩
          exact hm ⟨h1, h2, (ih.moving s m).1 hmv, by omega⟩
        · intro s m hs hm hmv _
          have hin : (s, m) ∈ ps := (k2 s m).2 ⟨by rw [ih.srcs]; exact hs, by rw [ih.mics]; exact hm,
            (ih.moving s m).2 hmv⟩
          obtain ⟨a, ha, b, hb, e1, e2, t, g1, g2, hh, e3, e4, e5⟩ := k3.new hin
          obtain ⟨a0, ha0, f1, f2⟩ := ih.geoAt a ha
          obtain ⟨b0, hb0, f3, f4⟩ := ih.geoAt b hb
          refine ⟨hh, e5, a0, ha0, b0, hb0, f1.trans e1, f3.trans e2, t, g1, g2, by rw [← ih.types]; exact e3, ?_⟩
          rw [f2, f4, Nat.add_sub_cancel, Nat.mul_div_cancel' hd]
          exact e4
      · have hmod : n % c.freq ≠ 0 := fun h0 => hd (Nat.dvd_of_mod_eq_zero h0)
        have : (gy, cy) = (g', c') := by
          unfold Coll.update at h
          rw [if_neg (by rw [show (gy, cy).2.freq = c.freq from ih.freq]; exact hf0),
            if_pos (by rw [show (gy, cy).2.freq = c.freq from ih.freq]; exact hmod)] at h
          exact Except.ok.inj h
        obtain ⟨rfl, rfl⟩ := Prod.mk.inj this
        refine ⟨ih.con, ih.srcs, ih.mics, ih.types, ih.freq, ih.moving, ih.geoAt, ih.still,
          fun s m hm => ih.other s m fun ⟨h1, h2, h3, _⟩ => hm ⟨h1, h2, h3, by omega⟩, ?_⟩
        intro s m hs hm hmv _
        have hn0 : 0 < n := by
          rcases Nat.eq_zero_or_pos n with rfl | h
          · exact absurd (Nat.zero_mod _) hmod
          · exact h
        obtain ⟨hh, q1, q2⟩ := ih.gen s m hs hm hmv hn0
        refine ⟨hh, q1, ?_⟩
        have : (n - 1) / c.freq = (n + 1 - 1) / c.freq := by
          rw [Nat.add_sub_cancel]
          have h1 := Nat.div_add_mod n c.freq
          have h2 := Nat.mod_lt n (Nat.pos_of_ne_zero hf0)
          have h3 : n - 1 = c.freq * (n / c.freq) + (n % c.freq - 1) := by omega
          have h4 : (n % c.freq - 1) / c.freq = 0 := Nat.div_eq_of_lt (by omega)
          rw [h3, Nat.mul_add_div (Nat.pos_of_ne_zero hf0), h4, Nat.add_zero]
        rw [← this]
        exact q2

end
end Verif

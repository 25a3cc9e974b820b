/-
Changing the order of the arrays of a collection.
-/
import Verif.Lemmas.Perm
import Verif.Lemmas.HideRun
namespace Verif

theorem foldlM_each {ε α γ : Type} {f : α → γ → Except ε α} : ∀ (l : List γ) {a a1 : α}, l.foldlM f a = .ok a1 →
    ∀ x ∈ l, ∃ b b1, f b x = .ok b1
  | [], _, _, _, x, hx => by cases hx
  | y :: l, a, a1, h, x, hx => by
    rw [List.foldlM_cons] at h
    cases hy : f a y with
    | error e => rw [hy] at h; cases h
    | ok a2 =>
      rw [hy] at h
      rcases List.mem_cons.1 hx with rfl | hx
      · exact ⟨a, a2, hy⟩
      · exact foldlM_each l h x hx

section
variable {Pt H G : Type}

/-- Two collections with the same arrays in different order. -/
structure CPerm (okT : String → Prop) (gc gc' : G × Coll Pt H) : Prop where
  cons : gc.2.Consistent
  cons' : gc'.2.Consistent
  arrays : gc.2.arrays.Perm gc'.2.arrays
  freq : gc.2.freq = gc'.2.freq
  types : gc.2.types = gc'.2.types
  paths : gc.2.paths = gc'.2.paths
  det : ∀ s m t, gc.2.types s m = some t → okT t

variable {okT : String → Prop} {gen : GenFn Pt H G}

theorem CPerm.right {gc gc' : G × Coll Pt H} (h : CPerm okT gc gc') : CPerm okT gc' gc' :=
  ⟨h.cons', h.cons', List.Perm.refl _, rfl, rfl, rfl, by rw [← h.types]; exact h.det⟩

theorem CPerm.left {gc gc' : G × Coll Pt H} (h : CPerm okT gc gc') : CPerm okT gc gc :=
  ⟨h.cons, h.cons, List.Perm.refl _, rfl, rfl, rfl, h.det⟩

theorem CPerm.trans {gc gc' gc'' : G × Coll Pt H} (h : CPerm okT gc gc') (h' : CPerm okT gc' gc'') : CPerm okT gc gc'' :=
  ⟨h.cons, h'.cons', h.arrays.trans h'.arrays, h.freq.trans h'.freq, h.types.trans h'.types, h.paths.trans h'.paths, h.det⟩

theorem CPerm.mem_srcs {gc gc' : G × Coll Pt H} (h : CPerm okT gc gc') {s : String} : s ∈ gc.2.srcs ↔ s ∈ gc'.2.srcs := by
  rw [h.cons.mem_srcs, h.cons'.mem_srcs]
  simp only [h.arrays.mem_iff]

theorem CPerm.mem_mics {gc gc' : G × Coll Pt H} (h : CPerm okT gc gc') {s : String} : s ∈ gc.2.mics ↔ s ∈ gc'.2.mics := by
  rw [h.cons.mem_mics, h.cons'.mem_mics]
  simp only [h.arrays.mem_iff]

theorem CPerm.srcs {gc gc' : G × Coll Pt H} (h : CPerm okT gc gc') : gc.2.srcs.Perm gc'.2.srcs := by
  rw [h.cons.srcs, h.cons'.srcs]
  exact (h.arrays.filter _).map _

theorem CPerm.mics {gc gc' : G × Coll Pt H} (h : CPerm okT gc gc') : gc.2.mics.Perm gc'.2.mics := by
  rw [h.cons.mics, h.cons'.mics]
  exact (h.arrays.filter _).map _

theorem CPerm.combos {gc gc' : G × Coll Pt H} (h : CPerm okT gc gc') : gc.2.combos.Perm gc'.2.combos := by
  unfold Coll.combos
  exact List.Perm.flatMap h.srcs fun s _ => h.mics.map _

theorem Coll.Consistent.combos_nodup {c : Coll Pt H} (hc : c.Consistent) : c.combos.Nodup := by
  unfold Coll.combos
  have hs : c.srcs.Nodup := by
    rw [hc.srcs]; exact (List.filter_sublist.map _).nodup hc.names
  have hm : c.mics.Nodup := by
    rw [hc.mics]; exact (List.filter_sublist.map _).nodup hc.names
  rw [List.nodup_flatMap]
  refine ⟨fun s _ => hm.map fun a b hab => (Prod.mk.inj hab).2, ?_⟩
  refine hs.imp fun {a b} hab => ?_
  intro x hx hx'
  obtain ⟨u, -, rfl⟩ := List.mem_map.1 hx
  obtain ⟨w, -, hw⟩ := List.mem_map.1 hx'
  exact hab (Prod.mk.inj hw).1.symm

theorem find_perm {c c' : Coll Pt H} (hc : c.Consistent) (hc' : c'.Consistent) (h : c.arrays.Perm c'.arrays) (nm : String) :
    c'.find nm = c.find nm := by
  cases hf : c.find nm with
  | some a =>
    obtain ⟨h1, h2⟩ := Coll.find_some hf
    rw [← h2]
    exact Coll.find_eq hc'.names (h.mem_iff.1 h1)
  | none =>
    cases hf' : c'.find nm with
    | none => rfl
    | some a =>
      obtain ⟨h1, h2⟩ := Coll.find_some hf'
      have := Coll.find_eq hc.names (h.mem_iff.2 h1)
      rw [h2, hf] at this
      cases this

theorem CPerm.set {gc gc' : G × Coll Pt H} (h : CPerm okT gc gc') (g g' : G) (s m : String) (v : H) :
    CPerm okT (g, { gc.2 with paths := set2 gc.2.paths s m v }) (g', { gc'.2 with paths := set2 gc'.2.paths s m v }) :=
  ⟨⟨h.cons.names, h.cons.kinds, h.cons.mics, h.cons.srcs, h.cons.frees⟩,
    ⟨h.cons'.names, h.cons'.kinds, h.cons'.mics, h.cons'.srcs, h.cons'.frees⟩, h.arrays, h.freq, h.types,
    by dsimp only; rw [h.paths], h.det⟩

/-- What one step of `setup_ir` does. -/
theorem setupOne_ok {gc gc1 : G × Coll Pt H} {p : String × String} : Coll.setupOne gen gc p = .ok gc1 ↔
    ∃ s m t, gc.2.find p.1 = some s ∧ gc.2.find p.2 = some m ∧
      (if s.num = 0 ∨ m.num = 0 then some "none" else gc.2.types p.1 p.2) = some t ∧
      ((t = "modified" ∧ gc1 = gc) ∨ (t ≠ "modified" ∧ ∃ g h, gen gc.1 s.geo m.geo t = .ok (g, h) ∧
        gc1 = (g, { gc.2 with paths := set2 gc.2.paths p.1 p.2 h }))) := by
  unfold Coll.setupOne
  constructor
  · intro hx
    split at hx
    · rename_i s m h1 h2
      split at hx
      · cases hx
      · rename_i t ht
        refine ⟨s, m, t, h1, h2, ht, ?_⟩
        split at hx
        · rename_i hne
          split at hx
          · cases hx
          · rename_i g h hg
            cases hx
            exact .inr ⟨hne, g, h, hg, rfl⟩
        · rename_i hne
          cases hx
          exact .inl ⟨by simpa using hne, rfl⟩
    · cases hx
  · rintro ⟨s, m, t, h1, h2, ht, h3⟩
    rw [h1, h2]
    dsimp only
    rw [ht]
    dsimp only
    rcases h3 with ⟨rfl, rfl⟩ | ⟨hne, g, h, hg, rfl⟩
    · rfl
    · rw [if_pos hne, hg]

theorem setupOne_perm (hd : Steady gen okT) (h0 : okT "none") {gc gc' gc1 : G × Coll Pt H} (h : CPerm okT gc gc')
    {p : String × String} (hx : Coll.setupOne gen gc p = .ok gc1) :
    ∃ gc1', Coll.setupOne gen gc' p = .ok gc1' ∧ CPerm okT gc1 gc1' := by
  obtain ⟨s, m, t, h1, h2, ht, h3⟩ := setupOne_ok.1 hx
  have f1 := find_perm h.cons h.cons' h.arrays p.1
  have f2 := find_perm h.cons h.cons' h.arrays p.2
  have hok : okT t := by
    split at ht
    · cases ht; exact h0
    · exact h.det _ _ _ ht
  rcases h3 with ⟨rfl, rfl⟩ | ⟨hne, g, v, hg, rfl⟩
  · exact ⟨gc', setupOne_ok.2 ⟨s, m, _, f1.trans h1, f2.trans h2, by rw [← h.types]; exact ht, .inl ⟨rfl, rfl⟩⟩, h⟩
  · obtain ⟨g', hg'⟩ := hd _ gc'.1 _ _ _ _ _ hok hg
    exact ⟨_, setupOne_ok.2 ⟨s, m, t, f1.trans h1, f2.trans h2, by rw [← h.types]; exact ht, .inr ⟨hne, g', v, hg', rfl⟩⟩,
      h.set _ _ _ _ _⟩

theorem set2_comm {V : Type} (f : String → String → Option V) {s1 m1 s2 m2 : String} (h : ¬ (s1 = s2 ∧ m1 = m2)) (v w : V) :
    set2 (set2 f s1 m1 v) s2 m2 w = set2 (set2 f s2 m2 w) s1 m1 v :=
  set2_swap (V := Option V) f h (some v) (some w)

/-- The steps of `setup_ir` for two different pairs commute, up to the random generator. -/
theorem setupOne_comm (hd : Steady gen okT) (h0 : okT "none") {gc gc1 gc2 : G × Coll Pt H} (h : CPerm okT gc gc)
    {p q : String × String} (hpq : p ≠ q) (hx : Coll.setupOne gen gc p = .ok gc1) (hy : Coll.setupOne gen gc1 q = .ok gc2) :
    ∃ b1 b2, Coll.setupOne gen gc q = .ok b1 ∧ Coll.setupOne gen b1 p = .ok b2 ∧ CPerm okT gc2 b2 := by
  obtain ⟨s, m, t, h1, h2, ht, h3⟩ := setupOne_ok.1 hx
  rcases h3 with ⟨rfl, rfl⟩ | ⟨hne, g, v, hg, rfl⟩
  · obtain ⟨s', m', t', k1, k2, kt, k3⟩ := setupOne_ok.1 hy
    rcases k3 with ⟨rfl, rfl⟩ | ⟨hne', g', v', hg', rfl⟩
    · exact ⟨_, _, hy, hx, h⟩
    · refine ⟨_, _, hy, setupOne_ok.2 ⟨s, m, _, h1, h2, ht, .inl ⟨rfl, rfl⟩⟩, h.set _ _ _ _ _⟩
  · obtain ⟨s', m', t', k1, k2, kt, k3⟩ := setupOne_ok.1 hy
    have hok : okT t := by
      split at ht
      · cases ht; exact h0
      · exact h.det _ _ _ ht
    have hok' : okT t' := by
      split at kt
      · cases kt; exact h0
      · exact h.det _ _ _ kt
    rcases k3 with ⟨rfl, rfl⟩ | ⟨hne', g', v', hg', rfl⟩
    · exact ⟨gc, _, setupOne_ok.2 ⟨s', m', _, k1, k2, kt, .inl ⟨rfl, rfl⟩⟩, hx, h.set _ _ _ _ _⟩
    · obtain ⟨g1, hg1⟩ := hd _ gc.1 _ _ _ _ _ hok' hg'
      obtain ⟨g2, hg2⟩ := hd _ g1 _ _ _ _ _ hok hg
      refine ⟨_, _, setupOne_ok.2 ⟨s', m', t', k1, k2, kt, .inr ⟨hne', g1, v', hg1, rfl⟩⟩,
        setupOne_ok.2 ⟨s, m, t, h1, h2, ht, .inr ⟨hne, g2, v, hg2, rfl⟩⟩, ?_⟩
      have hx := (h.set g' g2 p.1 p.2 v).set g' g2 q.1 q.2 v'
      dsimp only at hx ⊢
      rw [set2_comm _ (fun e => hpq (Prod.ext e.1.symm e.2.symm))]
      exact hx

theorem setupIr_perm (hd : Steady gen okT) (h0 : okT "none") {gc gc' gc1 : G × Coll Pt H} (h : CPerm okT gc gc')
    (hx : gc.2.setupIr gen gc.1 = .ok gc1) : ∃ gc1', gc'.2.setupIr gen gc'.1 = .ok gc1' ∧ CPerm okT gc1 gc1' := by
  unfold Coll.setupIr at hx ⊢
  cases hc : gc.2.calcRirParameters with
  | error x => rw [hc] at hx; cases hx
  | ok u =>
    rw [hc] at hx
    have hc' : gc'.2.calcRirParameters = .ok () := by
      unfold Coll.calcRirParameters at hc ⊢
      split at hc
      · cases hc
      · rename_i hno
        rw [if_neg]
        intro hany
        apply hno
        rw [List.any_eq_true] at hany ⊢
        obtain ⟨p, hp, hq⟩ := hany
        refine ⟨p, h.combos.mem_iff.2 hp, ?_⟩
        rw [find_perm h.cons h.cons' h.arrays, find_perm h.cons h.cons' h.arrays] at hq
        exact hq
    rw [hc']
    dsimp only at hx ⊢
    refine foldlM_perm (CPerm okT) (fun _ _ => CPerm.right) (fun _ _ _ => CPerm.trans) h.combos ?_ ?_
      h.cons.combos_nodup h hx
    · intro p _ a b a1 hab ha
      exact setupOne_perm hd h0 hab ha
    · intro p _ q _ hne a b a1 a2 hab h1 h2
      obtain ⟨b1, b2, k1, k2, k3⟩ := setupOne_comm hd h0 hab.left hne h1 h2
      obtain ⟨c1, l1, l2⟩ := setupOne_perm hd h0 hab k1
      obtain ⟨c2, l3, l4⟩ := setupOne_perm hd h0 l2 k2
      exact ⟨c1, c2, l1, l3, k3.trans l4⟩

/-- An update step with a moving microphone needs a source. -/
theorem updateLoop_srcs : ∀ (l al : List String) {gc gc1 : G × Coll Pt H}, Coll.updateLoop gen l al gc = .ok gc1 →
    (∃ nm ∈ l, ∃ a, gc.2.find nm = some a ∧ a.kind = some .mic) → gc.2.srcs ≠ []
  | [], _, _, _, _, ⟨_, h, _⟩ => by cases h
  | nm :: l, al, gc, gc1, hx, ⟨x, hxl, a, ha, hk⟩ => by
    have hpath : ∀ {gc gc1 : G × Coll Pt H} {s m : String}, Coll.updatePath gen gc s m = .ok gc1 →
        gc1.2.arrays = gc.2.arrays ∧ gc1.2.srcs = gc.2.srcs := by
      intro gc gc1 s m hx
      unfold Coll.updatePath at hx
      split at hx
      · split at hx
        · cases hx
        · split at hx
          · cases hx
          · cases hx; exact ⟨rfl, rfl⟩
      · cases hx
    have hfold : ∀ (f : String → String × String) (l : List String) {gc gc1 : G × Coll Pt H},
        l.foldlM (fun gc x => Coll.updatePath gen gc (f x).1 (f x).2) gc = .ok gc1 →
        gc1.2.arrays = gc.2.arrays ∧ gc1.2.srcs = gc.2.srcs := by
      intro f l
      induction l with
      | nil => intro gc gc1 h; cases h; exact ⟨rfl, rfl⟩
      | cons y l ih =>
        intro gc gc1 h
        rw [List.foldlM_cons] at h
        cases hy : Coll.updatePath gen gc (f y).1 (f y).2 with
        | error e => rw [hy] at h; cases h
        | ok gc2 =>
          rw [hy] at h
          obtain ⟨k1, k2⟩ := hpath hy
          obtain ⟨k3, k4⟩ := ih h
          exact ⟨k3.trans k1, k4.trans k2⟩
    have hfind : ∀ {gc gc1 : G × Coll Pt H}, gc1.2.arrays = gc.2.arrays → gc1.2.find x = gc.2.find x := by
      intro gc gc1 h
      unfold Coll.find
      rw [h]
    unfold Coll.updateLoop at hx
    cases hf : gc.2.find nm with
    | none => rw [hf] at hx; cases hx
    | some b =>
      rw [hf] at hx
      dsimp only at hx
      cases hkb : b.kind with
      | none => rw [hkb] at hx; cases hx
      | some k =>
        by_cases hmic : k = .mic
        · subst hmic
          rw [hkb] at hx
          dsimp only at hx
          cases hfo : (gc.2.srcs.filter fun s => !al.contains s).foldlM (fun gc s => Coll.updatePath gen gc s nm) gc with
          | error e => rw [hfo] at hx; cases hx
          | ok gc2 =>
            rw [hfo] at hx
            dsimp only at hx
            obtain ⟨k1, k2⟩ := hfold (fun s => (s, nm)) _ hfo
            intro he
            rw [he] at k2
            rw [k2] at hx
            cases hx
        · have hx' : (match (gc.2.mics.filter fun m => !al.contains m).foldlM (fun gc m => Coll.updatePath gen gc nm m) gc with
              | .error x => .error x
              | .ok gc => Coll.updateLoop gen l (al ++ [nm]) gc : Except PyErr (G × Coll Pt H)) = .ok gc1 := by
            rw [hkb] at hx
            cases k with
            | mic => exact absurd rfl hmic
            | free => exact hx
            | ctrl => exact hx
          cases hfo : (gc.2.mics.filter fun m => !al.contains m).foldlM (fun gc m => Coll.updatePath gen gc nm m) gc with
          | error e => rw [hfo] at hx'; cases hx'
          | ok gc2 =>
            rw [hfo] at hx'
            dsimp only at hx'
            obtain ⟨k1, k2⟩ := hfold (fun m => (nm, m)) _ hfo
            rw [← k2]
            rcases List.mem_cons.1 hxl with rfl | hxl
            · rw [hf] at ha
              cases ha
              rw [hkb] at hk
              exact absurd (Option.some.inj hk) hmic
            · exact updateLoop_srcs l _ hx' ⟨x, hxl, a, by rw [hfind k1]; exact ha, hk⟩

/-- Two collections with the same arrays in different order, all responses known. -/
structure CFull (okT : String → Prop) (gc gc' : G × Coll Pt H) : Prop where
  perm : CPerm okT gc gc'
  full : ∀ s ∈ gc.2.srcs, ∀ m ∈ gc.2.mics, (gc.2.paths s m).isSome

theorem moving_perm {c c' : Coll Pt H} (h : c.arrays.Perm c'.arrays) {s m : String} : c.Moving s m ↔ c'.Moving s m := by
  unfold Coll.Moving
  simp only [h.mem_iff]

theorem moved_consistent {c : Coll Pt H} (hc : c.Consistent) (n : Nat) (p r) : ((c.moved n).with p r).Consistent := by
  have hmap : ∀ (q : Option ArrKind → Bool), ((c.moved n).with p r).namesOf q = c.namesOf q := by
    intro q
    unfold Coll.namesOf
    have : ((c.moved n).with p r).arrays = c.arrays.map (Arr.update n) := rfl
    rw [this, List.filter_map, List.map_map]
    have e1 : (fun a : Arr Pt => q a.kind) ∘ Arr.update n = fun a => q a.kind := by
      funext a; simp only [Function.comp, arrUpdate_kind]
    have e2 : Arr.name ∘ Arr.update (Pt := Pt) n = Arr.name := by
      funext a; simp only [Function.comp, arrUpdate_name]
    rw [e1, e2]
  refine ⟨?_, ?_, ?_, ?_, ?_⟩
  · have : ((c.moved n).with p r).arrays = c.arrays.map (Arr.update n) := rfl
    rw [this, List.map_map]
    have e2 : Arr.name ∘ Arr.update (Pt := Pt) n = Arr.name := by
      funext a; simp only [Function.comp, arrUpdate_name]
    rw [e2]
    exact hc.names
  · intro a ha
    obtain ⟨b, hb, rfl⟩ := List.mem_map.1 ha
    rw [arrUpdate_kind]
    exact hc.kinds b hb
  · rw [hmap]; exact hc.mics
  · rw [hmap]; exact hc.srcs
  · rw [hmap]; exact hc.frees

theorem update_perm (hd : Steady gen okT) (hmod : ∀ g a b g1 h, gen g a b "modified" ≠ .ok (g1, h)) {gc gc' gc1 : G × Coll Pt H}
    {n : Nat} (hf : CFull okT gc gc') (hx : Coll.update gen gc n = .ok gc1) :
    ∃ gc1', Coll.update gen gc' n = .ok gc1' ∧ CFull okT gc1 gc1' := by
  have h := hf.perm
  have hfr : gc.2.freq ≠ 0 := by
    intro e
    unfold Coll.update at hx
    rw [if_pos e] at hx
    cases hx
  by_cases hdv : gc.2.freq ∣ n
  · obtain ⟨ps, r1, q1, q2, q3, q4⟩ := update_spec (g := gc.1) (g' := gc1.1) (c' := gc1.2) h.cons hdv hx
    have hgen : ∀ a ∈ gc'.2.arrays, ∀ b ∈ gc'.2.arrays, gc'.2.Moving a.name b.name → a.name ∈ gc.2.srcs → b.name ∈ gc.2.mics →
        ∃ t g1 g2 x, gc.2.types a.name b.name = some t ∧ gen g1 (a.geoAt n) (b.geoAt n) t = .ok (g2, x) ∧
          gc1.2.paths a.name b.name = some x := by
      intro a ha b hb hmv hs hm
      have hin := (q2 _ _).2 ⟨hs, hm, (moving_perm h.arrays).2 hmv⟩
      obtain ⟨a', ha', b', hb', e1, e2, t, g1, g2, x, e3, e4, e5⟩ := q3.new hin
      have := h.cons.inj ha' (h.arrays.mem_iff.2 ha) e1
      subst this
      have := h.cons.inj hb' (h.arrays.mem_iff.2 hb) e2
      subst this
      exact ⟨t, g1, g2, x, e3, e4, e5⟩
    have hok : ∃ gc1', Coll.update gen (gc'.1, gc'.2) n = .ok gc1' := by
      have hsm : ∀ s ∈ gc'.2.srcs, ∀ m ∈ gc'.2.mics, gc'.2.Moving s m → ∃ t, gc'.2.types s m = some t ∧ t ≠ "modified" ∧
          ∀ a ∈ gc'.2.arrays, ∀ b ∈ gc'.2.arrays, a.name = s → b.name = m → ∀ g,
            ∃ g' x, gen g (a.geoAt n) (b.geoAt n) t = .ok (g', x) := by
        intro s hs m hm hmv
        obtain ⟨a, ha, -, rfl⟩ := h.cons'.mem_srcs.1 hs
        obtain ⟨b, hb, -, rfl⟩ := h.cons'.mem_mics.1 hm
        obtain ⟨t, g1, g2, x, e1, e2, -⟩ := hgen a ha b hb hmv (h.mem_srcs.2 hs) (h.mem_mics.2 hm)
        refine ⟨t, by rw [← h.types]; exact e1, ?_, ?_⟩
        · rintro rfl
          exact hmod _ _ _ _ _ e2
        · intro a' ha' b' hb' n1 n2 g
          have := h.cons'.inj ha' ha n1
          subst this
          have := h.cons'.inj hb' hb n2
          subst this
          obtain ⟨g', hg'⟩ := hd _ g _ _ _ _ _ (h.det _ _ _ e1) e2
          exact ⟨g', x, hg'⟩
      unfold Coll.update
      rw [if_neg (by rw [← h.freq]; exact hfr), if_neg (by rw [← h.freq]; simp [Nat.mod_eq_zero_of_dvd hdv])]
      refine updateLoop_ok (p := gc'.2.paths) (r := gc'.2.rirs) h.cons' _ _ ?_ ?_ ?_ ?_
      · intro x hx
        obtain ⟨a, ha, rfl⟩ := List.mem_map.1 hx
        exact ⟨a, (List.mem_filter.1 ha).1, rfl⟩
      · intro s hs m hm hmv
        refine hsm s hs m hm ?_
        rcases hmv with hx | hx
        · obtain ⟨a, ha, rfl⟩ := List.mem_map.1 hx
          exact ⟨a, (List.mem_filter.1 ha).1, (List.mem_filter.1 ha).2, .inl rfl⟩
        · obtain ⟨a, ha, rfl⟩ := List.mem_map.1 hx
          exact ⟨a, (List.mem_filter.1 ha).1, (List.mem_filter.1 ha).2, .inr rfl⟩
      · rintro ⟨m, hm, hmd⟩
        obtain ⟨a, ha, rfl⟩ := List.mem_map.1 hmd
        obtain ⟨ha1, ha2⟩ := List.mem_filter.1 ha
        obtain ⟨b, hb, hkb, hnb⟩ := h.cons'.mem_mics.1 hm
        have := h.cons'.inj hb ha1 hnb
        subst this
        have hb' := h.arrays.mem_iff.2 hb
        have hne : gc.2.srcs ≠ [] := by
          unfold Coll.update at hx
          rw [if_neg hfr, if_neg (by simp [Nat.mod_eq_zero_of_dvd hdv])] at hx
          refine updateLoop_srcs (gc := (gc.1, { gc.2 with arrays := gc.2.arrays.map (Arr.update n) })) _ _ hx ⟨b.name, List.mem_map.2 ⟨b, List.mem_filter.2 ⟨hb', ha2⟩, rfl⟩, b.update n, ?_, ?_⟩
          · have := Coll.moved_find (c := gc.2) (n := n) (p := gc.2.paths) (r := gc.2.rirs) b.name
            rw [Coll.find_eq h.cons.names hb'] at this
            exact this
          · rw [arrUpdate_kind]; exact hkb
        intro he
        apply hne
        have := h.srcs
        rw [he] at this
        exact this.eq_nil
      · intro s hs m hm
        rw [← h.paths]
        exact hf.full s (h.mem_srcs.2 hs) m (h.mem_mics.2 hm)
    obtain ⟨gc1', hu⟩ := hok
    refine ⟨gc1', hu, ?_⟩
    obtain ⟨ps', r1', q1', q2', q3', q4'⟩ := update_spec (g := gc'.1) (g' := gc1'.1) (c' := gc1'.2) h.cons'
      (by rw [← h.freq]; exact hdv) hu
    have hpe : gc1.2.paths = gc1'.2.paths := by
      funext s m
      by_cases hin : (s, m) ∈ ps
      · obtain ⟨p1, p2, p3⟩ := (q2 _ _).1 hin
        have hin' : (s, m) ∈ ps' := (q2' _ _).2 ⟨h.mem_srcs.1 p1, h.mem_mics.1 p2, (moving_perm h.arrays).1 p3⟩
        obtain ⟨a, ha, b, hb, e1, e2, t, g1, g2, x, e3, e4, e5⟩ := q3'.new hin'
        subst e1 e2
        obtain ⟨t', g1', g2', x', k1, k2, k3⟩ := hgen a ha b hb ((moving_perm h.arrays).1 p3) p1 p2
        rw [k3, e5]
        rw [← h.types, k1] at e3
        cases e3
        obtain ⟨g3, hg3⟩ := hd _ g1 _ _ _ _ _ (h.det _ _ _ k1) k2
        rw [e4] at hg3
        cases hg3
        rfl
      · have hin' : (s, m) ∉ ps' := by
          intro hc
          obtain ⟨p1, p2, p3⟩ := (q2' _ _).1 hc
          exact hin ((q2 _ _).2 ⟨h.mem_srcs.2 p1, h.mem_mics.2 p2, (moving_perm h.arrays).2 p3⟩)
        rw [q3.old hin, q3'.old hin', h.paths]
    have hlists : gc1.2.srcs = gc.2.srcs ∧ gc1.2.mics = gc.2.mics ∧ gc1.2.types = gc.2.types := by
      rw [q4]; exact ⟨rfl, rfl, rfl⟩
    refine ⟨⟨?_, ?_, ?_, ?_, ?_, hpe, ?_⟩, ?_⟩
    · rw [q4]; exact moved_consistent h.cons _ _ _
    · rw [q4']; exact moved_consistent h.cons' _ _ _
    · rw [q4, q4']; exact h.arrays.map _
    · rw [q4, q4']; exact h.freq
    · rw [q4, q4']; exact h.types
    · rw [hlists.2.2]; exact h.det
    · intro s hs m hm
      rw [hlists.1] at hs
      rw [hlists.2.1] at hm
      by_cases hin : (s, m) ∈ ps
      · obtain ⟨a, ha, b, hb, e1, e2, t, g1, g2, x, e3, e4, e5⟩ := q3.new hin
        rw [e5]; rfl
      · rw [q3.old hin]
        exact hf.full s hs m hm
  · unfold Coll.update at hx ⊢
    rw [if_neg hfr, if_pos fun e => hdv (Nat.dvd_of_mod_eq_zero e)] at hx
    cases hx
    rw [if_neg (by rw [← h.freq]; exact hfr), if_pos fun e => hdv (by rw [h.freq]; exact Nat.dvd_of_mod_eq_zero e)]
    exact ⟨gc', rfl, hf⟩

theorem infos_perm {c c' : Coll Pt H} (h : c.arrays.Perm c'.arrays) : c.infos.Perm c'.infos := h.filterMap _

end
end Verif

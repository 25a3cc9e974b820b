/-
Taking microphone arrays away from a collection of arrays.
-/
import Verif.Lemmas.Hide
import Verif.Model.Room
namespace Verif

section
variable {Pt H G : Type}

/-- Two collections that differ by the hidden microphones. -/
structure CRel (hid : String → Bool) (okT : String → Prop) (gc gc' : G × Coll Pt H) : Prop where
  arrays : gc'.2.arrays = gc.2.arrays.filter fun a => !hid a.name
  mics : gc'.2.mics = gc.2.mics.filter fun m => !hid m
  srcs : gc'.2.srcs = gc.2.srcs
  freq : gc'.2.freq = gc.2.freq
  paths : ∀ s m, hid m = false → gc.2.paths s m = gc'.2.paths s m
  types : ∀ s m, hid m = false → gc.2.types s m = gc'.2.types s m
  mic : ∀ a ∈ gc.2.arrays, hid a.name = true → a.kind = some .mic
  src : ∀ s ∈ gc.2.srcs, hid s = false
  det : ∀ s m t, hid m = false → gc.2.types s m = some t → okT t

/-- The generator of impulse responses gives the same response in every state. -/
def Steady (gen : GenFn Pt H G) (okT : String → Prop) : Prop :=
  ∀ g g' a b t g1 h, okT t → gen g a b t = .ok (g1, h) → ∃ g1', gen g' a b t = .ok (g1', h)

variable {hid : String → Bool} {okT : String → Prop} {gen : GenFn Pt H G}

theorem CRel.find {gc gc' : G × Coll Pt H} (h : CRel hid okT gc gc') {nm : String} (hn : hid nm = false) :
    gc'.2.find nm = gc.2.find nm := by
  unfold Coll.find
  rw [h.arrays, List.find?_filter]
  congr 1
  funext a
  cases e : a.name == nm with
  | false => simp
  | true =>
    have : a.name = nm := by simpa using e
    simp [this, hn]

theorem CRel.combos {gc gc' : G × Coll Pt H} (h : CRel hid okT gc gc') :
    gc'.2.combos = gc.2.combos.filter fun p => !hid p.2 := by
  unfold Coll.combos
  rw [h.srcs, h.mics, List.filter_flatMap]
  congr 1
  funext s
  rw [List.filter_map]
  rfl

theorem CRel.set {gc gc' : G × Coll Pt H} (h : CRel hid okT gc gc') (g g' : G) (s m : String) (v : H) :
    CRel hid okT (g, { gc.2 with paths := set2 gc.2.paths s m v }) (g', { gc'.2 with paths := set2 gc'.2.paths s m v }) where
  arrays := h.arrays
  mics := h.mics
  srcs := h.srcs
  freq := h.freq
  paths := fun s' m' hm => by simp only [set2]; rw [h.paths s' m' hm]
  types := h.types
  mic := h.mic
  src := h.src
  det := h.det

theorem CRel.set_left {gc gc' : G × Coll Pt H} (h : CRel hid okT gc gc') (g : G) {s m : String} (hm : hid m = true) (v : H) :
    CRel hid okT (g, { gc.2 with paths := set2 gc.2.paths s m v }) gc' where
  arrays := h.arrays
  mics := h.mics
  srcs := h.srcs
  freq := h.freq
  paths := fun s' m' hm' => by
    simp only [set2]
    rw [if_neg]
    · exact h.paths s' m' hm'
    · rintro ⟨-, rfl⟩; rw [hm] at hm'; cases hm'
  types := h.types
  mic := h.mic
  src := h.src
  det := h.det

theorem setupOne_hide (hd : Steady gen okT) (h0 : okT "none") {gc gc' gc1 : G × Coll Pt H} (h : CRel hid okT gc gc')
    {p : String × String} (hp : hid p.1 = false) (hx : Coll.setupOne gen gc p = .ok gc1) :
    (hid p.2 = false → ∃ gc1', Coll.setupOne gen gc' p = .ok gc1' ∧ CRel hid okT gc1 gc1') ∧
    (hid p.2 = true → CRel hid okT gc1 gc') := by
  unfold Coll.setupOne at hx
  cases hf1 : gc.2.find p.1 with
  | none => rw [hf1] at hx; cases hx
  | some s =>
    cases hf2 : gc.2.find p.2 with
    | none => rw [hf1, hf2] at hx; cases hx
    | some m =>
      rw [hf1, hf2] at hx
      dsimp only at hx
      cases ht : (if s.num = 0 ∨ m.num = 0 then some "none" else gc.2.types p.1 p.2) with
      | none => rw [ht] at hx; cases hx
      | some t =>
        rw [ht] at hx
        dsimp only at hx
        constructor
        · intro hk
          have ht' : (if s.num = 0 ∨ m.num = 0 then some "none" else gc'.2.types p.1 p.2) = some t := by
            rw [← h.types _ _ hk]; exact ht
          have hok : okT t := by
            split at ht
            · cases ht; exact h0
            · exact h.det _ _ _ hk ht
          unfold Coll.setupOne
          rw [h.find hp, h.find hk, hf1, hf2]
          dsimp only
          rw [ht']
          dsimp only
          split at hx
          · rename_i hne
            rw [if_pos hne]
            split at hx
            · cases hx
            · rename_i g1 v hg
              obtain ⟨g1', hg'⟩ := hd _ gc'.1 _ _ _ _ _ hok hg
              rw [hg']
              cases hx
              exact ⟨_, rfl, h.set _ _ _ _ _⟩
          · rename_i hne
            rw [if_neg hne]
            cases hx
            exact ⟨_, rfl, h⟩
        · intro hk
          split at hx
          · split at hx
            · cases hx
            · cases hx
              exact h.set_left _ hk _
          · cases hx
            exact h

theorem setupIr_hide (hd : Steady gen okT) (h0 : okT "none") {gc gc' gc1 : G × Coll Pt H} (h : CRel hid okT gc gc')
    (hx : gc.2.setupIr gen gc.1 = .ok gc1) : ∃ gc1', gc'.2.setupIr gen gc'.1 = .ok gc1' ∧ CRel hid okT gc1 gc1' := by
  unfold Coll.setupIr at hx ⊢
  have hmem : ∀ p ∈ gc.2.combos, hid p.1 = false := by
    intro p hp
    unfold Coll.combos at hp
    simp only [List.mem_flatMap, List.mem_map] at hp
    obtain ⟨s, hs, m, -, rfl⟩ := hp
    exact h.src s hs
  cases hc : gc.2.calcRirParameters with
  | error x => rw [hc] at hx; cases hx
  | ok u =>
    rw [hc] at hx
    have hc' : gc'.2.calcRirParameters = .ok () := by
      unfold Coll.calcRirParameters at hc ⊢
      rw [if_neg]
      intro hany
      split at hc
      · cases hc
      · rename_i hno
        apply hno
        rw [List.any_eq_true] at hany ⊢
        obtain ⟨p, hp, hq⟩ := hany
        rw [h.combos] at hp
        obtain ⟨hp1, hp2⟩ := List.mem_filter.1 hp
        refine ⟨p, hp1, ?_⟩
        rw [h.find (hmem p hp1), h.find (by simpa using hp2)] at hq
        exact hq
    rw [hc', h.combos]
    dsimp only at hx ⊢
    refine foldlM_hide (CRel hid okT) (fun p : String × String => !hid p.2) gc.2.combos h ?_ ?_ hx
    · intro p hp hk a b a1 hab ha
      exact (setupOne_hide hd h0 hab (hmem p hp) ha).1 (by simpa using hk)
    · intro p hp hk a b a1 hab ha
      exact (setupOne_hide hd h0 hab (hmem p hp) ha).2 (by simpa using hk)

theorem updatePath_hide (hd : Steady gen okT) {gc gc' gc1 : G × Coll Pt H} (h : CRel hid okT gc gc')
    {s m : String} (hs : hid s = false) (hx : Coll.updatePath gen gc s m = .ok gc1) :
    (hid m = false → ∃ gc1', Coll.updatePath gen gc' s m = .ok gc1' ∧ CRel hid okT gc1 gc1') ∧
    (hid m = true → CRel hid okT gc1 gc') := by
  unfold Coll.updatePath at hx
  cases hf1 : gc.2.find s with
  | none => rw [hf1] at hx; cases hx
  | some a =>
    cases hf2 : gc.2.find m with
    | none => rw [hf1, hf2] at hx; cases hx
    | some b =>
      cases ht : gc.2.types s m with
      | none => rw [hf1, hf2, ht] at hx; cases hx
      | some t =>
        rw [hf1, hf2, ht] at hx
        dsimp only at hx
        split at hx
        · cases hx
        · rename_i hne
          split at hx
          · cases hx
          · rename_i g1 v hg
            cases hx
            constructor
            · intro hk
              unfold Coll.updatePath
              rw [h.find hs, h.find hk, hf1, hf2, ← h.types _ _ hk, ht]
              dsimp only
              rw [if_neg hne]
              obtain ⟨g1', hg'⟩ := hd _ gc'.1 _ _ _ _ _ (h.det _ _ _ hk ht) hg
              rw [hg']
              exact ⟨_, rfl, h.set _ _ _ _ _⟩
            · intro hk
              exact h.set_left _ hk _

/-- The parts of a collection an update leaves alone. -/
def sameLists (c c1 : Coll Pt H) : Prop := c1.srcs = c.srcs ∧ c1.mics = c.mics

theorem updatePath_lists {gc gc1 : G × Coll Pt H} {s m : String} (hx : Coll.updatePath gen gc s m = .ok gc1) :
    sameLists gc.2 gc1.2 := by
  unfold Coll.updatePath at hx
  split at hx
  · split at hx
    · cases hx
    · split at hx
      · cases hx
      · cases hx; exact ⟨rfl, rfl⟩
  · cases hx

theorem foldl_lists {f : G × Coll Pt H → String → Except PyErr (G × Coll Pt H)}
    (hf : ∀ gc x gc1, f gc x = .ok gc1 → sameLists gc.2 gc1.2) : ∀ (l : List String) {gc gc1 : G × Coll Pt H},
    l.foldlM f gc = .ok gc1 → sameLists gc.2 gc1.2
  | [], gc, gc1, h => by cases h; exact ⟨rfl, rfl⟩
  | x :: l, gc, gc1, h => by
    rw [List.foldlM_cons] at h
    cases hx : f gc x with
    | error e => rw [hx] at h; cases h
    | ok gc2 =>
      rw [hx] at h
      obtain ⟨a1, a2⟩ := hf _ _ _ hx
      obtain ⟨b1, b2⟩ := foldl_lists hf l h
      exact ⟨b1.trans a1, b2.trans a2⟩

theorem CRel.rirs {gc gc' : G × Coll Pt H} (h : CRel hid okT gc gc') (l l' : List H) :
    CRel hid okT (gc.1, { gc.2 with rirs := l }) (gc'.1, { gc'.2 with rirs := l' }) :=
  ⟨h.arrays, h.mics, h.srcs, h.freq, h.paths, h.types, h.mic, h.src, h.det⟩

theorem CRel.rirs_left {gc gc' : G × Coll Pt H} (h : CRel hid okT gc gc') (l : List H) :
    CRel hid okT (gc.1, { gc.2 with rirs := l }) gc' :=
  ⟨h.arrays, h.mics, h.srcs, h.freq, h.paths, h.types, h.mic, h.src, h.det⟩

theorem updateLoop_hide (hd : Steady gen okT) : ∀ (l al al' : List String) {gc gc' gc1 : G × Coll Pt H}, CRel hid okT gc gc' →
    (∀ x, hid x = false → al.contains x = al'.contains x) → Coll.updateLoop gen l al gc = .ok gc1 →
    ∃ gc1', Coll.updateLoop gen (l.filter fun x => !hid x) al' gc' = .ok gc1' ∧ CRel hid okT gc1 gc1'
  | [], al, al', gc, gc', gc1, h, _, hx => by
    simp only [Coll.updateLoop] at hx
    cases hx
    exact ⟨_, rfl, h⟩
  | nm :: l, al, al', gc, gc', gc1, h, hal, hx => by
    simp only [Coll.updateLoop] at hx
    have hal2 : ∀ x, hid x = false → (al ++ [nm]).contains x = (al' ++ [nm]).contains x := by
      intro x hx
      have := hal x hx
      rw [List.contains_append, List.contains_append, this]
    have hal3 : hid nm = true → ∀ x, hid x = false → (al ++ [nm]).contains x = al'.contains x := by
      intro hn x hxx
      rw [List.contains_append, hal x hxx]
      have : ([nm].contains x) = false := by
        rw [List.contains_eq_mem]
        simp only [List.mem_singleton, decide_eq_false_iff_not]
        rintro rfl
        rw [hn] at hxx; cases hxx
      rw [this, Bool.or_false]
    cases hf : gc.2.find nm with
    | none => rw [hf] at hx; cases hx
    | some a =>
      rw [hf] at hx
      dsimp only at hx
      have hana : a ∈ gc.2.arrays ∧ a.name = nm := by
        unfold Coll.find at hf
        exact ⟨List.mem_of_find?_eq_some hf, by simpa using List.find?_some hf⟩
      cases hk : a.kind with
      | none => rw [hk] at hx; cases hx
      | some k =>
        by_cases hmic : k = .mic
        · subst hmic
          rw [hk] at hx
          dsimp only at hx
          cases hfold : (gc.2.srcs.filter fun s => !al.contains s).foldlM (fun gc s => Coll.updatePath gen gc s nm) gc with
          | error x => rw [hfold] at hx; cases hx
          | ok gc2 =>
            rw [hfold] at hx
            dsimp only at hx
            obtain ⟨hl1, hl2⟩ := foldl_lists (fun gc x gc1 h => updatePath_lists h) _ hfold
            cases hlast : gc2.2.srcs.getLast? with
            | none => rw [hlast] at hx; cases hx
            | some s =>
              rw [hlast] at hx
              dsimp only at hx
              cases hps : gc2.2.paths s nm with
              | none => rw [hps] at hx; cases hx
              | some v =>
                rw [hps] at hx
                dsimp only at hx
                rw [List.filter_cons]
                have hmem : ∀ s ∈ gc.2.srcs.filter (fun s => !al.contains s), hid s = false :=
                  fun s hs => h.src s (List.mem_filter.1 hs).1
                cases hn : hid nm with
                | true =>
                  obtain ⟨gc2', hf2, hr2⟩ := foldlM_hide (f' := fun gc' s => Coll.updatePath gen gc' s nm) (CRel hid okT)
                    (fun _ : String => false) _ h (fun _ _ hk => by cases hk)
                    (fun x hx _ b b' b1 hb hb1 => (updatePath_hide hd hb (hmem x hx) hb1).2 hn) hfold
                  simp only [List.filter_false, List.foldlM_nil] at hf2
                  cases hf2
                  simp only [Bool.not_true, Bool.false_eq_true, if_false]
                  exact updateLoop_hide hd l (al ++ [nm]) al' (hr2.rirs_left _) (hal3 hn) hx
                | false =>
                  obtain ⟨gc2', hf2, hr2⟩ := foldlM_hide (f' := fun gc' s => Coll.updatePath gen gc' s nm) (CRel hid okT)
                    (fun _ : String => true) _ h
                    (fun x hx _ b b' b1 hb hb1 => (updatePath_hide hd hb (hmem x hx) hb1).1 hn)
                    (fun _ _ hk => by cases hk) hfold
                  rw [List.filter_eq_self.2 fun _ _ => rfl] at hf2
                  have hsame : (gc'.2.srcs.filter fun s => !al'.contains s) = gc.2.srcs.filter fun s => !al.contains s := by
                    rw [h.srcs]
                    exact List.filter_congr fun s hs => by rw [hal s (h.src s hs)]
                  have hlast' : gc2'.2.srcs.getLast? = some s := by rw [hr2.srcs]; exact hlast
                  have hps' : gc2'.2.paths s nm = some v := by rw [← hr2.paths _ _ hn]; exact hps
                  obtain ⟨gc1', hg, hrel⟩ := updateLoop_hide hd l (al ++ [nm]) (al' ++ [nm])
                    (hr2.rirs (gc2.2.rirs ++ [v]) (gc2'.2.rirs ++ [v])) hal2 hx
                  refine ⟨gc1', ?_, hrel⟩
                  simp only [Bool.not_false, if_true, Coll.updateLoop]
                  rw [h.find hn, hf]
                  dsimp only
                  rw [hk]
                  dsimp only
                  rw [hsame, hf2]
                  dsimp only
                  rw [hlast']
                  dsimp only
                  rw [hps']
                  exact hg
        · have hn : hid nm = false := by
            cases hn : hid nm with
            | false => rfl
            | true =>
              have := h.mic a hana.1 (by rw [hana.2]; exact hn)
              rw [hk] at this
              exact absurd (Option.some.inj this) hmic
          have hx' : (match (gc.2.mics.filter fun m => !al.contains m).foldlM (fun gc m => Coll.updatePath gen gc nm m) gc with
              | .error x => .error x
              | .ok gc => Coll.updateLoop gen l (al ++ [nm]) gc : Except PyErr (G × Coll Pt H)) = .ok gc1 := by
            rw [hk] at hx
            cases k with
            | mic => exact absurd rfl hmic
            | free => exact hx
            | ctrl => exact hx
          cases hfold : (gc.2.mics.filter fun m => !al.contains m).foldlM (fun gc m => Coll.updatePath gen gc nm m) gc with
          | error x => rw [hfold] at hx'; cases hx'
          | ok gc2 =>
            rw [hfold] at hx'
            dsimp only at hx'
            obtain ⟨gc2', hf2, hr2⟩ := foldlM_hide (f' := fun gc' m => Coll.updatePath gen gc' nm m) (CRel hid okT)
              (fun m : String => !hid m) _ h
              (fun x _ hk b b' b1 hb hb1 => (updatePath_hide hd hb hn hb1).1 (by simpa using hk))
              (fun x _ hk b b' b1 hb hb1 => (updatePath_hide hd hb hn hb1).2 (by simpa using hk)) hfold
            have hsame : (gc'.2.mics.filter fun m => !al'.contains m) =
                (gc.2.mics.filter fun m => !al.contains m).filter fun m => !hid m := by
              rw [h.mics, List.filter_filter, List.filter_filter]
              refine List.filter_congr fun m _ => ?_
              cases hm : hid m with
              | true => simp
              | false => rw [hal m hm, Bool.and_comm]
            obtain ⟨gc1', hg, hrel⟩ := updateLoop_hide hd l (al ++ [nm]) (al' ++ [nm]) hr2 hal2 hx'
            refine ⟨gc1', ?_, hrel⟩
            rw [List.filter_cons, hn]
            simp only [Bool.not_false, if_true, Coll.updateLoop]
            rw [h.find hn, hf]
            dsimp only
            rw [hk]
            cases k with
            | mic => exact absurd rfl hmic
            | free =>
              dsimp only
              rw [hsame, hf2]
              exact hg
            | ctrl =>
              dsimp only
              rw [hsame, hf2]
              exact hg

theorem arrUpdate_name (n : Nat) (a : Arr Pt) : (a.update n).name = a.name := by
  unfold Arr.update
  split <;> rfl

theorem arrUpdate_kind (n : Nat) (a : Arr Pt) : (a.update n).kind = a.kind := by
  unfold Arr.update
  split <;> rfl

theorem update_hide (hd : Steady gen okT) {gc gc' gc1 : G × Coll Pt H} {n : Nat} (h : CRel hid okT gc gc')
    (hx : Coll.update gen gc n = .ok gc1) : ∃ gc1', Coll.update gen gc' n = .ok gc1' ∧ CRel hid okT gc1 gc1' := by
  unfold Coll.update at hx ⊢
  rw [h.freq]
  split at hx
  · cases hx
  · rename_i h1
    rw [if_neg h1]
    split at hx
    · rename_i h2
      rw [if_pos h2]
      cases hx
      exact ⟨_, rfl, h⟩
    · rename_i h2
      rw [if_neg h2]
      have hn : (gc'.2.arrays.filter Arr.dynamic).map Arr.name =
          ((gc.2.arrays.filter Arr.dynamic).map Arr.name).filter fun x => !hid x := by
        rw [h.arrays, List.filter_map, List.filter_filter, List.filter_filter]
        congr 1
        refine List.filter_congr fun a _ => ?_
        simp only [Function.comp]
        rw [Bool.and_comm]
      rw [hn]
      refine updateLoop_hide hd _ [] [] ?_ (fun _ _ => rfl) hx
      refine ⟨?_, h.mics, h.srcs, h.freq, h.paths, h.types, ?_, h.src, h.det⟩
      · dsimp only
        rw [h.arrays, List.filter_map]
        congr 1
        refine List.filter_congr fun a _ => ?_
        simp only [Function.comp]
        rw [arrUpdate_name]
      · intro a ha
        obtain ⟨b, hb, rfl⟩ := List.mem_map.1 ha
        rw [arrUpdate_name, arrUpdate_kind]
        exact h.mic b hb

theorem path_hide {gc gc' : G × Coll Pt H} (h : CRel hid okT gc gc') {s m : String} (hm : hid m = false) :
    Coll.path gc' s m = Coll.path gc s m := by
  unfold Coll.path
  rw [h.paths s m hm]

end

section
variable {R Pt G : Type} [Zero R]

omit [Zero R] in
theorem ismLoop_steady {c : RirCfg R Pt G} (hr : ∀ g g' ss ms, (c.roomRir g ss ms).2 = (c.roomRir g' ss ms).2) (src mic : Geo Pt) :
    ∀ (fuel done : Nat) (g g' g1 : G) (ir ir1 : Nat → Nat → List R), ismLoop c src mic fuel done g ir = .ok (g1, ir1) →
    ∃ g1', ismLoop c src mic fuel done g' ir = .ok (g1', ir1)
  | fuel, done, g, g', g1, ir, ir1, h => by
    unfold ismLoop at h ⊢
    split at h
    · rename_i hd
      rw [if_pos hd]
      cases h
      exact ⟨_, rfl⟩
    · rename_i hd
      rw [if_neg hd]
      cases fuel with
      | zero => cases h
      | succ fuel =>
        dsimp only at h ⊢
        split at h
        · cases h
        · rename_i ho
          rw [if_neg ho, ← hr g g']
          split at h
          · cases h
          · rename_i ir2 hf
            exact ismLoop_steady hr src mic fuel _ _ _ _ _ _ h

theorem createPath_steady [One R] {c : RirCfg R Pt G} (hr : ∀ g g' ss ms, (c.roomRir g ss ms).2 = (c.roomRir g' ss ms).2) :
    Steady (createPath c) fun t => t ≠ "random" := by
  intro g g' a b t g1 h ht hx
  unfold createPath at hx ⊢
  dsimp only at hx ⊢
  have post : ∀ (x x' : G) (v : IrMat R), (if c.highpass = true then
      (x, { v with ir := fun i j => filterRow c.pad c.sos (v.ir i j) }) else (x, v)) = (g1, h) →
      ∃ g1', (if c.highpass = true then
      (x', { v with ir := fun i j => filterRow c.pad c.sos (v.ir i j) }) else (x', v)) = (g1', h) := by
    intro x x' v hv
    split at hv
    · rename_i hc
      rw [if_pos hc]
      cases hv
      exact ⟨_, rfl⟩
    · rename_i hc
      rw [if_neg hc]
      cases hv
      exact ⟨_, rfl⟩
  split at hx
  · rename_i h1
    rw [if_pos h1]
    obtain ⟨g1', hg⟩ := post g g' _ (Except.ok.inj hx)
    exact ⟨g1', by rw [← hg]⟩
  · rename_i h1
    rw [if_neg h1]
    split at hx
    · rename_i h2
      rw [if_pos h2]
      split at hx
      · cases hx
      · rename_i h3
        rw [if_neg h3]
        obtain ⟨g1', hg⟩ := post g g' _ (Except.ok.inj hx)
        exact ⟨g1', by rw [← hg]⟩
    · rename_i h2
      rw [if_neg h2, if_neg ht]
      split at hx
      · rename_i h3
        rw [if_pos h3]
        split at hx
        · rename_i h4
          rw [if_pos h4]
          split at hx
          · cases hx
          · rename_i gh hgh
            obtain ⟨x, v⟩ := gh
            unfold ismPath at hgh
            split at hgh
            · cases hgh
            · rename_i x2 ir hir
              cases hgh
              obtain ⟨x', hir'⟩ := ismLoop_steady hr a b _ _ _ g' _ _ _ hir
              unfold ismPath
              rw [hir']
              obtain ⟨g1', hg⟩ := post x x' _ (Except.ok.inj hx)
              exact ⟨g1', by rw [← hg]⟩
        · cases hx
      · cases hx

end
end Verif

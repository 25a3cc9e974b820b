/-
Taking source arrays away from a collection of arrays.
-/
import Verif.Lemmas.HideColl
namespace Verif

section
variable {Pt H G : Type}

/-- Two collections that differ by the hidden sources. -/
structure SRel (hid : String → Bool) (okT : String → Prop) (gc gc' : G × Coll Pt H) : Prop where
  arrays : gc'.2.arrays = gc.2.arrays.filter fun a => !hid a.name
  mics : gc'.2.mics = gc.2.mics
  srcs : gc'.2.srcs = gc.2.srcs.filter fun s => !hid s
  freq : gc'.2.freq = gc.2.freq
  paths : ∀ s m, hid s = false → gc.2.paths s m = gc'.2.paths s m
  types : ∀ s m, hid s = false → gc.2.types s m = gc'.2.types s m
  src : ∀ a ∈ gc.2.arrays, hid a.name = true → a.kind ≠ some .mic
  mic : ∀ m ∈ gc.2.mics, hid m = false
  micKind : ∀ a ∈ gc.2.arrays, a.kind = some .mic → a.name ∈ gc.2.mics
  other : ∃ s ∈ gc.2.srcs, hid s = false
  det : ∀ s m t, hid s = false → gc.2.types s m = some t → okT t

/-- Every pair has an impulse response. -/
def Coll.Full (c : Coll Pt H) : Prop := ∀ s ∈ c.srcs, ∀ m ∈ c.mics, ∃ h, c.paths s m = some h

variable {hid : String → Bool} {okT : String → Prop} {gen : GenFn Pt H G}

theorem SRel.find {gc gc' : G × Coll Pt H} (h : SRel hid okT gc gc') {nm : String} (hn : hid nm = false) :
    gc'.2.find nm = gc.2.find nm := by
  unfold Coll.find
  rw [h.arrays, List.find?_filter]
  congr 1
  funext a
  cases e : a.name == nm with
  | false => simp
  | true =>
    have : a.name = nm := by simpa using e
    simp [this, hn]

theorem SRel.combos {gc gc' : G × Coll Pt H} (h : SRel hid okT gc gc') :
    gc'.2.combos = gc.2.combos.filter fun p => !hid p.1 := by
  unfold Coll.combos
  rw [h.srcs, h.mics, List.filter_flatMap]
  induction gc.2.srcs with
  | nil => rfl
  | cons s l ih =>
    rw [List.flatMap_cons, List.filter_cons, List.filter_map]
    cases hs : hid s with
    | true => simpa [Function.comp_def, hs] using ih
    | false => simpa [Function.comp_def, hs] using ih

theorem SRel.set {gc gc' : G × Coll Pt H} (h : SRel hid okT gc gc') (g g' : G) (s m : String) (v : H) :
    SRel hid okT (g, { gc.2 with paths := set2 gc.2.paths s m v }) (g', { gc'.2 with paths := set2 gc'.2.paths s m v }) where
  arrays := h.arrays
  mics := h.mics
  srcs := h.srcs
  freq := h.freq
  paths := fun s' m' hm => by simp only [set2]; rw [h.paths s' m' hm]
  types := h.types
  src := h.src
  mic := h.mic
  micKind := h.micKind
  other := h.other
  det := h.det

theorem SRel.set_left {gc gc' : G × Coll Pt H} (h : SRel hid okT gc gc') (g : G) {s m : String} (hm : hid s = true) (v : H) :
    SRel hid okT (g, { gc.2 with paths := set2 gc.2.paths s m v }) gc' where
  arrays := h.arrays
  mics := h.mics
  srcs := h.srcs
  freq := h.freq
  paths := fun s' m' hm' => by
    simp only [set2]
    rw [if_neg]
    · exact h.paths s' m' hm'
    · rintro ⟨rfl, -⟩; rw [hm] at hm'; cases hm'
  types := h.types
  src := h.src
  mic := h.mic
  micKind := h.micKind
  other := h.other
  det := h.det

theorem Coll.Full.set {c : Coll Pt H} (h : c.Full) (s m : String) (v : H) :
    Coll.Full { c with paths := set2 c.paths s m v } := by
  intro s' hs m' hm
  simp only [set2]
  split
  · exact ⟨v, rfl⟩
  · exact h s' hs m' hm

theorem setupOne_mute (hd : Steady gen okT) (h0 : okT "none") {gc gc' gc1 : G × Coll Pt H} (h : SRel hid okT gc gc')
    {p : String × String} (hp : hid p.2 = false) (hx : Coll.setupOne gen gc p = .ok gc1) :
    (hid p.1 = false → ∃ gc1', Coll.setupOne gen gc' p = .ok gc1' ∧ SRel hid okT gc1 gc1') ∧
    (hid p.1 = true → SRel hid okT gc1 gc') := by
  unfold Coll.setupOne at hx
  cases hf1 : gc.2.find p.1 with
  | none => rw [hf1] at hx; cases hx
  | some s =>
    cases hf2 : gc.2.find p.2 with
    | none => rw [hf1, hf2] at hx; cases hx
    | some m =>
      rw [hf1, hf2] at hx
      dsimp only at hx
      cases ht : (if s.num = 0 ∨ m.num = 0 then some "none" else gc.2.types p.1 p.2) with
      | none => rw [ht] at hx; cases hx
      | some t =>
        rw [ht] at hx
        dsimp only at hx
        constructor
        · intro hk
          have ht' : (if s.num = 0 ∨ m.num = 0 then some "none" else gc'.2.types p.1 p.2) = some t := by
            rw [← h.types _ _ hk]; exact ht
          have hok : okT t := by
            split at ht
            · cases ht; exact h0
            · exact h.det _ _ _ hk ht
          unfold Coll.setupOne
          rw [h.find hp, h.find hk, hf1, hf2]
          dsimp only
          rw [ht']
          dsimp only
          split at hx
          · rename_i hne
            rw [if_pos hne]
            split at hx
            · cases hx
            · rename_i g1 v hg
              obtain ⟨g1', hg'⟩ := hd _ gc'.1 _ _ _ _ _ hok hg
              rw [hg']
              cases hx
              exact ⟨_, rfl, h.set _ _ _ _ _⟩
          · rename_i hne
            rw [if_neg hne]
            cases hx
            exact ⟨_, rfl, h⟩
        · intro hk
          split at hx
          · split at hx
            · cases hx
            · cases hx
              exact h.set_left _ hk _
          · cases hx
            exact h

theorem setupIr_mute (hd : Steady gen okT) (h0 : okT "none") {gc gc' gc1 : G × Coll Pt H} (h : SRel hid okT gc gc')
    (hx : gc.2.setupIr gen gc.1 = .ok gc1) : ∃ gc1', gc'.2.setupIr gen gc'.1 = .ok gc1' ∧ SRel hid okT gc1 gc1' := by
  unfold Coll.setupIr at hx ⊢
  have hmem : ∀ p ∈ gc.2.combos, hid p.2 = false := by
    intro p hp
    unfold Coll.combos at hp
    simp only [List.mem_flatMap, List.mem_map] at hp
    obtain ⟨s, -, m, hm, rfl⟩ := hp
    exact h.mic m hm
  cases hc : gc.2.calcRirParameters with
  | error x => rw [hc] at hx; cases hx
  | ok u =>
    rw [hc] at hx
    have hc' : gc'.2.calcRirParameters = .ok () := by
      unfold Coll.calcRirParameters at hc ⊢
      rw [if_neg]
      intro hany
      split at hc
      · cases hc
      · rename_i hno
        apply hno
        rw [List.any_eq_true] at hany ⊢
        obtain ⟨p, hp, hq⟩ := hany
        rw [h.combos] at hp
        obtain ⟨hp1, hp2⟩ := List.mem_filter.1 hp
        refine ⟨p, hp1, ?_⟩
        rw [h.find (hmem p hp1), h.find (by simpa using hp2)] at hq
        exact hq
    rw [hc', h.combos]
    dsimp only at hx ⊢
    refine foldlM_hide (SRel hid okT) (fun p : String × String => !hid p.1) gc.2.combos h ?_ ?_ hx
    · intro p hp hk a b a1 hab ha
      exact (setupOne_mute hd h0 hab (hmem p hp) ha).1 (by simpa using hk)
    · intro p hp hk a b a1 hab ha
      exact (setupOne_mute hd h0 hab (hmem p hp) ha).2 (by simpa using hk)

theorem updatePath_full {gc gc1 : G × Coll Pt H} {s m : String} (h : gc.2.Full)
    (hx : Coll.updatePath gen gc s m = .ok gc1) : gc1.2.Full := by
  unfold Coll.updatePath at hx
  split at hx
  · split at hx
    · cases hx
    · split at hx
      · cases hx
      · cases hx; exact h.set _ _ _
  · cases hx

theorem updatePath_mute (hd : Steady gen okT) {gc gc' gc1 : G × Coll Pt H} (h : SRel hid okT gc gc')
    {s m : String} (hs : hid m = false) (hx : Coll.updatePath gen gc s m = .ok gc1) :
    (hid s = false → ∃ gc1', Coll.updatePath gen gc' s m = .ok gc1' ∧ SRel hid okT gc1 gc1') ∧
    (hid s = true → SRel hid okT gc1 gc') := by
  unfold Coll.updatePath at hx
  cases hf1 : gc.2.find s with
  | none => rw [hf1] at hx; cases hx
  | some a =>
    cases hf2 : gc.2.find m with
    | none => rw [hf1, hf2] at hx; cases hx
    | some b =>
      cases ht : gc.2.types s m with
      | none => rw [hf1, hf2, ht] at hx; cases hx
      | some t =>
        rw [hf1, hf2, ht] at hx
        dsimp only at hx
        split at hx
        · cases hx
        · rename_i hne
          split at hx
          · cases hx
          · rename_i g1 v hg
            cases hx
            constructor
            · intro hk
              unfold Coll.updatePath
              rw [h.find hs, h.find hk, hf1, hf2, ← h.types _ _ hk, ht]
              dsimp only
              rw [if_neg hne]
              obtain ⟨g1', hg'⟩ := hd _ gc'.1 _ _ _ _ _ (h.det _ _ _ hk ht) hg
              rw [hg']
              exact ⟨_, rfl, h.set _ _ _ _ _⟩
            · intro hk
              exact h.set_left _ hk _

theorem SRel.rirs {gc gc' : G × Coll Pt H} (h : SRel hid okT gc gc') (l l' : List H) :
    SRel hid okT (gc.1, { gc.2 with rirs := l }) (gc'.1, { gc'.2 with rirs := l' }) :=
  ⟨h.arrays, h.mics, h.srcs, h.freq, h.paths, h.types, h.src, h.mic, h.micKind, h.other, h.det⟩

/-- Related and complete. -/
def SFull (hid : String → Bool) (okT : String → Prop) (gc gc' : G × Coll Pt H) : Prop := SRel hid okT gc gc' ∧ gc.2.Full

theorem updateLoop_mute (hd : Steady gen okT) : ∀ (l al al' : List String) {gc gc' gc1 : G × Coll Pt H}, SFull hid okT gc gc' →
    (∀ x, hid x = false → al.contains x = al'.contains x) → Coll.updateLoop gen l al gc = .ok gc1 →
    ∃ gc1', Coll.updateLoop gen (l.filter fun x => !hid x) al' gc' = .ok gc1' ∧ SFull hid okT gc1 gc1'
  | [], al, al', gc, gc', gc1, h, _, hx => by
    simp only [Coll.updateLoop] at hx
    cases hx
    exact ⟨_, rfl, h⟩
  | nm :: l, al, al', gc, gc', gc1, hF, hal, hx => by
    have h := hF.1
    simp only [Coll.updateLoop] at hx
    have hal2 : ∀ x, hid x = false → (al ++ [nm]).contains x = (al' ++ [nm]).contains x := by
      intro x hx
      have := hal x hx
      rw [List.contains_append, List.contains_append, this]
    have hal3 : hid nm = true → ∀ x, hid x = false → (al ++ [nm]).contains x = al'.contains x := by
      intro hn x hxx
      rw [List.contains_append, hal x hxx]
      have : ([nm].contains x) = false := by
        rw [List.contains_eq_mem]
        simp only [List.mem_singleton, decide_eq_false_iff_not]
        rintro rfl
        rw [hn] at hxx; cases hxx
      rw [this, Bool.or_false]
    cases hf : gc.2.find nm with
    | none => rw [hf] at hx; cases hx
    | some a =>
      rw [hf] at hx
      dsimp only at hx
      have hana : a ∈ gc.2.arrays ∧ a.name = nm := by
        unfold Coll.find at hf
        exact ⟨List.mem_of_find?_eq_some hf, by simpa using List.find?_some hf⟩
      cases hk : a.kind with
      | none => rw [hk] at hx; cases hx
      | some k =>
        by_cases hmic : k = .mic
        · subst hmic
          rw [hk] at hx
          dsimp only at hx
          have hnm : nm ∈ gc.2.mics := by rw [← hana.2]; exact h.micKind a hana.1 hk
          have hn : hid nm = false := h.mic _ hnm
          cases hfold : (gc.2.srcs.filter fun s => !al.contains s).foldlM (fun gc s => Coll.updatePath gen gc s nm) gc with
          | error x => rw [hfold] at hx; cases hx
          | ok gc2 =>
            rw [hfold] at hx
            dsimp only at hx
            obtain ⟨hl1, hl2⟩ := foldl_lists (fun gc x gc1 h => updatePath_lists h) _ hfold
            cases hlast : gc2.2.srcs.getLast? with
            | none => rw [hlast] at hx; cases hx
            | some s =>
              rw [hlast] at hx
              dsimp only at hx
              cases hps : gc2.2.paths s nm with
              | none => rw [hps] at hx; cases hx
              | some v =>
                rw [hps] at hx
                dsimp only at hx
                rw [List.filter_cons, hn]
                obtain ⟨gc2', hf2, hr2⟩ := foldlM_hide (f' := fun gc' s => Coll.updatePath gen gc' s nm) (SFull hid okT)
                  (fun s : String => !hid s) _ hF
                  (fun x hx hk b b' b1 hb hb1 => by
                    obtain ⟨q, q1, q2⟩ := (updatePath_mute hd hb.1 hn hb1).1 (by simpa using hk)
                    exact ⟨q, q1, q2, updatePath_full hb.2 hb1⟩)
                  (fun x hx hk b b' b1 hb hb1 => ⟨(updatePath_mute hd hb.1 hn hb1).2 (by simpa using hk), updatePath_full hb.2 hb1⟩)
                  hfold
                have hsame : (gc'.2.srcs.filter fun s => !al'.contains s) =
                    (gc.2.srcs.filter fun s => !al.contains s).filter fun s => !hid s := by
                  rw [h.srcs, List.filter_filter, List.filter_filter]
                  refine List.filter_congr fun m _ => ?_
                  cases hm : hid m with
                  | true => simp
                  | false => rw [hal m hm, Bool.and_comm]
                obtain ⟨s', hs'⟩ : ∃ s', gc2'.2.srcs.getLast? = some s' := by
                  obtain ⟨o, ho, ho2⟩ := hr2.1.other
                  have hmem : o ∈ gc2'.2.srcs := by
                    rw [hr2.1.srcs]
                    exact List.mem_filter.2 ⟨ho, by rw [ho2]; rfl⟩
                  cases hg : gc2'.2.srcs.getLast? with
                  | some x => exact ⟨x, rfl⟩
                  | none =>
                    rw [List.getLast?_eq_none_iff] at hg
                    rw [hg] at hmem
                    cases hmem
                obtain ⟨v', hv'⟩ : ∃ v', gc2'.2.paths s' nm = some v' := by
                  have hm := List.mem_of_getLast? hs'
                  rw [hr2.1.srcs] at hm
                  obtain ⟨m1, m2⟩ := List.mem_filter.1 hm
                  rw [← hr2.1.paths _ _ (by simpa using m2)]
                  exact hr2.2 s' m1 nm (by rw [hl2]; exact hnm)
                obtain ⟨gc1', hg, hrel⟩ := updateLoop_mute hd l (al ++ [nm]) (al' ++ [nm])
                  (gc := (gc2.1, { gc2.2 with rirs := gc2.2.rirs ++ [v] }))
                  (gc' := (gc2'.1, { gc2'.2 with rirs := gc2'.2.rirs ++ [v'] }))
                  ⟨hr2.1.rirs _ _, hr2.2⟩ hal2 hx
                refine ⟨gc1', ?_, hrel⟩
                simp only [Bool.not_false, if_true, Coll.updateLoop]
                rw [h.find hn, hf]
                dsimp only
                rw [hk]
                dsimp only
                rw [hsame, hf2]
                dsimp only
                rw [hs']
                dsimp only
                rw [hv']
                exact hg
        · have hx' : (match (gc.2.mics.filter fun m => !al.contains m).foldlM (fun gc m => Coll.updatePath gen gc nm m) gc with
              | .error x => .error x
              | .ok gc => Coll.updateLoop gen l (al ++ [nm]) gc : Except PyErr (G × Coll Pt H)) = .ok gc1 := by
            rw [hk] at hx
            cases k with
            | mic => exact absurd rfl hmic
            | free => exact hx
            | ctrl => exact hx
          cases hfold : (gc.2.mics.filter fun m => !al.contains m).foldlM (fun gc m => Coll.updatePath gen gc nm m) gc with
          | error x => rw [hfold] at hx'; cases hx'
          | ok gc2 =>
            rw [hfold] at hx'
            dsimp only at hx'
            have hmem : ∀ m ∈ gc.2.mics.filter (fun m => !al.contains m), hid m = false :=
              fun m hm => h.mic m (List.mem_filter.1 hm).1
            rw [List.filter_cons]
            cases hn : hid nm with
            | true =>
              obtain ⟨gc2', hf2, hr2⟩ := foldlM_hide (f' := fun gc' m => Coll.updatePath gen gc' nm m) (SFull hid okT)
                (fun _ : String => false) _ hF (fun _ _ hk => by cases hk)
                (fun x hx _ b b' b1 hb hb1 => ⟨(updatePath_mute hd hb.1 (hmem x hx) hb1).2 hn, updatePath_full hb.2 hb1⟩) hfold
              simp only [List.filter_false, List.foldlM_nil] at hf2
              cases hf2
              simp only [Bool.not_true, Bool.false_eq_true, if_false]
              exact updateLoop_mute hd l (al ++ [nm]) al' hr2 (hal3 hn) hx'
            | false =>
              obtain ⟨gc2', hf2, hr2⟩ := foldlM_hide (f' := fun gc' m => Coll.updatePath gen gc' nm m) (SFull hid okT)
                (fun _ : String => true) _ hF
                (fun x hx _ b b' b1 hb hb1 => by
                  obtain ⟨q, q1, q2⟩ := (updatePath_mute hd hb.1 (hmem x hx) hb1).1 hn
                  exact ⟨q, q1, q2, updatePath_full hb.2 hb1⟩)
                (fun _ _ hk => by cases hk) hfold
              rw [List.filter_eq_self.2 fun _ _ => rfl] at hf2
              have hsame : (gc'.2.mics.filter fun m => !al'.contains m) = gc.2.mics.filter fun m => !al.contains m := by
                rw [h.mics]
                exact List.filter_congr fun m hm => by rw [hal m (h.mic m hm)]
              obtain ⟨gc1', hg, hrel⟩ := updateLoop_mute hd l (al ++ [nm]) (al' ++ [nm]) hr2 hal2 hx'
              refine ⟨gc1', ?_, hrel⟩
              simp only [Bool.not_false, if_true, Coll.updateLoop]
              rw [h.find hn, hf]
              dsimp only
              rw [hk]
              cases k with
              | mic => exact absurd rfl hmic
              | free =>
                dsimp only
                rw [hsame, hf2]
                exact hg
              | ctrl =>
                dsimp only
                rw [hsame, hf2]
                exact hg

theorem update_mute (hd : Steady gen okT) {gc gc' gc1 : G × Coll Pt H} {n : Nat} (hF : SFull hid okT gc gc')
    (hx : Coll.update gen gc n = .ok gc1) : ∃ gc1', Coll.update gen gc' n = .ok gc1' ∧ SFull hid okT gc1 gc1' := by
  have h := hF.1
  unfold Coll.update at hx ⊢
  rw [h.freq]
  split at hx
  · cases hx
  · rename_i h1
    rw [if_neg h1]
    split at hx
    · rename_i h2
      rw [if_pos h2]
      cases hx
      exact ⟨_, rfl, hF⟩
    · rename_i h2
      rw [if_neg h2]
      have hn : (gc'.2.arrays.filter Arr.dynamic).map Arr.name =
          ((gc.2.arrays.filter Arr.dynamic).map Arr.name).filter fun x => !hid x := by
        rw [h.arrays, List.filter_map, List.filter_filter, List.filter_filter]
        congr 1
        refine List.filter_congr fun a _ => ?_
        simp only [Function.comp]
        rw [Bool.and_comm]
      rw [hn]
      have hS : SFull hid okT (gc.1, { gc.2 with arrays := gc.2.arrays.map (Arr.update n) })
          (gc'.1, { gc'.2 with arrays := gc'.2.arrays.map (Arr.update n) }) := by
        refine ⟨⟨?_, h.mics, h.srcs, h.freq, h.paths, h.types, ?_, h.mic, ?_, h.other, h.det⟩, hF.2⟩
        · dsimp only
          rw [h.arrays, List.filter_map]
          congr 1
          refine List.filter_congr fun a _ => ?_
          simp only [Function.comp]
          rw [arrUpdate_name]
        · intro a ha
          obtain ⟨b, hb, rfl⟩ := List.mem_map.1 ha
          rw [arrUpdate_name, arrUpdate_kind]
          exact h.src b hb
        · intro a ha
          obtain ⟨b, hb, rfl⟩ := List.mem_map.1 ha
          rw [arrUpdate_name, arrUpdate_kind]
          exact h.micKind b hb
      exact updateLoop_mute hd _ [] [] hS (fun _ _ => rfl) hx

end
end Verif

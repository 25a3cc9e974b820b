/-
C97: adding the arrays of another collection to a setup.
-/
import Verif.Model.AddArrays
import Verif.Lemmas.Setup
import Verif.Props.Array
namespace Verif

section
variable {Pt H G : Type}

theorem Coll.addArray_frame (c : Coll Pt H) (a : Arr Pt) :
    (c.addArray a).1.paths = c.paths ∧ (c.addArray a).1.types = c.types ∧ (c.addArray a).1.freq = c.freq := by
  unfold Coll.addArray
  split
  · exact ⟨rfl, rfl, rfl⟩
  · split <;> exact ⟨rfl, rfl, rfl⟩

theorem addLoop_ok : ∀ (as : List (Arr Pt)) {c : Coll Pt H}, c.Consistent → (∀ a ∈ as, a.kind ≠ none) →
    (as.map Arr.name).Nodup → (∀ a ∈ as, ∀ b ∈ c.arrays, b.name ≠ a.name) →
    ∃ c', Coll.addLoop as c = (c', none) ∧ c'.Consistent ∧ c'.arrays = c.arrays ++ as ∧ c'.paths = c.paths ∧
      c'.types = c.types ∧ c'.freq = c.freq
  | [], c, hc, _, _, _ => ⟨c, rfl, hc, by simp, rfl, rfl, rfl⟩
  | a :: as, c, hc, hk, hn, hd => by
    rw [List.map_cons, List.nodup_cons] at hn
    obtain ⟨g1, g2, g3⟩ := Coll.addArray_new (c := c) (a := a) (fun ⟨b, hb, he⟩ => hd a (by simp) b hb he)
      (hk a (by simp)) hc
    obtain ⟨f1, f2, f3⟩ := c.addArray_frame a
    obtain ⟨c', e1, e2, e3, e4, e5, e6⟩ := addLoop_ok as g2 (fun x hx => hk x (by simp [hx])) hn.2 (by
      intro x hx b hb
      rw [g3, List.mem_append, List.mem_singleton] at hb
      rcases hb with hb | rfl
      · exact hd x (by simp [hx]) b hb
      · exact fun he => hn.1 (List.mem_map.2 ⟨x, hx, he.symm⟩))
    refine ⟨c', ?_, e2, by rw [e3, g3]; simp, e4.trans f1, e5.trans f2, e6.trans f3⟩
    unfold Coll.addLoop
    rcases hres : c.addArray a with ⟨c1, x⟩
    rw [hres] at g1 e1
    simp only at g1
    subst g1
    exact e1

theorem addLoop_fail : ∀ (as : List (Arr Pt)) {c : Coll Pt H}, c.Consistent → (∀ a ∈ as, a.kind ≠ none) →
    (∃ a ∈ as, ∃ b ∈ c.arrays, b.name = a.name) → ∃ c', Coll.addLoop as c = (c', some .assertion)
  | [], c, _, _, h => by
    obtain ⟨a, ha, _⟩ := h
    simp at ha
  | a :: as, c, hc, hk, h => by
    unfold Coll.addLoop
    by_cases hd : ∃ b ∈ c.arrays, b.name = a.name
    · rw [Coll.addArray_dup hd]
      exact ⟨c, rfl⟩
    · obtain ⟨g1, g2, g3⟩ := Coll.addArray_new hd (hk a (by simp)) hc
      rcases hres : c.addArray a with ⟨c1, x⟩
      rw [hres] at g1 g2 g3
      simp only at g1
      subst g1
      refine addLoop_fail as g2 (fun x hx => hk x (by simp [hx])) ?_
      obtain ⟨x, hx, b, hb, he⟩ := h
      rcases List.mem_cons.1 hx with rfl | hx
      · exact absurd ⟨b, hb, he⟩ hd
      · exact ⟨x, hx, b, by rw [g3]; simp [hb], he⟩

theorem typeLoop_ok {types : String → String → Option String} : ∀ (ps : List (String × String)) {c : Coll Pt H},
    (∀ p ∈ ps, p.1 ∈ c.srcs ∧ p.2 ∈ c.mics) →
    ∃ ty, Coll.typeLoop types ps c = ({ c with types := ty }, none) ∧
      ∀ s m, ty s m = if (s, m) ∈ ps then (types s m).or (c.types s m) else c.types s m
  | [], c, _ => ⟨c.types, rfl, by simp⟩
  | p :: ps, c, h => by
    unfold Coll.typeLoop
    cases ht : types p.1 p.2 with
    | none =>
      obtain ⟨ty, e1, e2⟩ := typeLoop_ok (types := types) ps (c := c) fun q hq => h q (by simp [hq])
      refine ⟨ty, e1, ?_⟩
      intro s m
      rw [e2]
      by_cases h1 : (s, m) ∈ ps
      · simp [h1]
      · rw [if_neg h1]
        by_cases h2 : (s, m) = p
        · subst h2
          simp [ht]
        · rw [if_neg (by simp [h1, h2])]
    | some t =>
      have hset : c.setPathType p.1 p.2 t = .ok { c with types := set2 c.types p.1 p.2 t } := by
        unfold Coll.setPathType
        rw [if_neg (by simpa using (h p (by simp)).1), if_neg (by simpa using (h p (by simp)).2)]
      simp only [hset]
      obtain ⟨ty, e1, e2⟩ := typeLoop_ok (types := types) ps
        (c := { c with types := set2 c.types p.1 p.2 t }) fun q hq => h q (by simp [hq])
      refine ⟨ty, e1, ?_⟩
      intro s m
      rw [e2]
      simp only [set2]
      by_cases h2 : s = p.1 ∧ m = p.2
      · obtain ⟨rfl, rfl⟩ := h2
        rw [if_pos (by simp : (p.1, p.2) ∈ p :: ps)]
        simp [ht]
      · rw [if_neg h2]
        have h3 : (s, m) ≠ p := fun he => h2 ⟨by rw [← he], by rw [← he]⟩
        by_cases h1 : (s, m) ∈ ps
        · simp [h1]
        · rw [if_neg h1, if_neg (by simp [h1, h3])]

/-- C97, the arrays and the types of propagation: if no name is used twice, the setup has
afterwards its own arrays followed by the added ones, is consistent, uses for pairs of
added arrays the types set there, and everything it had set before for all other pairs. -/
theorem C97_arrays_partial {c o : Coll Pt H} (hc : c.Consistent) (ho : o.Consistent)
    (hd : ∀ a ∈ o.arrays, ∀ b ∈ c.arrays, b.name ≠ a.name) :
    ∃ c', c.addArrays o = (c', none) ∧ c'.Consistent ∧ c'.arrays = c.arrays ++ o.arrays ∧ c'.paths = c.paths ∧
      ∀ s m, c'.types s m = if s ∈ o.srcs ∧ m ∈ o.mics then (o.types s m).or (c.types s m) else c.types s m := by
  obtain ⟨c1, e1, e2, e3, e4, e5, e6⟩ := addLoop_ok o.arrays hc ho.kinds ho.names hd
  obtain ⟨ty, t1, t2⟩ := typeLoop_ok (types := o.types) o.combos (c := c1) (by
    intro p hp
    rw [Coll.mem_combos (s := p.1) (m := p.2)] at hp
    constructor
    · obtain ⟨a, ha, hk, hn⟩ := ho.mem_srcs.1 hp.1
      exact e2.mem_srcs.2 ⟨a, by rw [e3]; simp [ha], hk, hn⟩
    · obtain ⟨a, ha, hk, hn⟩ := ho.mem_mics.1 hp.2
      exact e2.mem_mics.2 ⟨a, by rw [e3]; simp [ha], hk, hn⟩)
  refine ⟨{ c1 with types := ty }, by unfold Coll.addArrays; rw [e1]; exact t1, ?_, e3, e4, ?_⟩
  · exact ⟨e2.names, e2.kinds, e2.mics, e2.srcs, e2.frees⟩
  · intro s m
    simp only [t2, Coll.mem_combos, e5]

/-- C97: a name that the setup already has is rejected. -/
theorem C97_duplicate {c o : Coll Pt H} (hc : c.Consistent) (ho : o.Consistent)
    (hd : ∃ a ∈ o.arrays, ∃ b ∈ c.arrays, b.name = a.name) : (c.addArrays o).2 = some .assertion := by
  obtain ⟨c', h⟩ := addLoop_fail o.arrays hc ho.kinds hd
  unfold Coll.addArrays
  rw [h]

/-- C97 is violated by the paths: whatever paths the added collection has, a simulator
created afterwards does not use them but generates the responses of those pairs with the
default type. -/
theorem C97_violated_paths {gen : GenFn Pt H G} {c o c' c2 : Coll Pt H} (hc : c.Consistent) (ho : o.Consistent)
    (hd : ∀ a ∈ o.arrays, ∀ b ∈ c.arrays, b.name ≠ a.name) (hadd : c.addArrays o = (c', none))
    (hi : ∀ a ∈ c'.arrays, a.Initial) {t : String} (htm : t ≠ "modified") {g g' : G}
    (hcreate : (c'.setDefault t).setupIr gen g = .ok (g', c2))
    {a b : Arr Pt} (ha : a ∈ o.arrays) (hb : b ∈ o.arrays) (hak : a.kind = some .free ∨ a.kind = some .ctrl)
    (hbk : b.kind = some .mic) (han : 1 ≤ a.num) (hbn : 1 ≤ b.num)
    (hp0 : c.paths a.name b.name = none) (ht0 : c.types a.name b.name = none) (ht1 : o.types a.name b.name = none) :
    ∃ g1 g2 x, gen g1 (a.geoAt 0) (b.geoAt 0) t = .ok (g2, x) ∧ c2.paths a.name b.name = some x := by
  obtain ⟨c1, e1, e2, e3, e4, e5⟩ := C97_arrays_partial hc ho hd
  rw [hadd] at e1
  cases e1
  have ha' : a ∈ c'.arrays := by rw [e3]; simp [ha]
  have hb' : b ∈ c'.arrays := by rw [e3]; simp [hb]
  have has : a.name ∈ c'.srcs := e2.mem_srcs.2 ⟨a, ha', hak, rfl⟩
  have hbm : b.name ∈ c'.mics := e2.mem_mics.2 ⟨b, hb', hbk, rfl⟩
  have hty : c'.types a.name b.name = none := by rw [e5]; simp [ht0, ht1]
  obtain ⟨⟨ty2, d0⟩, d1⟩ := setDefault_spec t c'
  have d2 := d1 a.name has b.name hbm
  rw [e4, hp0, hty] at d2
  simp only [Option.isSome_none, Bool.false_eq_true, ↓reduceIte] at d2
  obtain ⟨e0, f1, f2⟩ := setupIr_spec (c := c'.setDefault t) (by rw [d0]; exact e2.names)
    (by rw [d0]; exact hi) hcreate
  have hut := useType_eq (c := c'.setDefault t) (by rw [d0]; exact e2.names)
    (a := a) (b := b) (by rw [d0]; exact ha') (by rw [d0]; exact hb')
  rw [if_neg (by omega)] at hut
  have hin : (a.name, b.name) ∈ (c'.setDefault t).combos.filter fun q =>
      decide ((c'.setDefault t).useType q.1 q.2 ≠ some "modified") := by
    rw [List.mem_filter]
    refine ⟨by rw [Coll.mem_combos, d0]; exact ⟨has, hbm⟩, ?_⟩
    rw [decide_eq_true_eq, hut, d2]
    exact fun he => htm (Option.some.inj he)
  obtain ⟨a', hA, b', hB, n1, n2, ty, g1, g2, x, q1, q2, q3⟩ := f2.new hin
  have hmem : (c'.setDefault t).arrays = c'.arrays := by rw [d0]
  rw [hmem] at hA hB
  obtain rfl := e2.inj hA ha' n1
  obtain rfl := e2.inj hB hb' n2
  rw [hut, d2] at q1
  rw [show t = ty from Option.some.inj q1]
  exact ⟨g1, g2, x, q2, q3⟩

/-- C97 is violated also for the arrays of an existing simulator, whose types for paths
given by the user are "modified": the path is neither copied nor generated, and the
simulator that is created has none. -/
theorem C97_violated_simulator {gen : GenFn Pt H G} {c o c' c2 : Coll Pt H} (hc : c.Consistent) (ho : o.Consistent)
    (hd : ∀ a ∈ o.arrays, ∀ b ∈ c.arrays, b.name ≠ a.name) (hadd : c.addArrays o = (c', none))
    (hi : ∀ a ∈ c'.arrays, a.Initial) {t : String} {g g' : G}
    (hcreate : (c'.setDefault t).setupIr gen g = .ok (g', c2))
    {a b : Arr Pt} (ha : a ∈ o.arrays) (hb : b ∈ o.arrays) (hak : a.kind = some .free ∨ a.kind = some .ctrl)
    (hbk : b.kind = some .mic) (han : 1 ≤ a.num) (hbn : 1 ≤ b.num)
    (hp0 : c.paths a.name b.name = none) (ht1 : o.types a.name b.name = some "modified") :
    Coll.path (g', c2) a.name b.name = .error .key := by
  obtain ⟨c1, e1, e2, e3, e4, e5⟩ := C97_arrays_partial hc ho hd
  rw [hadd] at e1
  cases e1
  have ha' : a ∈ c'.arrays := by rw [e3]; simp [ha]
  have hb' : b ∈ c'.arrays := by rw [e3]; simp [hb]
  have has : a.name ∈ c'.srcs := e2.mem_srcs.2 ⟨a, ha', hak, rfl⟩
  have hbm : b.name ∈ c'.mics := e2.mem_mics.2 ⟨b, hb', hbk, rfl⟩
  have hty : c'.types a.name b.name = some "modified" := by
    rw [e5, if_pos ⟨ho.mem_srcs.2 ⟨a, ha, hak, rfl⟩, ho.mem_mics.2 ⟨b, hb, hbk, rfl⟩⟩, ht1]
    rfl
  obtain ⟨⟨ty2, d0⟩, d1⟩ := setDefault_spec t c'
  have d2 := d1 a.name has b.name hbm
  rw [e4, hp0, hty] at d2
  simp only [Option.isSome_none, Bool.false_eq_true, ↓reduceIte] at d2
  obtain ⟨e0, f1, f2⟩ := setupIr_spec (c := c'.setDefault t) (by rw [d0]; exact e2.names)
    (by rw [d0]; exact hi) hcreate
  have hut := useType_eq (c := c'.setDefault t) (by rw [d0]; exact e2.names)
    (a := a) (b := b) (by rw [d0]; exact ha') (by rw [d0]; exact hb')
  rw [if_neg (by omega)] at hut
  unfold Coll.path
  have : c2.paths a.name b.name = none := by
    rw [f2.old, d0]
    · simp only
      rw [e4, hp0]
    · rw [List.mem_filter]
      rintro ⟨_, hne⟩
      simp only [decide_eq_true_eq] at hne
      exact hne (hut.trans d2)
  simp only [this]

end

/-! ### Examples -/

/-- A setup with one microphone array, to which a loudspeaker and a microphone with a path
given by the user and a type for a further pair are added. -/
def addedColl : Coll ℚ (IrMat ℚ) :=
  { (Coll.empty 1).addAll [⟨"spk", some .ctrl, 1, [0], none, 1, none, true, []⟩,
      ⟨"err", some .mic, 1, [4], none, 1, none, true, []⟩, ⟨"ref", some .mic, 1, [9], none, 1, none, true, []⟩] with
    paths := set2 (fun _ _ => none) "spk" "err" ⟨1, 1, fun _ _ => [1, 2, 3]⟩
    types := set2 (fun _ _ => none) "spk" "ref" "none" }

def oldColl : Coll ℚ (IrMat ℚ) := (Coll.empty 1).addAll [⟨"mic", some .mic, 1, [3], none, 1, none, true, []⟩]

theorem addedColl_consistent : addedColl.Consistent := by
  have h := (Coll.addAll_spec [⟨"spk", some .ctrl, 1, [0], none, 1, none, true, []⟩,
      ⟨"err", some .mic, 1, [4], none, 1, none, true, []⟩, ⟨"ref", some .mic, 1, [9], none, 1, none, true, []⟩]
    (Coll.empty_consistent (Pt := ℚ) (H := IrMat ℚ) 1) (by simp)).1
  exact ⟨h.names, h.kinds, h.mics, h.srcs, h.frees⟩

theorem oldColl_consistent : oldColl.Consistent :=
  (Coll.addAll_spec _ (Coll.empty_consistent 1) (by simp)).1

/-- The response from `spk` to `err` was given as `[1, 2, 3]`; the simulator uses the
generated one. -/
example : (((oldColl.addArrays addedColl).1.setDefault "ism").setupIr (createPath lineRoom) 0).toOption.map
      (fun r => [("spk", "err"), ("spk", "ref"), ("spk", "mic")].map fun p =>
        ((r.2.paths p.1 p.2).map fun h => h.ir 0 0)) =
    (some [some [4, 1], some [0], some [3, 1]] : Option (List (Option (List ℚ)))) := by
  decide +kernel

example : ∀ a ∈ addedColl.arrays, ∀ b ∈ oldColl.arrays, b.name ≠ a.name := by
  intro a ha b hb
  simp [addedColl, oldColl, Coll.addAll, Coll.addArray, Coll.empty, Coll.find] at ha hb
  subst hb
  rcases ha with rfl | rfl | rfl <;> decide

end Verif

import Verif.Spec.Session
import Verif.Lemmas.Setup
import Verif.Lemmas.Files
import Mathlib.Algebra.Order.Field.Rat
import Mathlib.Tactic.Positivity
namespace Verif

section
variable {F S G : Type} [Field F] [LinearOrder F]

/-! ### closeness -/

theorem isClose_refl [IsStrictOrderedRing F] (a : F) : isClose a a = true := by
  unfold isClose
  rw [decide_eq_true_eq, sub_self, abs_zero]
  positivity

theorem allCloseRow_refl [IsStrictOrderedRing F] (x : List F) : allCloseRow x x = .ok true := by
  unfold allCloseRow
  rw [if_pos rfl]
  congr 1
  rw [List.all_eq_true]
  intro p hp
  have : p.1 = p.2 := by
    induction x with
    | nil => simp at hp
    | cons a l ih =>
      rw [List.zip_cons_cons, List.mem_cons] at hp
      rcases hp with rfl | hp
      · rfl
      · exact ih hp
  rw [this]
  exact isClose_refl _

theorem allCloseRows_refl [IsStrictOrderedRing F] : ∀ (l : List (List F × List F)),
    (∀ p ∈ l, p.1 = p.2) → allCloseRows l = .ok true
  | [], _ => rfl
  | p :: l, h => by
    rw [allCloseRows, ← h p (by simp), allCloseRow_refl,
      allCloseRows_refl l fun q hq => h q (by simp [hq])]
    rfl

theorem allCloseRow_ok {x y : List F} (h : x.length = y.length) : ∃ r, allCloseRow x y = .ok r := by
  unfold allCloseRow
  rw [if_pos h]
  exact ⟨_, rfl⟩

theorem allCloseRows_ok : ∀ (l : List (List F × List F)),
    (∀ p ∈ l, p.1.length = p.2.length) → ∃ r, allCloseRows l = .ok r
  | [], _ => ⟨_, rfl⟩
  | p :: l, h => by
    obtain ⟨r, hr⟩ := allCloseRow_ok (h p (by simp))
    obtain ⟨r', hr'⟩ := allCloseRows_ok l fun q hq => h q (by simp [hq])
    rw [allCloseRows, hr, hr']
    exact ⟨_, rfl⟩

/-! ### `prototype_equals` -/

theorem sameArrays_true {H : Type} {init : Coll (List F) H} : ∀ {l : List (Arr (List F))},
    sameArrays init l = .ok true ↔ ∀ a ∈ l, ∃ b, init.find a.name = some b ∧ a.kind = b.kind ∧
      a.num = b.num ∧ allCloseRows (a.pos.zip b.pos) = .ok true
  | [] => by simp [sameArrays]
  | a :: l => by
    have ih := sameArrays_true (init := init) (l := l)
    rw [sameArrays, List.forall_mem_cons, ← ih]
    cases hf : init.find a.name with
    | none => simp
    | some b =>
      simp only [Option.some.injEq, exists_eq_left']
      by_cases h1 : a.kind = b.kind
      · rw [if_neg (not_not.2 h1)]
        by_cases h2 : a.num = b.num
        · rw [if_neg (not_not.2 h2)]
          cases allCloseRows (a.pos.zip b.pos) with
          | error x => simp
          | ok r => cases r <;> simp [h1, h2]
        · rw [if_pos h2]; simp [h2]
      · rw [if_pos h1]; simp [h1]

theorem sameArrays_ok {H : Type} {init : Coll (List F) H} : ∀ {l : List (Arr (List F))},
    (∀ a ∈ l, ∃ b, init.find a.name = some b ∧
      ∃ r, allCloseRows (a.pos.zip b.pos) = .ok r) → ∃ r, sameArrays init l = .ok r
  | [], _ => ⟨_, rfl⟩
  | a :: l, h => by
    obtain ⟨b, h1, r, h2⟩ := h a (by simp)
    obtain ⟨r', h3⟩ := sameArrays_ok (l := l) fun x hx => h x (by simp [hx])
    rw [sameArrays, h1]
    dsimp only
    split_ifs
    · exact ⟨_, rfl⟩
    · exact ⟨_, rfl⟩
    · rw [h2]
      cases r
      · exact ⟨_, rfl⟩
      · exact ⟨_, h3⟩

theorem samePaths_true {proto init : Coll (List F) (IrMat F)} : ∀ {l : List (String × String)},
    samePaths proto init l = .ok true ↔ ∀ p ∈ l, ∃ t, proto.types p.1 p.2 = some t ∧
      init.types p.1 p.2 = some t ∧ (t = "modified" → ∃ h h0, proto.paths p.1 p.2 = some h ∧
        init.paths p.1 p.2 = some h0 ∧ allCloseIr h h0 = .ok true)
  | [] => by simp [samePaths]
  | p :: l => by
    have ih := samePaths_true (proto := proto) (init := init) (l := l)
    rw [samePaths, List.forall_mem_cons, ← ih]
    cases proto.types p.1 p.2 with
    | none => simp
    | some t =>
      simp only [Option.some.injEq, exists_eq_left']
      by_cases ht : t = "modified"
      · simp only [if_pos ht, ht, forall_const]
        cases proto.paths p.1 p.2 with
        | none => simp
        | some h =>
          cases init.paths p.1 p.2 with
          | none => simp
          | some h0 =>
            simp only [Option.some.injEq, exists_eq_left']
            cases hk : allCloseIr h h0 with
            | error x => simp [hk]
            | ok r =>
              cases r with
              | false => simp [hk]
              | true =>
                cases init.types p.1 p.2 with
                | none => simp
                | some t' =>
                  by_cases ht' : "modified" = t'
                  · simp [ht', hk]
                  · have : ¬ t' = "modified" := fun h => ht' h.symm
                    simp [ht', this]
      · simp only [if_neg ht, ht, false_implies, and_true]
        cases init.types p.1 p.2 with
        | none => simp
        | some t' =>
          by_cases ht' : t = t'
          · simp [ht']
          · have : ¬ t' = t := fun h => ht' h.symm
            simp [ht', this]

theorem samePaths_ok {proto init : Coll (List F) (IrMat F)} : ∀ {l : List (String × String)},
    (∀ p ∈ l, ∃ t t', proto.types p.1 p.2 = some t ∧
      init.types p.1 p.2 = some t' ∧ (t = "modified" → ∃ h h0, proto.paths p.1 p.2 = some h ∧
        init.paths p.1 p.2 = some h0 ∧ ∃ r, allCloseIr h h0 = .ok r)) → ∃ r, samePaths proto init l = .ok r
  | [], _ => ⟨_, rfl⟩
  | p :: l, h => by
    obtain ⟨t, t', h1, h2, h3⟩ := h p (by simp)
    obtain ⟨r', h4⟩ := samePaths_ok (proto := proto) (init := init) (l := l) fun x hx => h x (by simp [hx])
    rw [samePaths, h1]
    dsimp only
    by_cases ht : t = "modified"
    · obtain ⟨x, x0, k1, k2, r, k3⟩ := h3 ht
      rw [if_pos ht, k1, k2]
      dsimp only
      rw [k3]
      cases r with
      | false => exact ⟨_, rfl⟩
      | true =>
        dsimp only
        rw [h2]
        dsimp only
        split_ifs
        · exact ⟨_, rfl⟩
        · exact ⟨_, h4⟩
    · rw [if_neg ht]
      dsimp only
      rw [h2]
      dsimp only
      split_ifs
      · exact ⟨_, rfl⟩
      · exact ⟨_, h4⟩

theorem protoEquals_true {proto init : Coll (List F) (IrMat F)} :
    protoEquals proto init = .ok true ↔
      ((∀ a ∈ proto.arrays, a.name ∈ init.arrays.map Arr.name) ∧
        ∀ b ∈ init.arrays, b.name ∈ proto.arrays.map Arr.name) ∧
      sameArrays init proto.arrays = .ok true ∧ samePaths proto init proto.combos = .ok true := by
  unfold protoEquals
  by_cases h : (∀ a ∈ proto.arrays, a.name ∈ init.arrays.map Arr.name) ∧
        ∀ b ∈ init.arrays, b.name ∈ proto.arrays.map Arr.name
  · rw [if_neg (not_not.2 h)]
    cases sameArrays init proto.arrays with
    | error x => simp
    | ok r =>
      cases r with
      | false => simp
      | true => exact ⟨fun hh => ⟨h, rfl, hh⟩, fun hh => hh.2.2⟩
  · rw [if_pos h]
    constructor
    · intro hh; cases hh
    · intro hh; exact absurd hh.1 h

omit [Field F] [LinearOrder F] in
theorem Coll.find_of_name {Pt H : Type} {c : Coll Pt H} (hc : c.Consistent) {nm : String} {b : Arr Pt}
    (hb : b ∈ c.arrays) (hn : b.name = nm) : c.find nm = some b := by
  rw [← hn]; exact Coll.find_eq hc.names hb

/-- The comparison does not raise for comparable collections. -/
theorem protoEquals_ok {proto init : Coll (List F) (IrMat F)} (hp : proto.Consistent)
    (hi : init.Consistent) (hcmp : Comparable proto init)
    (hpt : ∀ s ∈ proto.srcs, ∀ m ∈ proto.mics, ∃ t, proto.types s m = some t ∧
      (t = "modified" → (proto.paths s m).isSome))
    (hit : ∀ s ∈ init.srcs, ∀ m ∈ init.mics, (init.types s m).isSome ∧ (init.paths s m).isSome) :
    ∃ r, protoEquals proto init = .ok r := by
  unfold protoEquals
  by_cases h : (∀ a ∈ proto.arrays, a.name ∈ init.arrays.map Arr.name) ∧
        ∀ b ∈ init.arrays, b.name ∈ proto.arrays.map Arr.name
  · rw [if_neg (not_not.2 h)]
    have hex : ∀ a ∈ proto.arrays, ∃ b ∈ init.arrays, b.name = a.name ∧ init.find a.name = some b := by
      intro a ha
      obtain ⟨b, hb, hn⟩ := List.mem_map.1 (h.1 a ha)
      exact ⟨b, hb, hn, Coll.find_of_name hi hb hn⟩
    obtain ⟨r, hr⟩ := sameArrays_ok (init := init) (l := proto.arrays) (by
      intro a ha
      obtain ⟨b, hb, hn, hf⟩ := hex a ha
      refine ⟨b, hf, allCloseRows_ok _ ?_⟩
      rintro ⟨x, y⟩ hxy
      obtain ⟨hx, hy⟩ := List.of_mem_zip hxy
      exact hcmp.dims a ha b hb hn.symm x hx y hy)
    rw [hr]
    cases r with
    | false => exact ⟨_, rfl⟩
    | true =>
      refine samePaths_ok ?_
      rintro ⟨s, m⟩ hq
      obtain ⟨hs, hm⟩ := Coll.mem_combos.1 hq
      obtain ⟨t, ht, htm⟩ := hpt s hs m hm
      rw [sameArrays_true] at hr
      have hs' : s ∈ init.srcs := by
        obtain ⟨a, ha, hak, rfl⟩ := hp.mem_srcs.1 hs
        obtain ⟨b, hf, hk, _⟩ := hr a ha
        obtain ⟨hb, hn⟩ := Coll.find_some hf
        exact hi.mem_srcs.2 ⟨b, hb, hk ▸ hak, hn⟩
      have hm' : m ∈ init.mics := by
        obtain ⟨a, ha, hak, rfl⟩ := hp.mem_mics.1 hm
        obtain ⟨b, hf, hk, _⟩ := hr a ha
        obtain ⟨hb, hn⟩ := Coll.find_some hf
        exact hi.mem_mics.2 ⟨b, hb, hk ▸ hak, hn⟩
      obtain ⟨k1, k2⟩ := hit s hs' m hm'
      obtain ⟨t', ht'⟩ := Option.isSome_iff_exists.1 k1
      obtain ⟨x0, hx0⟩ := Option.isSome_iff_exists.1 k2
      refine ⟨t, t', ht, ht', fun hmod => ?_⟩
      obtain ⟨x, hx⟩ := Option.isSome_iff_exists.1 (htm hmod)
      refine ⟨x, x0, hx, hx0, allCloseRows_ok _ ?_⟩
      intro p hp
      obtain ⟨i, _, hp⟩ := List.mem_flatMap.1 hp
      obtain ⟨j, _, rfl⟩ := List.mem_map.1 hp
      exact hcmp.lens s m x x0 (by rw [ht, hmod]) hx hx0 i j
  · rw [if_pos h]
    exact ⟨_, rfl⟩

/-! ### `setup_ir` -/

omit [Field F] [LinearOrder F] in
theorem Coll.setDefault_consistent {Pt H : Type} {c : Coll Pt H} (hc : c.Consistent) (t : String) :
    (c.setDefault t).Consistent := by
  obtain ⟨⟨ty, h⟩, _⟩ := setDefault_spec t c
  rw [h]
  exact ⟨hc.names, hc.kinds, hc.mics, hc.srcs, hc.frees⟩

omit [Field F] [LinearOrder F] in
theorem Coll.setDefault_frame {Pt H : Type} (c : Coll Pt H) (t : String) :
    (c.setDefault t).arrays = c.arrays ∧ (c.setDefault t).srcs = c.srcs ∧
    (c.setDefault t).mics = c.mics ∧ (c.setDefault t).frees = c.frees ∧
    (c.setDefault t).paths = c.paths := by
  obtain ⟨⟨ty, h⟩, _⟩ := setDefault_spec t c
  rw [h]
  exact ⟨rfl, rfl, rfl, rfl, rfl⟩

/-- What `setup_ir` does to a prototype. -/
structure SetupOf (sys : GenSys F G) (i : SimInfo F) (c : Coll (List F) (IrMat F)) (b : Built F S) : Prop where
  info : b.info = i
  arrays : b.coll.arrays = c.arrays
  srcs : b.coll.srcs = c.srcs
  mics : b.coll.mics = c.mics
  frees : b.coll.frees = c.frees
  types : b.coll.types = c.types
  freq : b.coll.freq = i.updateFreq
  con : b.coll.Consistent
  typed : ∀ s ∈ c.srcs, ∀ m ∈ c.mics, (c.useType s m).isSome
  kept : ∀ s m, c.useType s m = some "modified" → b.coll.paths s m = c.paths s m
  made : ∀ s ∈ c.srcs, ∀ m ∈ c.mics, c.useType s m ≠ some "modified" → ∃ x ∈ c.arrays, ∃ y ∈ c.arrays,
    x.name = s ∧ y.name = m ∧ ∃ t g1 g2 h, c.useType s m = some t ∧
      sys.gen i g1 (x.geoAt 0) (y.geoAt 0) t = .ok (g2, h) ∧ b.coll.paths s m = some h
  points : ∀ a ∈ c.arrays, ∀ b ∈ c.arrays, (a.kind = some .free ∨ a.kind = some .ctrl) →
    b.kind = some .mic → a.pos ≠ [] ∧ b.pos ≠ []

omit [Field F] [LinearOrder F] in
theorem setupArrays_spec {sys : GenSys F G} {g g' : G} {i : SimInfo F} {c : Coll (List F) (IrMat F)}
    {source : String → Option S} {b : Built F S} (hc : c.Consistent) (hi : ∀ a ∈ c.arrays, a.Initial)
    (h : setupArrays sys g i c source = .ok (g', b)) : SetupOf sys i c b ∧ b.source = source := by
  unfold setupArrays at h
  cases h1 : { c with freq := i.updateFreq }.setupIr (sys.gen i) (sys.init i g) with
  | error x => rw [h1] at h; cases h
  | ok gc =>
    obtain ⟨g1, c1⟩ := gc
    rw [h1] at h
    have h2 := Prod.mk.inj (Except.ok.inj h)
    obtain ⟨rfl, rfl⟩ := h2
    have hc' : Coll.Consistent { c with freq := i.updateFreq } :=
      ⟨hc.names, hc.kinds, hc.mics, hc.srcs, hc.frees⟩
    obtain ⟨k1, k2, k3⟩ := setupIr_spec hc'.names hi h1
    have hu : ∀ s m, Coll.useType { c with freq := i.updateFreq } s m = c.useType s m := fun _ _ => rfl
    refine ⟨⟨rfl, ?_, ?_, ?_, ?_, ?_, ?_, ?_, k2, ?_, ?_, ?_⟩, rfl⟩
    · show c1.arrays = _; rw [k1]; rfl
    · show c1.srcs = _; rw [k1]; rfl
    · show c1.mics = _; rw [k1]; rfl
    · show c1.frees = _; rw [k1]; rfl
    · show c1.types = _; rw [k1]; rfl
    · show c1.freq = _; rw [k1]; rfl
    · show c1.Consistent; rw [k1]; exact hc'.with _ _
    · intro s m hm
      refine k3.old ?_
      rw [List.mem_filter]
      rintro ⟨_, hq⟩
      rw [decide_eq_true_eq] at hq
      exact hq hm
    · intro s hs m hm hne
      obtain ⟨x, hx, y, hy, e1, e2, t, g1, g2, hh, e3, e4, e5⟩ := k3.new (s := s) (m := m) (by
        rw [List.mem_filter, decide_eq_true_eq]
        exact ⟨Coll.mem_combos.2 ⟨hs, hm⟩, hne⟩)
      exact ⟨x, hx, y, hy, e1, e2, t, g1, g2, hh, e3, e4, e5⟩
    · intro a ha b' hb' hak hbk
      by_contra hne
      rw [not_and_or, not_not, not_not] at hne
      have := (calcRirParameters_spec hc').1 ⟨a, ha, b', hb', hak, hbk, hne⟩
      unfold Coll.setupIr at h1
      rw [this] at h1
      cases h1

/-- A collection matches what was set up from it. -/
theorem protoEquals_self [IsStrictOrderedRing F] {sys : GenSys F G} {i : SimInfo F}
    {c : Coll (List F) (IrMat F)} {b : Built F S} (hc : c.Consistent) (h : SetupOf sys i c b)
    (hnum : ∀ a ∈ c.arrays, a.num = a.pos.length)
    (hmod : ∀ s ∈ c.srcs, ∀ m ∈ c.mics, c.types s m = some "modified" → (c.paths s m).isSome) :
    protoEquals c b.coll = .ok true := by
  have hu : ∀ s ∈ c.srcs, ∀ m ∈ c.mics, c.useType s m = c.types s m := by
    intro s hs m hm
    obtain ⟨x, hx, hxk, rfl⟩ := hc.mem_srcs.1 hs
    obtain ⟨y, hy, hyk, rfl⟩ := hc.mem_mics.1 hm
    rw [useType_eq hc.names hx hy, if_neg]
    obtain ⟨p1, p2⟩ := h.points x hx y hy hxk hyk
    rw [hnum x hx, hnum y hy, List.length_eq_zero_iff, List.length_eq_zero_iff]
    exact not_or.2 ⟨p1, p2⟩
  rw [protoEquals_true, h.arrays]
  refine ⟨⟨fun a ha => List.mem_map_of_mem ha, fun a ha => List.mem_map_of_mem ha⟩, ?_, ?_⟩
  · rw [sameArrays_true]
    intro a ha
    refine ⟨a, Coll.find_of_name h.con (by rw [h.arrays]; exact ha) rfl, rfl, rfl, allCloseRows_refl _ ?_⟩
    intro p hp
    generalize a.pos = l at hp
    induction l with
    | nil => simp at hp
    | cons x l ih =>
      rw [List.zip_cons_cons, List.mem_cons] at hp
      rcases hp with rfl | hp
      · rfl
      · exact ih hp
  · rw [samePaths_true]
    rintro ⟨s, m⟩ hq
    obtain ⟨hs, hm⟩ := Coll.mem_combos.1 hq
    have ht := h.typed s hs m hm
    rw [hu s hs m hm] at ht
    obtain ⟨t, ht⟩ := Option.isSome_iff_exists.1 ht
    refine ⟨t, ht, by rw [h.types]; exact ht, ?_⟩
    rintro rfl
    obtain ⟨x, hx⟩ := Option.isSome_iff_exists.1 (hmod s hs m hm ht)
    refine ⟨x, x, hx, ?_, allCloseRows_refl _ ?_⟩
    · rw [h.kept s m (by rw [hu s hs m hm]; exact ht)]; exact hx
    · intro p hp
      obtain ⟨i, _, hp⟩ := List.mem_flatMap.1 hp
      obtain ⟨j, _, rfl⟩ := List.mem_map.1 hp
      rfl

theorem equalAudio_refl (i : SimInfo F) (ty : List (List String)) : equalAudio i i ty = true := by
  unfold equalAudio
  simp

/-! ### searching -/

/-- The test applied to one folder. -/
def Matches (info : SimInfo F) (c : Coll (List F) (IrMat F)) (f : Folder F S) : Prop :=
  ∃ i b, f.loadConfig = .ok i ∧ f.loadArrays = .ok b ∧ equalAudio info i c.typeValues = true ∧
    protoEquals c b.coll = .ok true

theorem searchSession_found {info : SimInfo F} {c : Coll (List F) (IrMat F)} :
    ∀ {st : Store F S} {nm f}, searchSession info c st = .ok (some (nm, f)) →
      (nm, some f) ∈ st ∧ Matches info c f
  | [], nm, f, h => by cases h
  | (_, none) :: rest, nm, f, h => by
    rw [searchSession] at h
    obtain ⟨h1, h2⟩ := searchSession_found h
    exact ⟨List.mem_cons_of_mem _ h1, h2⟩
  | (nm', some f') :: rest, nm, f, h => by
    rw [searchSession] at h
    cases h1 : f'.loadConfig with
    | error x => rw [h1] at h; cases h
    | ok i =>
      rw [h1] at h
      cases h2 : f'.loadArrays with
      | error x => rw [h2] at h; cases h
      | ok b =>
        rw [h2] at h
        dsimp only at h
        by_cases h3 : equalAudio info i c.typeValues = true
        · rw [if_pos h3] at h
          cases h4 : protoEquals c b.coll with
          | error x => rw [h4] at h; cases h
          | ok r =>
            rw [h4] at h
            cases r with
            | true =>
              have h5 := Prod.mk.inj (Option.some.inj (Except.ok.inj h))
              obtain ⟨rfl, rfl⟩ := h5
              exact ⟨List.mem_cons_self, i, b, h1, h2, h3, h4⟩
            | false =>
              obtain ⟨h5, h6⟩ := searchSession_found h
              exact ⟨List.mem_cons_of_mem _ h5, h6⟩
        · rw [if_neg h3] at h
          obtain ⟨h5, h6⟩ := searchSession_found h
          exact ⟨List.mem_cons_of_mem _ h5, h6⟩

/-- The search does not raise if no folder makes it raise. -/
def Readable (info : SimInfo F) (c : Coll (List F) (IrMat F)) (f : Folder F S) : Prop :=
  ∃ i b, f.loadConfig = .ok i ∧ f.loadArrays = .ok b ∧
    (equalAudio info i c.typeValues = true → ∃ r, protoEquals c b.coll = .ok r)

theorem searchSession_ok {info : SimInfo F} {c : Coll (List F) (IrMat F)} :
    ∀ {st : Store F S}, (∀ nm f, (nm, some f) ∈ st → Readable info c f) →
      ∃ r, searchSession info c st = .ok r ∧
        (r = none → ∀ nm f, (nm, some f) ∈ st → ¬ Matches info c f)
  | [], _ => ⟨none, rfl, fun _ _ _ h => by cases h⟩
  | (nm', none) :: rest, h => by
    obtain ⟨r, h1, h2⟩ := searchSession_ok (st := rest) fun nm f hm => h nm f (by simp [hm])
    refine ⟨r, h1, fun hr nm f hm => ?_⟩
    rcases List.mem_cons.1 hm with he | hm
    · cases he
    · exact h2 hr nm f hm
  | (nm', some f') :: rest, h => by
    obtain ⟨r, k1, k2⟩ := searchSession_ok (st := rest) fun nm f hm => h nm f (by simp [hm])
    obtain ⟨i, b, h1, h2, h3⟩ := h nm' f' (by simp)
    rw [searchSession, h1]
    dsimp only
    rw [h2]
    dsimp only
    by_cases h4 : equalAudio info i c.typeValues = true
    · rw [if_pos h4]
      obtain ⟨r', h5⟩ := h3 h4
      rw [h5]
      cases r' with
      | true => exact ⟨_, rfl, fun hr => by cases hr⟩
      | false =>
        refine ⟨r, k1, fun hr nm f hm => ?_⟩
        rcases List.mem_cons.1 hm with he | hm
        · cases he
          rintro ⟨i', b', q1, q2, q3, q4⟩
          rw [h2] at q2
          cases Except.ok.inj q2
          rw [h5] at q4
          cases q4
        · exact k2 hr nm f hm
    · rw [if_neg h4]
      refine ⟨r, k1, fun hr nm f hm => ?_⟩
      rcases List.mem_cons.1 hm with he | hm
      · cases he
        rintro ⟨i', b', q1, q2, q3, q4⟩
        rw [h1] at q1
        cases Except.ok.inj q1
        exact h4 q3
      · exact k2 hr nm f hm

/-- If the sessions before a folder are readable but do not match, the search gets
to the folder. -/
theorem searchSession_skip {info : SimInfo F} {c : Coll (List F) (IrMat F)} (rest : Store F S) :
    ∀ {st : Store F S}, (∀ nm f, (nm, some f) ∈ st → Readable info c f ∧ ¬ Matches info c f) →
      searchSession info c (st ++ rest) = searchSession info c rest
  | [], _ => rfl
  | (nm', none) :: st, h => by
    rw [List.cons_append, searchSession]
    exact searchSession_skip rest fun nm f hm => h nm f (by simp [hm])
  | (nm', some f') :: st, h => by
    obtain ⟨⟨i, b, h1, h2, h3⟩, hno⟩ := h nm' f' (by simp)
    have ih := searchSession_skip (info := info) (c := c) rest (st := st)
      fun nm f hm => h nm f (by simp [hm])
    rw [List.cons_append, searchSession, h1]
    dsimp only
    rw [h2]
    dsimp only
    by_cases h4 : equalAudio info i c.typeValues = true
    · rw [if_pos h4]
      obtain ⟨r', h5⟩ := h3 h4
      rw [h5]
      cases r' with
      | true => exact absurd ⟨i, b, h1, h2, h4, h5⟩ hno
      | false => exact ih
    · rw [if_neg h4]; exact ih

omit [Field F] [LinearOrder F] in
theorem setSources_spec {source : String → Option S} : ∀ {l : List String} {b b' : Built F S},
    setSources source l b = .ok b' →
      b'.coll = b.coll ∧ b'.info = b.info ∧ ∀ nm, b'.source nm = if nm ∈ l then source nm else b.source nm
  | [], b, b', h => by cases h; simp
  | x :: l, b, b', h => by
    rw [setSources] at h
    split at h
    · cases h
    · obtain ⟨h1, h2, h3⟩ := setSources_spec h
      refine ⟨h1, h2, fun nm => ?_⟩
      rw [h3 nm]
      by_cases h4 : nm ∈ l
      · rw [if_pos h4, if_pos (List.mem_cons_of_mem _ h4)]
      · rw [if_neg h4]
        by_cases h5 : nm = x
        · subst h5; simp
        · simp [h4, h5]

omit [Field F] [LinearOrder F] in
theorem setSources_ok {source : String → Option S} : ∀ {l : List String} {b : Built F S},
    (∀ nm ∈ l, (b.coll.find nm).isSome) → ∃ b', setSources source l b = .ok b'
  | [], b, _ => ⟨b, rfl⟩
  | x :: l, b, h => by
    rw [setSources]
    obtain ⟨a, ha⟩ := Option.isSome_iff_exists.1 (h x (by simp))
    rw [ha]
    exact setSources_ok fun nm hn => h nm (by simp [hn])

theorem loadSession_spec {info : SimInfo F} {c : Coll (List F) (IrMat F)} {source : String → Option S}
    {st : Store F S} {b : Built F S} (h : loadSession info c source st = .ok (some b)) :
    ∃ nm f b0, (nm, some f) ∈ st ∧ Matches info c f ∧ f.loadArrays = .ok b0 ∧ b.coll = b0.coll ∧
      b.info = b0.info ∧ ∀ nm, b.source nm = if nm ∈ c.frees then source nm else b0.source nm := by
  unfold loadSession at h
  cases h1 : searchSession info c st with
  | error x => rw [h1] at h; cases h
  | ok r =>
    rw [h1] at h
    cases r with
    | none => cases h
    | some p =>
      obtain ⟨nm, f⟩ := p
      obtain ⟨k1, k2⟩ := searchSession_found h1
      dsimp only at h
      cases h2 : f.loadArrays with
      | error x => rw [h2] at h; cases h
      | ok b0 =>
        rw [h2] at h
        dsimp only at h
        cases h3 : setSources source c.frees b0 with
        | error x => rw [h3] at h; cases h
        | ok b' =>
          rw [h3] at h
          cases Option.some.inj (Except.ok.inj h)
          obtain ⟨q1, q2, q3⟩ := setSources_spec h3
          exact ⟨nm, f, b0, k1, k2, h2, q1, q2, q3⟩

/-! ### loaded and computed collections -/

theorem matched_arrays {c c0 : Coll (List F) (IrMat F)} (h : protoEquals c c0 = .ok true)
    (hag : Agree c c0) {a : Arr (List F)} (ha : a ∈ c.arrays) :
    ∃ b ∈ c0.arrays, b.name = a.name ∧ b.kind = a.kind ∧ b.num = a.num ∧ b.traj = a.traj ∧
      (∀ u, b.geoAt u = a.geoAt u) := by
  obtain ⟨_, h2, _⟩ := protoEquals_true.1 h
  obtain ⟨b, hf, hk, hn, _⟩ := sameArrays_true.1 h2 a ha
  obtain ⟨hb, hname⟩ := Coll.find_some hf
  obtain ⟨e1, e2, e3⟩ := hag.arrays a ha b hb hname.symm
  exact ⟨b, hb, hname, hk.symm, hn.symm, e3.symm, fun u => by unfold Arr.geoAt; rw [hn, e1, e2, e3]⟩

theorem loaded_eq_fresh {sys : GenSys F G} (hpure : sys.Pure) {i i0 : SimInfo F}
    {c p0 : Coll (List F) (IrMat F)} {b b0 : Built F S} (hc : c.Consistent)
    (hb : SetupOf sys i c b) (hp0 : p0.Consistent) (hb0 : SetupOf sys i0 p0 b0) (hm : protoEquals c b0.coll = .ok true)
    (hag : Agree c b0.coll) (hgen : sys.gen i = sys.gen i0) (hfreq : i.updateFreq = i0.updateFreq)
    (n : Nat) {g g' g0 g0' : G} {c' c0' : Coll (List F) (IrMat F)}
    (ha : Coll.after (sys.gen b.info) (g, b.coll) n = .ok (g', c'))
    (ha0 : Coll.after (sys.gen b0.info) (g0, b0.coll) n = .ok (g0', c0'))
    {s m : String} (hs : s ∈ c.srcs) (hmi : m ∈ c.mics) : c0'.paths s m = c'.paths s m := by
  obtain ⟨hnames, hsa, hsp⟩ := protoEquals_true.1 hm
  obtain ⟨x, hx, hxk, hxn⟩ := hc.mem_srcs.1 hs
  obtain ⟨y, hy, hyk, hyn⟩ := hc.mem_mics.1 hmi
  obtain ⟨x0, hx0, hx0n, hx0k, hx0num, hx0t, hx0g⟩ := matched_arrays hm hag hx
  obtain ⟨y0, hy0, hy0n, hy0k, hy0num, hy0t, hy0g⟩ := matched_arrays hm hag hy
  have hs0 : s ∈ b0.coll.srcs := hb0.con.mem_srcs.2 ⟨x0, hx0, by rw [hx0k]; exact hxk, by rw [hx0n, hxn]⟩
  have hm0 : m ∈ b0.coll.mics := hb0.con.mem_mics.2 ⟨y0, hy0, by rw [hy0k]; exact hyk, by rw [hy0n, hyn]⟩
  obtain ⟨t, ht, ht0, htm⟩ := samePaths_true.1 hsp (s, m) (Coll.mem_combos.2 ⟨hs, hmi⟩)
  have hty : b0.coll.types s m = b.coll.types s m := by rw [hb.types]; exact ht0.trans ht.symm
  have huse : p0.useType s m = c.useType s m := by
    have h1 := useType_eq hc.names hx hy
    rw [hb0.arrays] at hx0 hy0
    have h2 := useType_eq (c := p0) (by rw [← hb0.arrays]; exact hb0.con.names) hx0 hy0
    rw [hxn, hyn] at h1
    rw [hx0n, hxn, hy0n, hyn, hx0num, hy0num] at h2
    rw [h1, h2, ← hb0.types]
    have e : b0.coll.types s m = c.types s m := ht0.trans ht.symm
    rw [e]
  -- the initial paths
  have h0 : b0.coll.paths s m = b.coll.paths s m := by
    by_cases hu : c.useType s m = some "modified"
    · rw [hb.kept s m hu]
      have htmod : t = "modified" := by
        have h1 := useType_eq hc.names hx hy
        rw [hxn, hyn, hu] at h1
        split at h1
        · exact absurd (Option.some.inj h1) (by decide)
        · have e : c.types s m = some t := ht
          rw [e] at h1
          exact (Option.some.inj h1).symm
      obtain ⟨h, h', k1, k2, _⟩ := htm htmod
      have k1' : c.paths s m = some h := k1
      have k2' : b0.coll.paths s m = some h' := k2
      rw [k1', k2', hag.paths s m h h' (by rw [← htmod]; exact ht) k1 k2]
    · obtain ⟨a, ha1, b1, hb1, e1, e2, t1, g1, g2, h, e3, e4, e5⟩ := hb.made s hs m hmi hu
      have hsp0 : s ∈ p0.srcs := by rw [← hb0.srcs]; exact hs0
      have hmp0 : m ∈ p0.mics := by rw [← hb0.mics]; exact hm0
      obtain ⟨a', ha', b', hb', f1, f2, t2, g3, g4, h', f3, f4, f5⟩ := hb0.made s hsp0 m hmp0
        (by rw [huse]; exact hu)
      rw [huse, e3] at f3
      cases Option.some.inj f3
      have ea : a = x := hc.inj ha1 hx (e1.trans hxn.symm)
      have eb : b1 = y := hc.inj hb1 hy (e2.trans hyn.symm)
      have ea' : a' = x0 := hb0.con.inj (by rw [hb0.arrays]; exact ha') hx0
        (f1.trans (hx0n.trans hxn).symm)
      have eb' : b' = y0 := hb0.con.inj (by rw [hb0.arrays]; exact hb') hy0
        (f2.trans (hy0n.trans hyn).symm)
      subst ea; subst eb; subst ea'; subst eb'
      rw [hx0g, hy0g, ← hgen] at f4
      rw [e5, f5, hpure i _ _ _ _ _ _ _ _ _ e4 f4]
  have inv := after_spec hb.con n ha
  have inv0 := after_spec hb0.con n ha0
  have hmov : b.coll.Moving s m ↔ b0.coll.Moving s m := by
    have key : ∀ {d : Coll (List F) (IrMat F)} {u v : Arr (List F)}, d.Consistent → u ∈ d.arrays →
        v ∈ d.arrays → u.name = s → v.name = m →
        (d.Moving s m ↔ u.traj.isSome = true ∨ v.traj.isSome = true) := by
      intro d u v hd hu hv hun hvn
      constructor
      · rintro ⟨w, hw, hdy, hw' | hw'⟩
        · rw [hd.inj hw hu (hw'.trans hun.symm)] at hdy; exact Or.inl hdy
        · rw [hd.inj hw hv (hw'.trans hvn.symm)] at hdy; exact Or.inr hdy
      · rintro (h | h)
        · exact ⟨u, hu, h, Or.inl hun⟩
        · exact ⟨v, hv, h, Or.inr hvn⟩
    rw [key hb.con (by rw [hb.arrays]; exact hx) (by rw [hb.arrays]; exact hy) hxn hyn,
      key hb0.con hx0 hy0 (hx0n.trans hxn) (hy0n.trans hyn), hx0t, hy0t]
  have hsb : s ∈ b.coll.srcs := by rw [hb.srcs]; exact hs
  have hmb : m ∈ b.coll.mics := by rw [hb.mics]; exact hmi
  by_cases hmv : b.coll.Moving s m ∧ 0 < n
  · obtain ⟨h, k1, a, ha1, b1, hb1, e1, e2, t1, g1, g2, e3, e4⟩ := inv.gen s m hsb hmb hmv.1 hmv.2
    obtain ⟨h', k1', a', ha', b', hb', f1, f2, t2, g3, g4, f3, f4⟩ :=
      inv0.gen s m hs0 hm0 (hmov.1 hmv.1) hmv.2
    rw [hty, e3] at f3
    cases Option.some.inj f3
    rw [hb.arrays] at ha1 hb1
    have ea : a = x := hc.inj ha1 hx (e1.trans hxn.symm)
    have eb : b1 = y := hc.inj hb1 hy (e2.trans hyn.symm)
    have ea' : a' = x0 := hb0.con.inj ha' hx0 (f1.trans (hx0n.trans hxn).symm)
    have eb' : b' = y0 := hb0.con.inj hb' hy0 (f2.trans (hy0n.trans hyn).symm)
    subst ea; subst eb; subst ea'; subst eb'
    rw [hb.info, hb.freq, hfreq] at e4
    rw [hb0.info, hb0.freq, hx0g, hy0g, ← hgen] at f4
    rw [k1, k1', hpure i _ _ _ _ _ _ _ _ _ e4 f4]
  · rw [inv.other s m fun ⟨_, _, h1, h2⟩ => hmv ⟨h1, h2⟩,
      inv0.other s m fun ⟨_, _, h1, h2⟩ => hmv ⟨hmov.2 h1, h2⟩, h0]

end
end Verif

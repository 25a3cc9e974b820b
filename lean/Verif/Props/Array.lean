/-
C14 (moving arrays), C39, C40, C41, C42, C43, C44, C45: array collections and
their impulse responses.
-/
import Verif.Lemmas.Setup
import Verif.Props.Signals
namespace Verif

section
variable {Pt H G : Type}

/-- C39, partial: arrays that are microphones or sources.  After any sequence of
additions every array is known exactly once, the first of every name; each is
listed exactly once, as microphone or as source; the free sources are sources.
Missing: arrays that are neither, which stay in the collection although
`add_array` raises (`C39_violated`). -/
theorem C39_registration_partial (freq : Nat) (as : List (Arr Pt)) (hk : ∀ a ∈ as, a.kind ≠ none) :
    let c : Coll Pt H := (Coll.empty freq).addAll as
    (c.arrays.map Arr.name).Nodup ∧ (∀ a ∈ as, ∃ b ∈ c.arrays, b.name = a.name) ∧
    (∀ b ∈ c.arrays, b ∈ as ∧
      ((b.kind = some .mic ∧ b.name ∈ c.mics ∧ b.name ∉ c.srcs) ∨
       (b.kind ≠ some .mic ∧ b.name ∈ c.srcs ∧ b.name ∉ c.mics))) ∧
    c.mics.Nodup ∧ c.srcs.Nodup ∧ c.frees.Sublist c.srcs ∧
    ∀ nm, nm ∈ c.frees ↔ ∃ b ∈ c.arrays, b.kind = some .free ∧ b.name = nm := by
  dsimp only
  obtain ⟨h1, _, h3, h4⟩ := Coll.addAll_spec as (Coll.empty_consistent (Pt := Pt) (H := H) freq) hk
  refine ⟨h1.names, h3, ?_, ?_, ?_, ?_, fun nm => h1.mem_frees⟩
  · intro b hb
    refine ⟨(h4 b hb).resolve_left (by simp [Coll.empty]), ?_⟩
    rcases hkb : b.kind with _ | k
    · exact absurd hkb (h1.kinds b hb)
    · have hsrc : k ≠ .mic → b.name ∈ _ ∧ b.name ∉ _ := fun hne => by
        have hs : b.name ∈ ((Coll.empty freq : Coll Pt H).addAll as).srcs :=
          h1.mem_srcs.2 ⟨b, hb, by rw [hkb]; cases k <;> simp_all, rfl⟩
        exact ⟨hs, fun hm => h1.disjoint hm hs⟩
      cases k with
      | mic =>
        have hm := h1.mem_mics.2 ⟨b, hb, hkb, rfl⟩
        exact .inl ⟨rfl, hm, h1.disjoint hm⟩
      | free => exact .inr ⟨by decide, hsrc (by decide)⟩
      | ctrl => exact .inr ⟨by decide, hsrc (by decide)⟩
  · rw [h1.mics]; exact Coll.namesOf_nodup h1.names _
  · rw [h1.srcs]; exact Coll.namesOf_nodup h1.names _
  · rw [h1.frees, h1.srcs]
    unfold Coll.namesOf
    refine List.Sublist.map _ ?_
    refine List.monotone_filter_right _ ?_
    intro a ha
    simp_all

/-- C39, duplicates: they are rejected without changing the collection. -/
theorem C39_duplicates (c : Coll Pt H) (a : Arr Pt) (h : ∃ b ∈ c.arrays, b.name = a.name) :
    c.addArray a = (c, some .assertion) := Coll.addArray_dup h

/-- C39 does not hold for arrays that are neither microphone nor source:
`add_array` raises, but the array is in the collection, listed nowhere. -/
theorem C39_violated : ∃ (c : Coll Nat Nat) (a : Arr Nat), c.Consistent ∧ (c.addArray a).2 = some .value ∧
    a ∈ (c.addArray a).1.arrays ∧ a.name ∉ (c.addArray a).1.mics ∧ a.name ∉ (c.addArray a).1.srcs ∧
    ((c.addArray a).1.addArray a).2 = some .assertion := by
  refine ⟨Coll.empty 1, ⟨"x", none, 1, [0], none, 1, none, true, []⟩, Coll.empty_consistent 1,
    rfl, List.mem_append_right _ (by simp), List.not_mem_nil, List.not_mem_nil, rfl⟩

/-- C42. In an update step the paths of exactly the pairs with a moving array are
generated, each once (`ps` lists the calls of the generator in order), with all
arrays at their positions of that step; all other paths stay. -/
theorem C42_update {gen : GenFn Pt H G} {c c' : Coll Pt H} (hc : c.Consistent) {n : Nat} {g g' : G}
    (hf : c.freq ∣ n) (h : Coll.update gen (g, c) n = .ok (g', c')) :
    ∃ ps, ps.Nodup ∧ (∀ s m, (s, m) ∈ ps ↔ s ∈ c.srcs ∧ m ∈ c.mics ∧ c.Moving s m) ∧
      Regen gen c.arrays c.types n ps g c.paths g' c'.paths ∧
      (∀ s m, (s, m) ∉ ps → c'.paths s m = c.paths s m) ∧
      (∀ s m, (s, m) ∈ ps → ∃ x, c'.paths s m = some x ∧ GeneratedAt gen c s m n x) ∧
      c'.arrays = c.arrays.map (Arr.update n) := by
  obtain ⟨ps, r', h1, h2, h3, h4⟩ := update_spec hc hf h
  refine ⟨ps, h1, h2, h3, fun s m hn => h3.old hn, ?_, by rw [h4]; rfl⟩
  intro s m hin
  obtain ⟨a, ha, b, hb, e1, e2, t, g1, g2, x, e3, e4, e5⟩ := h3.new hin
  exact ⟨x, e5, a, ha, b, hb, e1, e2, t, g1, g2, e3, e4⟩

/-- C42, between the update steps: nothing changes. -/
theorem C42_between {gen : GenFn Pt H G} {c : Coll Pt H} {n : Nat} {g : G} (h0 : c.freq ≠ 0)
    (hf : ¬ c.freq ∣ n) : Coll.update gen (g, c) n = .ok (g, c) := by
  unfold Coll.update
  rw [if_neg h0, if_pos fun h => hf (Nat.dvd_of_mod_eq_zero h)]

/-- C43, partial: the update steps succeed if there is a source whenever a
microphone moves, no user-supplied path belongs to a moving array, and the
generation of responses succeeds.  Missing: the first two conditions, without
which update steps fail (`C43_violated_mic`, `C43_violated_path`). -/
theorem C43_update_partial {gen : GenFn Pt H G} {c : Coll Pt H} (hc : c.Consistent) {n : Nat} (g : G)
    (hf : c.freq ≠ 0)
    (hgen : ∀ a ∈ c.arrays, ∀ b ∈ c.arrays, c.Moving a.name b.name → ∀ t g, c.types a.name b.name = some t →
      ∃ g' h, gen g (a.geoAt n) (b.geoAt n) t = .ok (g', h))
    (hpaths : ∀ s ∈ c.srcs, ∀ m ∈ c.mics, (c.paths s m).isSome)
    (htypes : ∀ s ∈ c.srcs, ∀ m ∈ c.mics, c.Moving s m → ∃ t, c.types s m = some t ∧ t ≠ "modified")
    (hsrc : (∃ a ∈ c.arrays, a.kind = some .mic ∧ a.dynamic = true) → c.srcs ≠ []) :
    ∃ gc', Coll.update gen (g, c) n = .ok gc' :=
  update_ok hc g hf hgen hpaths htypes hsrc

/-- C44. With groups the group index lists are consecutive, partition
`0, ..., num-1` in order, and the rows of each group are the rows given for it. -/
theorem C44_groups (name : String) (kind : Option ArrKind) (omni : Bool) (l : List (List Pt)) (hl : l ≠ []) :
    ∃ a gs, mkArr name kind omni (.groups l) = .ok a ∧ a.groups = some gs ∧ a.numGroups = gs.length ∧
      gs.length = l.length ∧ gs.flatten = List.range a.num ∧ a.num = a.pos.length ∧
      gs.map (fun g => g.map fun i => a.pos[i]?) = l.map fun rows => rows.map some := by
  cases l with
  | nil => exact absurd rfl hl
  | cons x l =>
    refine ⟨_, _, rfl, rfl, ?_, ?_, ?_, rfl, ?_⟩
    · simp [groupIdxs_eq]
    · simp [groupIdxs_eq]
    · exact groupIdxs_flatten _
    · exact groupIdxs_rows _

end

section
variable {Pt R G : Type}

/-- C40. After any history `os` of `set_prop_path` and `set_path_types` calls and
the creation of a simulator with default type `t`: a pair for which a path was
given uses the last one given; every other pair uses the response generated
with the last type given, or else with the default type. -/
theorem C40_user_paths {gen : GenFn Pt (IrMat R) G} {c c' : Coll Pt (IrMat R)} (hc : c.Consistent)
    (hi : ∀ a ∈ c.arrays, a.Initial) (os : List (PathOp R)) (t : String) {g g' : G}
    (h : ((os.foldl Coll.op c).setDefault t).setupIr gen g = .ok (g', c'))
    {a b : Arr Pt} (ha : a ∈ c.arrays) (hb : b ∈ c.arrays) (hak : a.kind = some .free ∨ a.kind = some .ctrl)
    (hbk : b.kind = some .mic) (hp0 : c.paths a.name b.name = none) (ht0 : c.types a.name b.name = none)
    (han : 1 ≤ a.num) (hbn : 1 ≤ b.num) :
    match (userPaths a b os).getLast? with
    | some x => c'.paths a.name b.name = some x ∧ c'.types a.name b.name = some "modified"
    | none => ∃ ty, ty = ((userTypes a b os).getLast?).getD t ∧ c'.types a.name b.name = some ty ∧
        (ty ≠ "modified" → ∃ g1 g2 x, gen g1 (a.geoAt 0) (b.geoAt 0) ty = .ok (g2, x) ∧
          c'.paths a.name b.name = some x) := by
  have has : a.name ∈ c.srcs := hc.mem_srcs.2 ⟨a, ha, hak, rfl⟩
  have hbm : b.name ∈ c.mics := hc.mem_mics.2 ⟨b, hb, hbk, rfl⟩
  obtain ⟨⟨p1, ty1, k0⟩, k1, k2⟩ := ops_spec os hc ha hb has hbm
  obtain ⟨⟨ty2, d0⟩, d1⟩ := setDefault_spec t (os.foldl Coll.op c)
  obtain ⟨e0, e1, e2⟩ := setupIr_spec (c := (os.foldl Coll.op c).setDefault t)
    (by rw [d0, k0]; exact hc.names) (by rw [d0, k0]; exact hi) h
  have d2 := d1 a.name (by rw [k0]; exact has) b.name (by rw [k0]; exact hbm)
  have hut := useType_eq (c := (os.foldl Coll.op c).setDefault t) (by rw [d0, k0]; exact hc.names)
    (a := a) (b := b) (by rw [d0, k0]; exact ha) (by rw [d0, k0]; exact hb)
  rw [if_neg (by omega)] at hut
  have hty' : c'.types = ((os.foldl Coll.op c).setDefault t).types := by rw [e0]; rfl
  have hpa : ((os.foldl Coll.op c).setDefault t).paths = (os.foldl Coll.op c).paths := by rw [d0]
  have hcomb : (a.name, b.name) ∈ ((os.foldl Coll.op c).setDefault t).combos := by
    rw [Coll.mem_combos, d0, k0]
    exact ⟨has, hbm⟩
  rw [hp0, Option.or_none] at k1
  rw [ht0, Option.or_none] at k2
  rw [k1, k2] at d2
  cases hup : (userPaths a b os).getLast? with
  | some x =>
    rw [hup] at d2 k1
    simp only [Option.isSome_some, ↓reduceIte] at d2 ⊢
    rw [hty']
    refine ⟨?_, d2⟩
    rw [e2.old, hpa, k1]
    rw [List.mem_filter]
    rintro ⟨_, hne⟩
    simp only [decide_eq_true_eq] at hne
    exact hne (hut.trans d2)
  | none =>
    rw [hup] at d2
    simp only [Option.isSome_none, Bool.false_eq_true, ↓reduceIte] at d2 ⊢
    refine ⟨_, rfl, by rw [hty']; exact d2, ?_⟩
    intro hne
    have hin : (a.name, b.name) ∈ ((os.foldl Coll.op c).setDefault t).combos.filter fun q =>
        decide (((os.foldl Coll.op c).setDefault t).useType q.1 q.2 ≠ some "modified") := by
      rw [List.mem_filter]
      refine ⟨hcomb, ?_⟩
      rw [decide_eq_true_eq, hut, d2]
      exact fun he => hne (Option.some.inj he)
    obtain ⟨a', ha', b', hb', n1, n2, ty, g1, g2, x, q1, q2, q3⟩ := e2.new hin
    have hmem : ((os.foldl Coll.op c).setDefault t).arrays = c.arrays := by rw [d0, k0]
    rw [hmem] at ha' hb'
    obtain rfl := hc.inj ha' ha n1
    obtain rfl := hc.inj hb' hb n2
    rw [hut, d2] at q1
    rw [Option.some.inj q1]
    exact ⟨g1, g2, x, q2, q3⟩

section
variable [Zero R] [One R]

/-- C41. After a successful `setup_ir` every pair has an impulse response array of
the shape given by its arrays; the responses of exactly the pairs of a source
and a microphone that are not "modified" have been generated, each once, and all
other entries are as before. -/
theorem C41_setup_shapes {rc : RirCfg R Pt G} (hrc : rc.highpass = true → rc.Lawful)
    {c c' : Coll Pt (IrMat R)} (hc : c.Consistent)
    (hi : ∀ a ∈ c.arrays, a.Initial) (hs : ∀ a ∈ c.arrays, a.Sized)
    (hmod : ∀ a ∈ c.arrays, ∀ b ∈ c.arrays, c.useType a.name b.name = some "modified" →
      ∃ x L, c.paths a.name b.name = some x ∧ x.Shaped a.num b.num L)
    {g g' : G} (h : c.setupIr (createPath rc) g = .ok (g', c')) :
    (∀ a ∈ c.arrays, ∀ b ∈ c.arrays, (a.kind = some .free ∨ a.kind = some .ctrl) → b.kind = some .mic →
      ∃ x L, c'.paths a.name b.name = some x ∧ x.Shaped a.num b.num L) ∧
    c'.arrays = c.arrays ∧
    ∃ ps, ps.Nodup ∧ Regen (createPath rc) c.arrays c.useType 0 ps g c.paths g' c'.paths ∧
      ∀ s m, ((s, m) ∈ ps ↔ s ∈ c.srcs ∧ m ∈ c.mics ∧ c.useType s m ≠ some "modified") ∧
        ((s, m) ∉ ps → c'.paths s m = c.paths s m) := by
  obtain ⟨e0, e1, e2⟩ := setupIr_spec hc.names hi h
  refine ⟨?_, by rw [e0]; rfl, _, ?_, e2, ?_⟩
  · intro a ha b hb hak hbk
    have has : a.name ∈ c.srcs := hc.mem_srcs.2 ⟨a, ha, hak, rfl⟩
    have hbm : b.name ∈ c.mics := hc.mem_mics.2 ⟨b, hb, hbk, rfl⟩
    by_cases hm : c.useType a.name b.name = some "modified"
    · obtain ⟨x, L, h1, h2⟩ := hmod a ha b hb hm
      refine ⟨x, L, ?_, h2⟩
      rw [e2.old, h1]
      rw [List.mem_filter]
      rintro ⟨_, hne⟩
      rw [decide_eq_true_eq] at hne
      exact hne hm
    · obtain ⟨a', ha', b', hb', n1, n2, ty, g1, g2, x, q1, q2, q3⟩ := e2.new (s := a.name) (m := b.name)
        (List.mem_filter.2 ⟨Coll.mem_combos.2 ⟨has, hbm⟩, by simpa using hm⟩)
      obtain rfl := hc.inj ha' ha n1
      obtain rfl := hc.inj hb' hb n2
      exact ⟨x, _, q3, createPath_shaped hrc (hs _ ha 0) (hs _ hb 0) q2⟩
  · refine List.Nodup.filter _ ?_
    exact combos_nodup hc
  · intro s m
    have hin : (s, m) ∈ (c.combos.filter fun q => decide (c.useType q.1 q.2 ≠ some "modified")) ↔
        s ∈ c.srcs ∧ m ∈ c.mics ∧ c.useType s m ≠ some "modified" := by
      rw [List.mem_filter, Coll.mem_combos, decide_eq_true_eq, and_assoc]
    exact ⟨hin, fun hn => e2.old hn⟩

/-- C41, success: with the documented path types and arrays that are not empty
`setup_ir` does not fail. -/
theorem C41_setup_succeeds {rc : RirCfg R Pt G} (hrc : rc.Lawful) (hd : rc.minDly = 0)
    {c : Coll Pt (IrMat R)} (hc : c.Consistent)
    (ht : ∀ a ∈ c.arrays, ∀ b ∈ c.arrays, (a.kind = some .free ∨ a.kind = some .ctrl) → b.kind = some .mic →
      c.types a.name b.name = some "none" ∨ c.types a.name b.name = some "modified" ∨
      c.types a.name b.name = some "random" ∨ (c.types a.name b.name = some "direct" ∧ a.num = b.num) ∨
      (c.types a.name b.name = some "ism" ∧ rc.dims = 3 ∧ b.omni = true))
    (hpos : ∀ a ∈ c.arrays, a.pos ≠ []) (g : G) :
    ∃ gc', c.setupIr (createPath rc) g = .ok gc' := by
  have key : ∀ s ∈ c.srcs, ∀ m ∈ c.mics, ∃ a ∈ c.arrays, ∃ b ∈ c.arrays, a.name = s ∧ b.name = m ∧
      ∃ t, c.useType s m = some t ∧ (t ≠ "modified" → ∀ g, ∃ g' x, createPath rc g a.geo b.geo t = .ok (g', x)) := by
    intro s hs m hm
    obtain ⟨a, ha, hak, rfl⟩ := hc.mem_srcs.1 hs
    obtain ⟨b, hb, hbk, rfl⟩ := hc.mem_mics.1 hm
    refine ⟨a, ha, b, hb, rfl, rfl, ?_⟩
    rw [useType_eq hc.names ha hb]
    by_cases h0 : a.num = 0 ∨ b.num = 0
    · rw [if_pos h0]
      exact ⟨_, rfl, fun _ g => ⟨_, _, rfl⟩⟩
    · rw [if_neg h0]
      rcases ht a ha b hb hak hbk with h | h | h | ⟨h, h'⟩ | ⟨h, h', h''⟩
      · exact ⟨_, h, fun _ g => ⟨_, _, rfl⟩⟩
      · exact ⟨_, h, fun hne => absurd rfl hne⟩
      · exact ⟨_, h, fun _ g => ⟨_, _, rfl⟩⟩
      · refine ⟨_, h, fun _ g => ?_⟩
        unfold createPath
        dsimp only
        rw [if_neg (by decide), if_pos rfl, if_neg (not_not.2 (show a.geo.num = b.geo.num from h'))]
        exact ⟨_, _, rfl⟩
      · refine ⟨_, h, fun _ g => ?_⟩
        obtain ⟨g', x, k, _⟩ := ismPath_spec hrc (src := a.geo) (mic := b.geo) h'' g
          (by intro g ss ms x _ r _; rw [hd]; exact Nat.zero_le _)
        unfold createPath
        dsimp only
        rw [if_neg (by decide), if_neg (by decide), if_neg (by decide), if_pos rfl, if_pos h', k]
        exact ⟨_, _, rfl⟩
  unfold Coll.setupIr
  rw [(calcRirParameters_spec hc).2 fun a ha b hb _ _ => ⟨hpos a ha, hpos b hb⟩]
  obtain ⟨g', c', h⟩ := setupFold_ok' (gen := createPath rc) (c := c) hc.names c.combos (g := g) (p := c.paths) (by
    rintro ⟨s, m⟩ hq
    obtain ⟨hs, hm⟩ := Coll.mem_combos.1 hq
    exact key s hs m hm)
  exact ⟨_, h⟩

omit [Zero R] [One R] in
/-- C41, empty arrays: whatever the path types, `setup_ir` raises as soon as a pair
contains an array without points. -/
theorem C41_empty_arrays {gen : GenFn Pt (IrMat R) G} {c : Coll Pt (IrMat R)} (hc : c.Consistent)
    {a b : Arr Pt} (ha : a ∈ c.arrays) (hb : b ∈ c.arrays) (hak : a.kind = some .free ∨ a.kind = some .ctrl)
    (hbk : b.kind = some .mic) (h0 : a.pos = [] ∨ b.pos = []) (g : G) :
    c.setupIr gen g = .error .value := by
  unfold Coll.setupIr
  rw [(calcRirParameters_spec hc).1 ⟨a, ha, b, hb, hak, hbk, h0⟩]

omit [One R] in
/-- C45. Whatever the numbers of sources and microphones, the image-source path
holds for every pair the response simulated for it (`simulated`: microphone `t`
is receiver `t % 500` of batch `t / 500`), truncated or zero-padded to `irLen`.
`minDly` is 0 in the program; in general the first `minDly` samples are left
out. -/
theorem C45_complete {c : RirCfg R Pt G} (hc : c.Lawful) {src mic : Geo Pt} (ho : mic.omni = true) (g : G)
    (hd : ∀ g ss ms, ∀ x ∈ (c.roomRir g ss ms).2, ∀ r ∈ x, c.minDly ≤ min r.length c.irLen) :
    ∃ g' h, ismPath c g src mic = .ok (g', h) ∧ h.numIn = src.pos.length ∧ h.numOut = mic.pos.length ∧
      ∀ i < src.pos.length, ∀ j < mic.pos.length,
        (micBatch mic.pos (j / 500))[j % 500]? = mic.pos[j]? ∧ ∃ r,
        c.simulated g src.pos mic.pos i j = some r ∧ Fitted c.minDly c.irLen r (h.ir i j) := by
  obtain ⟨g', h, h1, h2, h3, h4⟩ := ismPath_spec hc (src := src) ho g hd
  refine ⟨g', h, h1, h2, h3, fun i hi j hj => ⟨?_, h4 i hi j hj⟩⟩
  unfold micBatch
  rw [List.getElem?_take_of_lt (Nat.mod_lt _ (by decide)), List.getElem?_drop]
  congr 1
  omega

omit [One R] in
/-- C45 for a simulation package whose responses depend only on the two positions:
every pair gets its response, as without batches. -/
theorem C45_pointwise {c : RirCfg R Pt G} (hc : c.Lawful) {resp : Pt → Pt → List R}
    (hr : ∀ g ss ms, (c.roomRir g ss ms).2 = ms.map fun m => ss.map fun s => resp s m)
    (hd : c.minDly = 0) {src mic : Geo Pt} (ho : mic.omni = true) (g : G) :
    ∃ g' h, ismPath c g src mic = .ok (g', h) ∧ h.numIn = src.pos.length ∧ h.numOut = mic.pos.length ∧
      ∀ (i j : Nat) s m, src.pos[i]? = some s → mic.pos[j]? = some m → Fitted 0 c.irLen (resp s m) (h.ir i j) := by
  obtain ⟨g', h, h1, h2, h3, h4⟩ := C45_complete hc (src := src) ho g
    (by intro g ss ms x _ r _; rw [hd]; exact Nat.zero_le _)
  refine ⟨g', h, h1, h2, h3, fun i j s m hs hm => ?_⟩
  obtain ⟨hi, _⟩ := List.getElem?_eq_some_iff.1 hs
  obtain ⟨hj, _⟩ := List.getElem?_eq_some_iff.1 hm
  obtain ⟨k1, r, k2, k3⟩ := h4 i hi j hj
  rw [hd] at k3
  unfold RirCfg.simulated at k2
  rw [hr, List.getElem?_map, k1, hm] at k2
  simp only [Option.map_some, Option.bind_some, List.getElem?_map, hs] at k2
  rw [← Option.some.inj k2] at k3
  exact k3

end
end

/-! ### C14 -/

section
variable {R S P V Pt G : Type} [Field R] [DecidableEq R]
  {cfg : SimCfg R (IrMat R) (Fir R) S (G × Coll Pt (IrMat R)) P (DData R P V) (DOut R V)} {lp : ProcView R P}
  {srcs : String → S} {proc : P} {f0 : Fir R} {ds0 : List (Diag (DData R P V))}
  {st0 st : SimSt R (Fir R) S (G × Coll Pt (IrMat R)) P (DData R P V) (DOut R V)} {k : Nat}

/-- C14. A simulation with an array collection: the microphone sample generated in
step `n` (time index `n + 1`) is the convolution of the source signals with, for
pairs with a moving array, the impulse responses generated from the positions at
the last update step `u ≤ n`, `u` a multiple of `array_update_freq`, and for all
other pairs the initial responses. -/
theorem C14_moving_arrays {c0 : Coll Pt (IrMat R)} {g0 : G} {gen : GenFn Pt (IrMat R) G}
    (h : Started cfg lp srcs (g0, c0) proc f0 ds0 st0) (hk : cfg.steps k st0 = .ok st)
    (hfilt : cfg.filt = firOps R) (hc : c0.Consistent) (harr : cfg.arrays = c0.infos)
    (hupd : cfg.arrUpdate = Coll.update gen) (hpath : cfg.arrPath = Coll.path)
    (hpos : ∀ a ∈ c0.arrays, 0 < a.num) (hsz : ∀ a ∈ c0.arrays, a.Sized) (hfit : c0.PathsFit)
    (hgen : ∀ g a b t g' x, gen g a b t = .ok (g', x) → a.pos.length = a.num → b.pos.length = b.num →
      x.numIn = a.num ∧ x.numOut = b.num)
    {m : Arr Pt} (hm : m ∈ c0.arrays) (hmic : m.kind = some .mic)
    (hkeep : ∀ p, cfg.proc = some p → p.Keeps m.name) :
    ∃ u : String → Nat → Int → R,
      (∀ s ∈ c0.arrays, s.kind ≠ some .mic → ∀ i < s.num, ∀ t ≤ (k : Int),
        cfg.Emitted st0 s.name i t (u s.name i t)) ∧
      ∀ t ≤ k, ∃ ir : String → IrMat R,
        (∀ s ∈ c0.arrays, s.kind ≠ some .mic →
          if (s.dynamic = true ∨ m.dynamic = true) ∧ 1 ≤ t then
            GeneratedAt gen c0 s.name m.name (c0.freq * ((t - 1) / c0.freq)) (ir s.name)
          else c0.paths s.name m.name = some (ir s.name)) ∧
        ∀ c < m.num, cfg.Produced st0 m.name c t
          (convSum (cfg.arrays.filter fun s => s.kind != .mic) ir u c t) := by
  have hafter : ∀ n, cfg.arrAfter (g0, c0) n = Coll.after gen (g0, c0) n := by
    intro n
    induction n with
    | zero => rfl
    | succ n ih =>
      unfold SimCfg.arrAfter Coll.after
      rw [ih, hupd]
      cases Coll.after gen (g0, c0) n <;> rfl
  have hinfo : ∀ a ∈ c0.arrays, ∃ k, a.kind = some k ∧ ⟨a.name, a.num, k, a.dynamic⟩ ∈ cfg.arrays := by
    intro a ha
    rcases hka : a.kind with _ | k
    · exact absurd hka (hc.kinds a ha)
    · refine ⟨k, rfl, ?_⟩
      rw [harr]
      unfold Coll.infos
      exact List.mem_filterMap.2 ⟨a, ha, by rw [hka]; rfl⟩
  have hinfo' : ∀ x ∈ cfg.arrays, ∃ a ∈ c0.arrays, a.kind = some x.kind ∧ a.name = x.name ∧ a.num = x.num ∧
      a.dynamic = x.dynamic := by
    intro x hx
    rw [harr] at hx
    unfold Coll.infos at hx
    obtain ⟨a, ha, he⟩ := List.mem_filterMap.1 hx
    rcases hka : a.kind with _ | k
    · rw [hka] at he; cases he
    · rw [hka] at he
      cases he
      exact ⟨a, ha, hka, rfl, rfl, rfl⟩
  have hget : ∀ {gc : G × Coll Pt (IrMat R)} {s m x}, cfg.arrPath gc s m = .ok x → gc.2.paths s m = some x := by
    intro gc s m x hx
    rw [hpath] at hx
    unfold Coll.path at hx
    split at hx
    · cases hx
    · rename_i y hy
      cases hx
      exact hy
  have hmoving : ∀ s ∈ c0.arrays, (s.dynamic = true ∨ m.dynamic = true) ↔ c0.Moving s.name m.name := by
    intro s hs
    constructor
    · rintro (hd | hd)
      · exact ⟨s, hs, hd, .inl rfl⟩
      · exact ⟨m, hm, hd, .inr rfl⟩
    · rintro ⟨x, hx, hd, hn | hn⟩
      · rw [hc.inj hx hs hn] at hd; exact .inl hd
      · rw [hc.inj hx hm hn] at hd; exact .inr hd
  obtain ⟨km, hkm, hmi⟩ := hinfo m hm
  rw [hmic] at hkm
  cases hkm
  obtain ⟨u, h1, h2⟩ := C14_filtering h hk hfilt
    (by intro x hx
        obtain ⟨a, ha, _, _, hn, _⟩ := hinfo' x hx
        rw [← hn]
        exact hpos a ha)
    (coll_shape hc hsz hfit hgen hafter hinfo' hget) hmi rfl hkeep
  refine ⟨u, ?_, ?_⟩
  · intro s hs hsk i hi t ht
    obtain ⟨ks, hks, hsi⟩ := hinfo s hs
    exact h1 _ hsi (by rintro rfl; exact hsk hks) i hi t ht
  · intro t ht
    obtain ⟨ir, g1, g2⟩ := h2 t ht
    refine ⟨ir, ?_, g2⟩
    intro s hs hsk
    obtain ⟨ks, hks, hsi⟩ := hinfo s hs
    have hir := g1 _ hsi (by rintro rfl; exact hsk hks)
    have hss : s.name ∈ c0.srcs := hc.mem_srcs.2 ⟨s, hs, by rw [hks]; cases ks <;> simp_all, rfl⟩
    have hmm : m.name ∈ c0.mics := hc.mem_mics.2 ⟨m, hm, hmic, rfl⟩
    cases t with
    | zero =>
      rw [if_neg (by omega)]
      exact hget hir
    | succ n =>
      dsimp only [SimCfg.IrAt] at hir
      split at hir
      · rename_i hd
        rw [if_pos ⟨hd, by omega⟩]
        obtain ⟨gc, q1, q2⟩ := hir
        rw [hafter] at q1
        have hinv := after_spec hc (n + 1) (g' := gc.1) (c' := gc.2) q1
        obtain ⟨x, hx1, hx2⟩ := hinv.gen s.name m.name hss hmm ((hmoving s hs).1 hd) (by omega)
        have := hget q2
        rw [hx1] at this
        rw [← Option.some.inj this]
        exact hx2
      · rename_i hd
        rw [if_neg fun hh => hd hh.1]
        exact hget hir

end

/-! ### Concrete cases -/

/-- A one-dimensional room for the examples: the response from `s` to `m` is
`[m - s, 1]`, the state counts the simulations. -/
def lineRoom : RirCfg ℚ ℚ Nat where
  irLen := 2
  dims := 3
  highpass := false
  pad := 1
  minDly := 0
  normal := fun g _ _ _ => (g + 1, fun _ _ _ => 0)
  roomRir := fun g ss ms => (g + 1, ms.map fun m => ss.map fun s => [m - s, 1])
  sos := id

theorem lineRoom_lawful : lineRoom.Lawful :=
  ⟨fun g ss ms => by simp [lineRoom], fun g ss ms x hx => by
    obtain ⟨m, _, rfl⟩ := List.mem_map.1 hx
    simp, fun _ => rfl, by decide⟩

/-- Two microphones at 3 and 5, and a source that is at `u` at time `u`. -/
def lineArrays : List (Arr ℚ) :=
  [⟨"mic", some .mic, 2, [3, 5], none, 1, none, true, []⟩,
   ⟨"src", some .free, 1, [0], none, 1, some fun u => [(u : ℚ)], true, []⟩]

def lineColl (freq : Nat) : Coll ℚ (IrMat ℚ) := (Coll.empty freq).addAll lineArrays

example : (lineColl 2).mics = ["mic"] ∧ (lineColl 2).srcs = ["src"] ∧ (lineColl 2).frees = ["src"] ∧
    (lineColl 2).arrays.map Arr.name = ["mic", "src"] := by
  decide

theorem lineColl_consistent (freq : Nat) : (lineColl freq).Consistent :=
  (Coll.addAll_spec lineArrays (Coll.empty_consistent freq) (by simp [lineArrays])).1

theorem lineColl_arrays (freq : Nat) : (lineColl freq).arrays = lineArrays := rfl

theorem line_initial (freq : Nat) : ∀ a ∈ (lineColl freq).arrays, a.Initial := by
  rw [lineColl_arrays]
  intro a ha f hf
  simp only [lineArrays, List.mem_cons, List.not_mem_nil, or_false] at ha
  rcases ha with rfl | rfl
  · cases hf
  · cases hf; rfl

theorem line_sized (freq : Nat) : ∀ a ∈ (lineColl freq).arrays, a.Sized := by
  rw [lineColl_arrays]
  intro a ha u
  simp only [lineArrays, List.mem_cons, List.not_mem_nil, or_false] at ha
  rcases ha with rfl | rfl <;> rfl

/-- The collection after the creation of a simulator with default type "ism". -/
def lineSetup (freq : Nat) : Except PyErr (Nat × Coll ℚ (IrMat ℚ)) :=
  ((lineColl freq).setDefault "ism").setupIr (createPath lineRoom) 0

example : ∃ gc', lineSetup 2 = .ok gc' := by
  refine C41_setup_succeeds lineRoom_lawful rfl ?_ ?_ ?_ 0
  · obtain ⟨⟨ty, h⟩, _⟩ := setDefault_spec "ism" (lineColl 2)
    rw [h]
    have := lineColl_consistent 2
    exact ⟨this.names, this.kinds, this.mics, this.srcs, this.frees⟩
  · intro a ha b hb hak hbk
    have ha' : a ∈ lineArrays := ha
    have hb' : b ∈ lineArrays := hb
    simp only [lineArrays, List.mem_cons, List.not_mem_nil, or_false] at ha' hb'
    rcases ha' with rfl | rfl
    · simp at hak
    · rcases hb' with rfl | rfl
      · exact .inr (.inr (.inr (.inr ⟨by decide, rfl, rfl⟩)))
      · simp at hbk
  · intro a ha
    have ha' : a ∈ lineArrays := ha
    simp only [lineArrays, List.mem_cons, List.not_mem_nil, or_false] at ha'
    rcases ha' with rfl | rfl <;> simp

/-- A microphone array without points next to a source. -/
example (g : Nat) : ((Coll.empty 1 : Coll ℚ (IrMat ℚ)).addAll
    [⟨"src", some .free, 1, [0], none, 1, none, true, []⟩,
     ⟨"mic", some .mic, 0, [], none, 1, none, true, []⟩]).setupIr (createPath lineRoom) g = .error .value :=
  C41_empty_arrays (Coll.addAll_spec _ (Coll.empty_consistent 1) (by simp)).1
    (a := ⟨"src", some .free, 1, [0], none, 1, none, true, []⟩)
    (b := ⟨"mic", some .mic, 0, [], none, 1, none, true, []⟩) List.mem_cons_self
    (List.mem_cons_of_mem _ List.mem_cons_self) (.inl rfl) rfl (.inr rfl) g

/-- Reading an entry of an outcome. -/
def entryOf (r : Except PyErr (Nat × Coll ℚ (IrMat ℚ))) (s m : String) : Option (Nat × Nat × List (List ℚ)) :=
  match r with
  | .error _ => none
  | .ok gc => (gc.2.paths s m).map fun x => (x.numIn, x.numOut,
      (List.range x.numIn).flatMap fun i => (List.range x.numOut).map fun j => x.ir i j)

/-- The initial responses, and those after the updates of the iterations 0 and 1
and 0 to 2 with `array_update_freq = 2`: the source is at 0, at 0, and at 2. -/
example : entryOf (lineSetup 2) "src" "mic" = some (1, 2, [[3, 1], [5, 1]]) ∧
    entryOf ((lineSetup 2).bind fun gc => Coll.after (createPath lineRoom) gc 2) "src" "mic" =
      some (1, 2, [[3, 1], [5, 1]]) ∧
    entryOf ((lineSetup 2).bind fun gc => Coll.after (createPath lineRoom) gc 3) "src" "mic" =
      some (1, 2, [[1, 1], [3, 1]]) := by
  decide +kernel

/-- A path given by the user, one of the wrong shape, and a type. -/
def lineOps : List (PathOp ℚ) :=
  [.path ⟨1, 2, fun _ _ => [7]⟩ "src" "mic", .path ⟨1, 1, fun _ _ => [8]⟩ "src" "mic", .type "src" "mic" "random"]

example : entryOf (((lineOps.foldl Coll.op (lineColl 2)).setDefault "ism").setupIr (createPath lineRoom) 0)
    "src" "mic" = some (1, 2, [[7], [7]]) := by
  decide +kernel

/-- The hypotheses of `C40_user_paths` hold for it, with and without the path. -/
example (gen : GenFn ℚ (IrMat ℚ) Nat) {g' : Nat} {c' : Coll ℚ (IrMat ℚ)}
    (h : ((lineOps.foldl Coll.op (lineColl 2)).setDefault "ism").setupIr gen 0 = .ok (g', c')) :
    c'.types "src" "mic" = some "modified" := by
  have := C40_user_paths (lineColl_consistent 2) (line_initial 2) lineOps "ism" h
    (a := ⟨"src", some .free, 1, [0], none, 1, some fun u => [(u : ℚ)], true, []⟩)
    (b := ⟨"mic", some .mic, 2, [3, 5], none, 1, none, true, []⟩)
    (by rw [lineColl_arrays]; simp [lineArrays]) (by rw [lineColl_arrays]; simp [lineArrays])
    (.inl rfl) rfl rfl rfl (by decide) (by decide)
  exact this.2

example (gen : GenFn ℚ (IrMat ℚ) Nat) {g' : Nat} {c' : Coll ℚ (IrMat ℚ)}
    (h : (((lineOps.drop 2).foldl Coll.op (lineColl 2)).setDefault "ism").setupIr gen 0 = .ok (g', c')) :
    c'.types "src" "mic" = some "random" := by
  have := C40_user_paths (lineColl_consistent 2) (line_initial 2) (lineOps.drop 2) "ism" h
    (a := ⟨"src", some .free, 1, [0], none, 1, some fun u => [(u : ℚ)], true, []⟩)
    (b := ⟨"mic", some .mic, 2, [3, 5], none, 1, none, true, []⟩)
    (by rw [lineColl_arrays]; simp [lineArrays]) (by rw [lineColl_arrays]; simp [lineArrays])
    (.inl rfl) rfl rfl rfl (by decide) (by decide)
  obtain ⟨ty, h1, h2, _⟩ := this
  rw [h2, h1]
  rfl

theorem setEntries_spec {Pt R : Type} : ∀ (l : List (String × String × IrMat R)) (c : Coll Pt (IrMat R)),
    ∃ k ≤ l.length, (Coll.setEntries l c).1 =
        ((l.take k).map fun e => PathOp.path e.2.2 e.1 e.2.1).foldl Coll.op c ∧
      ((Coll.setEntries l c).2 = none → k = l.length) ∧
      ∀ x, (Coll.setEntries l c).2 = some x → ∃ e, l[k]? = some e ∧
        (Coll.setEntries l c).1.setPropPath e.2.2 e.1 e.2.1 = .error x
  | [], c => ⟨0, Nat.le_refl _, rfl, fun _ => rfl, fun x h => by cases h⟩
  | e :: l, c => by
    unfold Coll.setEntries
    cases he : c.setPropPath e.2.2 e.1 e.2.1 with
    | error x =>
      refine ⟨0, Nat.zero_le _, rfl, fun h => (by cases h), fun y h => ⟨e, rfl, ?_⟩⟩
      cases h
      exact he
    | ok c1 =>
      obtain ⟨k, h1, h2, h3, h4⟩ := setEntries_spec l c1
      refine ⟨k + 1, Nat.succ_le_succ h1, ?_, fun h => congrArg Nat.succ (h3 h), h4⟩
      rw [List.take_succ_cons, List.map_cons, List.foldl_cons]
      have : c.op (PathOp.path e.2.2 e.1 e.2.1) = c1 := by
        show (c.setPropPath e.2.2 e.1 e.2.1).toOption.getD c = c1
        rw [he]
        rfl
      rw [this]
      exact h2

/-- C40, `set_prop_paths`: what the call does is what single calls of `set_prop_path` for the entries of
the dictionary do, in their order and up to the first entry that is refused; without an exception, for
all entries. -/
theorem C40_paths {Pt R : Type} (c : Coll Pt (IrMat R)) (paths : List (String × List (String × IrMat R))) :
    let entries := paths.flatMap fun p => p.2.map fun q => (p.1, q.1, q.2)
    let r := c.setPropPaths paths
    ∃ k ≤ entries.length, r.1 = ((entries.take k).map fun e => PathOp.path e.2.2 e.1 e.2.1).foldl Coll.op c ∧
      (r.2 = none → k = entries.length) ∧
      ∀ x, r.2 = some x → ∃ e, entries[k]? = some e ∧ r.1.setPropPath e.2.2 e.1 e.2.1 = .error x :=
  setEntries_spec _ c

/-- Two entries, of which the second is of the wrong shape. -/
example : ((lineColl 1).setPropPaths [("src", [("mic", ⟨1, 2, fun _ _ => [(7 : ℚ)]⟩), ("mic", ⟨1, 1, fun _ _ => [8]⟩)])]).2 =
      some .assertion ∧
    (((lineColl 1).setPropPaths [("src", [("mic", ⟨1, 2, fun _ _ => [(7 : ℚ)]⟩), ("mic", ⟨1, 1, fun _ _ => [8]⟩)])]).1.paths
      "src" "mic").map (fun h => (h.numOut, h.ir 0 0)) = some (2, [7]) :=
  ⟨rfl, rfl⟩

/-- C43 does not hold: a moving microphone without any source makes the first
update step fail. -/
theorem C43_violated_mic : ∃ (c : Coll ℚ (IrMat ℚ)), c.Consistent ∧ c.freq = 1 ∧
    (∃ a ∈ c.arrays, a.dynamic = true) ∧
    ∀ (gen : GenFn ℚ (IrMat ℚ) Nat) (g : Nat), (c.setDefault "ism").setupIr gen g = .ok (g, c) ∧
      Coll.update gen (g, c) 0 = .error .unbound := by
  refine ⟨(Coll.empty 1).addAll [⟨"mic", some .mic, 1, [0], none, 1, some fun u => [(u : ℚ)], true, []⟩],
    (Coll.addAll_spec _ (Coll.empty_consistent 1) (by simp)).1, rfl, ?_, fun gen g => ⟨rfl, rfl⟩⟩
  exact ⟨_, List.mem_cons_self, rfl⟩

/-- C43 does not hold: a path supplied by the user between a moving source and a
microphone makes the first update step fail. -/
theorem C43_violated_path : ∃ (c c' : Coll ℚ (IrMat ℚ)), c.Consistent ∧ c.freq = 1 ∧ c.srcs = ["src"] ∧
    c.setPropPath ⟨1, 2, fun _ _ => [7]⟩ "src" "mic" = .ok c' ∧
    ∀ (gen : GenFn ℚ (IrMat ℚ) Nat) (g : Nat), ∃ c'', (c'.setDefault "ism").setupIr gen g = .ok (g, c'') ∧
      Coll.update gen (g, c'') 0 = .error .assertion := by
  refine ⟨lineColl 1, _, lineColl_consistent 1, rfl, rfl, rfl, fun gen g => ⟨_, rfl, rfl⟩⟩

/-- The hypotheses of `C42_update` and `C43_update_partial` hold for the line room. -/
example : ∃ (g' : Nat) (c c' : Coll ℚ (IrMat ℚ)), lineSetup 2 = .ok (1, c) ∧ c.Consistent ∧ c.freq ∣ 4 ∧
    Coll.update (createPath lineRoom) (1, c) 4 = .ok (g', c') := by
  refine ⟨_, _, _, rfl, ?_, ⟨2, rfl⟩, rfl⟩
  have := lineColl_consistent 2
  exact ⟨this.names, this.kinds, this.mics, this.srcs, this.frees⟩

/-- Groups of two, none and one microphones. -/
example : (mkArr "mic" (some .mic) true (.groups [[10, 11], [], [12]])).toOption.map (fun a => (a.num, a.pos, a.groups)) =
    some (3, [10, 11, 12], some [[0, 1], [], [2]]) := by
  decide

/-- 501 microphones: the last one is the first of the second batch. -/
example : ∃ g' h, ismPath lineRoom 0 ⟨1, [0], true⟩ ⟨501, (List.range 501).map fun (k : Nat) => (k : ℚ), true⟩ = .ok (g', h) ∧
    h.numOut = 501 ∧ Fitted 0 2 [(500 : ℚ) - 0, 1] (h.ir 0 500) := by
  obtain ⟨g', h, h1, h2, h3, h4⟩ := C45_pointwise lineRoom_lawful (resp := fun s m => [m - s, 1])
    (fun g ss ms => rfl) rfl (src := ⟨1, [0], true⟩)
    (mic := ⟨501, (List.range 501).map fun (k : Nat) => (k : ℚ), true⟩) rfl 0
  refine ⟨g', h, h1, by rw [h3]; simp, ?_⟩
  have := h4 0 500 0 500 rfl (by simp)
  exact this

/-- A simulation with the line room: a moving source and two microphones. -/
def lineCfg : SimCfg ℚ (IrMat ℚ) (Fir ℚ) Nat (Nat × Coll ℚ (IrMat ℚ)) Unit (DData ℚ Unit ℚ) (DOut ℚ ℚ) where
  B := 4
  C := 2
  tot := 6
  warm := false
  contrib := false
  plotNone := false
  arrays := (lineColl 2).infos
  srcGet := fun p n => .ok (p + n, [(List.range n).map fun k => ((p + k + 1 : Nat) : ℚ)])
  filt := firOps ℚ
  arrUpdate := Coll.update (createPath lineRoom)
  arrPath := Coll.path
  proc := none
  diag := diagOps ℚ Unit ℚ

/-- The collection of this simulation after preparation. -/
def lineC0 : Coll ℚ (IrMat ℚ) :=
  match lineSetup 2 with
  | .ok gc => gc.2
  | .error _ => lineColl 2

theorem line_started : ∃ c0 st0 st, lineSetup 2 = .ok (1, c0) ∧ c0.Consistent ∧ c0.arrays = lineArrays ∧
    c0.infos = lineCfg.arrays ∧ c0.freq = 2 ∧ (∃ x, c0.paths "src" "mic" = some x ∧ x.numIn = 1 ∧ x.numOut = 2) ∧
    (∀ s m, ¬ (s = "src" ∧ m = "mic") → c0.paths s m = none) ∧
    Started lineCfg ⟨0, fun p _ => .ok (p, fun _ _ _ => 0)⟩ (fun _ => 0) (1, c0)
    () demoFilt [] st0 ∧ lineCfg.steps 3 st0 = .ok st := by
  have hok : ((lineCfg.init (fun _ => 0) (1, lineC0) () demoFilt []).bind (lineCfg.steps 3)).isOk = true := by
    decide +kernel
  cases hi : lineCfg.init (fun _ => 0) (1, lineC0) () demoFilt [] with
  | error e => rw [hi] at hok; cases hok
  | ok st0 =>
  cases hs : lineCfg.steps 3 st0 with
  | error e => rw [hi] at hok; simp only [Except.bind, hs] at hok; cases hok
  | ok st =>
  refine ⟨lineC0, st0, st, rfl, ?_, rfl, rfl, rfl, ⟨_, rfl, rfl, rfl⟩, ?_,
    ⟨⟨by decide, by decide, by decide, ?_, ?_⟩, rfl, by decide, hi⟩, hs⟩
  · have := lineColl_consistent 2
    exact ⟨this.names, this.kinds, this.mics, this.srcs, this.frees⟩
  · intro s m h
    show set2 _ _ _ _ s m = none
    unfold set2
    rw [if_neg h]
    rfl
  · rintro p ⟨⟩
  · rintro p ⟨⟩

/-- The sample with time index 3 is generated in step 2, an update step: the
response is the one generated with the source at position 2. -/
example : ∃ (st0 : SimSt ℚ (Fir ℚ) Nat (Nat × Coll ℚ (IrMat ℚ)) Unit (DData ℚ Unit ℚ) (DOut ℚ ℚ))
    (u : Int → ℚ), (∀ t ≤ (3 : Int), lineCfg.Emitted st0 "src" 0 t (u t)) ∧
    lineCfg.Produced st0 "mic" 1 3 (((((5 : ℚ) - 2) * u (((3 : Nat) : Int) - (0 : Nat)) + (1 * u (((3 : Nat) : Int) - (1 : Nat)) + 0)) + 0) + 0) := by
  obtain ⟨c0, st0, st, h1, h2, h3, h4, h5, ⟨x0, hx1, hx2, hx3⟩, h7, h8, h9⟩ := line_started
  obtain ⟨u, k1, k2⟩ := C14_moving_arrays (gen := createPath lineRoom) h8 h9 rfl h2 h4.symm rfl rfl
    (by rw [h3]; intro a ha
        simp only [lineArrays, List.mem_cons, List.not_mem_nil, or_false] at ha
        rcases ha with rfl | rfl <;> decide)
    (by rw [h3]; exact line_sized 2)
    (by intro a ha b hb x hx
        by_cases hab : a.name = "src" ∧ b.name = "mic"
        · rw [hab.1, hab.2, hx1] at hx
          cases hx
          rw [h3] at ha hb
          simp only [lineArrays, List.mem_cons, List.not_mem_nil, or_false] at ha hb
          rcases ha with rfl | rfl
          · exact absurd hab.1 (by decide)
          · rcases hb with rfl | rfl
            · exact ⟨hx2, hx3⟩
            · exact absurd hab.2 (by decide)
        · rw [h7 _ _ hab] at hx; cases hx)
    (by intro g a b t g' x hx ha hb
        have := createPath_shaped (fun _ => lineRoom_lawful) ha hb hx
        exact ⟨this.1, this.2.1⟩)
    (m := ⟨"mic", some .mic, 2, [3, 5], none, 1, none, true, []⟩)
    (by rw [h3]; simp [lineArrays]) rfl (by rintro p ⟨⟩)
  have hs : (⟨"src", some .free, 1, [0], none, 1, some fun u => [(u : ℚ)], true, []⟩ : Arr ℚ) ∈ c0.arrays := by
    rw [h3]; simp [lineArrays]
  refine ⟨st0, fun t => u "src" 0 t, fun t ht => k1 _ hs (by decide) 0 (by decide) t ht, ?_⟩
  obtain ⟨ir, g1, g2⟩ := k2 3 (by omega)
  have g3 := g1 _ hs (by decide)
  rw [if_pos ⟨.inl rfl, by omega⟩, h5] at g3
  obtain ⟨a, ha, b, hb, n1, n2, t, g, g', e1, e2⟩ := g3
  have hir : (ir "src").ir 0 1 = [5 - 2, 1] := by
    have hta : c0.types "src" "mic" = some "ism" := by
      have : (lineSetup 2).toOption.bind (fun gc => gc.2.types "src" "mic") = some "ism" := by decide +kernel
      rw [h1] at this
      exact this
    rw [hta] at e1
    cases e1
    rw [h3] at ha hb
    simp only [lineArrays, List.mem_cons, List.not_mem_nil, or_false] at ha hb
    rcases ha with rfl | rfl
    · exact absurd n1 (by decide)
    · rcases hb with rfl | rfl
      · have := congrArg (fun z => z.2.ir 0 1) (Except.ok.inj e2)
        exact this.symm.trans (show [(5 : ℚ) - ((2 : Nat) : ℚ), 1] = [5 - 2, 1] by decide +kernel)
      · exact absurd n2 (by decide)
  have g4 := g2 1 (by decide)
  have e : (lineCfg.arrays.filter fun s => s.kind != .mic) = [⟨"src", 1, .free, true⟩] := by decide
  rw [e] at g4
  unfold convSum at g4
  simp only [List.map_cons, List.map_nil] at g4
  have e2 : List.range 1 = [0] := rfl
  rw [e2] at g4
  simp only [List.map_cons, List.map_nil, hir] at g4
  exact g4

end Verif

/-
C46 to C49, C51 and C78: comparing configurations, saving and loading sessions.
-/
import Verif.Lemmas.Session
import Verif.Model.Rir
import Verif.Props.Files
namespace Verif

/-! ### C51 -/

section
variable {F : Type} [DecidableEq F]

/-- C51, what is compared: the basic audio parameters always, the parameters of
the room if some path type is "ism". -/
theorem C51_equal_audio (i j : SimInfo F) (types : List (List String)) :
    equalAudio i j types = true ↔ i.SameBasics j ∧ ((∃ l ∈ types, "ism" ∈ l) → i.SameRoom j) := by
  unfold equalAudio SimInfo.SameBasics SimInfo.SameRoom
  by_cases h : ∃ l ∈ types, "ism" ∈ l
  · have h' : (types.any fun l => l.contains "ism") = true := by
      obtain ⟨l, h1, h2⟩ := h
      rw [List.any_eq_true]
      exact ⟨l, h1, by simpa using h2⟩
    simp only [h', if_true, Bool.and_eq_true, decide_eq_true_eq, h, forall_const, and_assoc]
  · have h' : ¬ (types.any fun l => l.contains "ism") = true := by
      rw [List.any_eq_true]
      rintro ⟨l, h1, h2⟩
      exact h ⟨l, h1, by simpa using h2⟩
    simp only [h', h, Bool.and_eq_true, decide_eq_true_eq, false_implies, and_true, and_assoc]
    simp [and_assoc]

/-- C51: for every collection of path types the comparison is an equivalence. -/
theorem C51_equivalence (types : List (List String)) :
    Equivalence fun i j : SimInfo F => equalAudio i j types = true := by
  refine ⟨fun i => ?_, fun {i j} h => ?_, fun {i j k} h1 h2 => ?_⟩
  · rw [C51_equal_audio]
    exact ⟨⟨rfl, rfl, rfl, rfl⟩, fun _ => ⟨rfl, rfl, rfl, rfl, rfl, rfl, rfl⟩⟩
  · rw [C51_equal_audio] at h ⊢
    obtain ⟨⟨a1, a2, a3, a4⟩, hr⟩ := h
    refine ⟨⟨a1.symm, a2.symm, a3.symm, a4.symm⟩, fun hi => ?_⟩
    obtain ⟨b1, b2, b3, b4, b5, b6, b7⟩ := hr hi
    exact ⟨b1.symm, b2.symm, b3.symm, b4.symm, b5.symm, b6.symm, b7.symm⟩
  · rw [C51_equal_audio] at h1 h2 ⊢
    obtain ⟨⟨a1, a2, a3, a4⟩, hr⟩ := h1
    obtain ⟨⟨c1, c2, c3, c4⟩, hr'⟩ := h2
    refine ⟨⟨a1.trans c1, a2.trans c2, a3.trans c3, a4.trans c4⟩, fun hi => ?_⟩
    obtain ⟨b1, b2, b3, b4, b5, b6, b7⟩ := hr hi
    obtain ⟨d1, d2, d3, d4, d5, d6, d7⟩ := hr' hi
    exact ⟨b1.trans d1, b2.trans d2, b3.trans d3, b4.trans d4, b5.trans d5, b6.trans d6, b7.trans d7⟩

/-- C51: changing only bookkeeping parameters changes no comparison. -/
theorem C51_bookkeeping {i i' j j' : SimInfo F} (hi : i.SameAudio i') (hj : j.SameAudio j')
    (types : List (List String)) : equalAudio i j types = equalAudio i' j' types := by
  obtain ⟨⟨a1, a2, a3, a4⟩, b1, b2, b3, b4, b5, b6, b7⟩ := hi
  obtain ⟨⟨c1, c2, c3, c4⟩, d1, d2, d3, d4, d5, d6, d7⟩ := hj
  unfold equalAudio
  rw [a1, a2, a3, a4, b1, b2, b3, b4, b5, b6, b7, c1, c2, c3, c4, d1, d2, d3, d4, d5, d6, d7]

end

section
variable {F S G : Type} [Field F] [LinearOrder F]

/-! ### C46 -/

/-- Whether some pair of the collection is simulated as a room. -/
def Coll.UsesIsm {Pt H : Type} (c : Coll Pt H) : Prop := ∃ s ∈ c.srcs, ∃ m ∈ c.mics, c.types s m = some "ism"

omit [Field F] [LinearOrder F] in
theorem typeValues_ism {c : Coll (List F) (IrMat F)} : (∃ l ∈ c.typeValues, "ism" ∈ l) ↔ c.UsesIsm := by
  unfold Coll.typeValues Coll.UsesIsm
  constructor
  · rintro ⟨l, hl, h⟩
    obtain ⟨s, hs, rfl⟩ := List.mem_map.1 hl
    obtain ⟨m, hm, h⟩ := List.mem_filterMap.1 h
    exact ⟨s, hs, m, hm, h⟩
  · rintro ⟨s, hs, m, hm, h⟩
    exact ⟨_, List.mem_map.2 ⟨s, hs, rfl⟩, List.mem_filterMap.2 ⟨m, hm, h⟩⟩

/-- C46, partial: a simulator created with a folder of sessions has, before the
first and after any number of update steps, the impulse responses and the free
sources of a simulator created without it, provided that
* responses depend only on the audio parameters, not on random numbers or global
  constants,
* the sessions were written by `create_simulator`,
* every session accepted by the matching test agrees with the setup in what the
  test does not compare: exact positions and user paths, directivity,
  trajectories, the update frequency, and without room simulation the
  parameters of the room.
Missing: these agreements, see `C46_violated_*`. -/
theorem C46_loaded_partial {sys : GenSys F G} (hpure : sys.Pure) (haudio : sys.Audio) {info : SimInfo F}
    {c : Coll (List F) (IrMat F)} (hc : c.Consistent) (hi : ∀ a ∈ c.arrays, a.Initial)
    {st : Store F S}
    (hst : ∀ nm f, (nm, some f) ∈ st → ∃ i0 b0, f.WrittenFor sys i0 b0 ∧
      (equalAudio info i0 (c.setDefault info.reverb).typeValues = true →
        protoEquals (c.setDefault info.reverb) b0.coll = .ok true →
        Agree (c.setDefault info.reverb) b0.coll ∧ info.updateFreq = i0.updateFreq ∧
        (¬ (c.setDefault info.reverb).UsesIsm → info.SameRoom i0)))
    {source : String → Option S} {time : Name} {g g1 g2 : G} {b1 b2 : Built F S} {st1 st2 : Option (Store F S)}
    (h1 : createArrays sys g info c source (some st) time = .ok (g1, b1, st1))
    (h2 : createArrays sys g info c source none time = .ok (g2, b2, st2)) :
    (∀ nm ∈ c.frees, b1.source nm = b2.source nm) ∧
    ∀ (n : Nat) g1' c1' g2' c2', Coll.after (sys.gen b1.info) (g1, b1.coll) n = .ok (g1', c1') →
      Coll.after (sys.gen b2.info) (g2, b2.coll) n = .ok (g2', c2') →
      ∀ s ∈ c.srcs, ∀ m ∈ c.mics, c1'.paths s m = c2'.paths s m := by
  obtain ⟨p, hp⟩ : ∃ p, p = c.setDefault info.reverb := ⟨_, rfl⟩
  obtain ⟨f1, f2, f3, f4, f5⟩ := c.setDefault_frame info.reverb
  have hcp : p.Consistent := by rw [hp]; exact Coll.setDefault_consistent hc _
  have hip : ∀ a ∈ p.arrays, a.Initial := by rw [hp, f1]; exact hi
  unfold createArrays at h1 h2
  by_cases he : c.arrays.isEmpty
  · rw [if_pos he] at h1; cases h1
  rw [if_neg he] at h1 h2
  dsimp only at h1 h2
  rw [← hp] at h1 h2 hst f1 f2 f3 f4 f5
  -- the computed collection
  have hfresh : ∀ {r : Except PyErr (G × Built F S × Option (Store F S))} {st0 : Option (Store F S)},
      (match setupArrays sys g info p source with
        | .error x => .error x
        | .ok (g, b) => .ok (g, b, st0)) = r → r = .ok (g2, b2, st2) →
      setupArrays sys g info p source = .ok (g2, b2) := by
    intro r st0 hr hr2
    rw [← hr] at hr2
    cases h3 : setupArrays sys g info p source with
    | error x => rw [h3] at hr2; cases hr2
    | ok y =>
      obtain ⟨gy, b_y⟩ := y
      rw [h3] at hr2
      have := Except.ok.inj hr2
      simp only [Prod.mk.injEq] at this
      obtain ⟨rfl, rfl, _⟩ := this
      rfl
  have h2' : setupArrays sys g info p source = .ok (g2, b2) := by
    cases hauto : info.autoSaveLoad <;> rw [hauto] at h2 <;> exact hfresh rfl h2
  obtain ⟨hb2, hsrc2⟩ := setupArrays_spec hcp hip h2'
  have hsame : g1 = g2 → b1 = b2 → (∀ nm ∈ c.frees, b1.source nm = b2.source nm) ∧
    ∀ (n : Nat) g1' c1' g2' c2', Coll.after (sys.gen b1.info) (g1, b1.coll) n = .ok (g1', c1') →
      Coll.after (sys.gen b2.info) (g2, b2.coll) n = .ok (g2', c2') →
      ∀ s ∈ c.srcs, ∀ m ∈ c.mics, c1'.paths s m = c2'.paths s m := by
    rintro rfl rfl
    refine ⟨fun _ _ => rfl, ?_⟩
    intro n g1' c1' g2' c2' k1 k2 s _ m _
    rw [k1] at k2
    obtain ⟨_, rfl⟩ := Prod.mk.inj (Except.ok.inj k2)
    rfl
  cases hauto : info.autoSaveLoad with
  | false =>
    rw [hauto] at h1
    dsimp only at h1
    rw [h2'] at h1
    have := Except.ok.inj h1
    simp only [Prod.mk.injEq] at this
    exact hsame this.1.symm this.2.1.symm
  | true =>
    rw [hauto] at h1
    dsimp only at h1
    cases hl : loadSession info p source st with
    | error x => rw [hl] at h1; cases h1
    | ok r =>
      rw [hl] at h1
      cases r with
      | none =>
        dsimp only at h1
        rw [h2'] at h1
        dsimp only at h1
        split at h1
        · cases h1
        · have := Except.ok.inj h1
          simp only [Prod.mk.injEq] at this
          exact hsame this.1.symm this.2.1.symm
      | some b =>
        dsimp only at h1
        have := Except.ok.inj h1
        simp only [Prod.mk.injEq] at this
        obtain ⟨rfl, rfl, _⟩ := this
        obtain ⟨nm, f, b0, k1, ⟨i', b', q1, q2, q3, q4⟩, k3, k4, k5, k6⟩ := loadSession_spec hl
        rw [k3] at q2
        cases Except.ok.inj q2
        obtain ⟨i0, b0', ⟨w1, w2, ga, gb, c0, src0, w3, w4, w5⟩, hag⟩ := hst nm f k1
        have e1 : b0 = b0' := by
          unfold Folder.loadArrays at k3
          rw [w2] at k3
          exact (Except.ok.inj k3).symm
        subst e1
        have e2 : i' = i0 := by
          unfold Folder.loadConfig at q1
          rw [w1] at q1
          simp only [FileC.read] at q1
          unfold SimInfo.postInit at q1
          split_ifs at q1
          exact (Except.ok.inj q1).symm
        subst e2
        obtain ⟨ag, hfreq, hroom⟩ := hag q3 q4
        obtain ⟨hb0, _⟩ := setupArrays_spec (Coll.setDefault_consistent w3 _)
          (by rw [(c0.setDefault_frame i'.reverb).1]; exact w4) w5
        have hsa : info.SameAudio i' := by
          rw [C51_equal_audio] at q3
          refine ⟨q3.1, ?_⟩
          by_cases hu : p.UsesIsm
          · exact q3.2 (typeValues_ism.2 hu)
          · exact hroom hu
        refine ⟨fun x hx => ?_, ?_⟩
        · rw [k6 x, if_pos (by rw [f4]; exact hx), hsrc2]
        · intro n g1' c1' g2' c2' r1 r2 s hs m hm
          rw [k4, k5] at r1
          exact loaded_eq_fresh hpure hcp hb2 (Coll.setDefault_consistent w3 _) hb0 q4 ag
            (haudio _ _ hsa) hfreq n r2 r1 (by rw [f2]; exact hs) (by rw [f3]; exact hm)

/-! ### C47, C78 -/

/-- The setups meant by C47 and C78: arrays with as many points as their number
says, and no path declared "modified" without being given. -/
structure Coll.Proper (c : Coll (List F) (IrMat F)) : Prop where
  con : c.Consistent
  init : ∀ a ∈ c.arrays, a.Initial
  num : ∀ a ∈ c.arrays, a.num = a.pos.length
  given : ∀ s ∈ c.srcs, ∀ m ∈ c.mics, c.types s m = some "modified" → (c.paths s m).isSome

omit [Field F] [LinearOrder F] in
theorem setDefault_given {c : Coll (List F) (IrMat F)} (h : c.Proper) {r : String} (hr : r ≠ "modified")
    {s m : String} (hs : s ∈ c.srcs) (hm : m ∈ c.mics) : ∃ t, (c.setDefault r).types s m = some t ∧
      (t = "modified" → ((c.setDefault r).paths s m).isSome) := by
  rw [(setDefault_spec r c).2 s hs m hm, (c.setDefault_frame r).2.2.2.2]
  by_cases hp : (c.paths s m).isSome
  · rw [if_pos hp]; exact ⟨_, rfl, fun _ => hp⟩
  · rw [if_neg hp]
    refine ⟨_, rfl, fun ht => ?_⟩
    cases hty : c.types s m with
    | none => rw [hty] at ht; exact absurd ht hr
    | some t =>
      rw [hty] at ht
      have ht' : t = "modified" := ht
      exact h.given s hs m hm (by rw [hty, ht'])

/-- The default type is one of the types of a readable configuration. -/
def SimInfo.Valid (i : SimInfo F) : Prop :=
  i.roomSize.length = i.dims ∧ i.roomCenter.length = i.dims ∧
    (i.reverb = "none" ∨ i.reverb = "direct" ∨ i.reverb = "ism")

omit [Field F] [LinearOrder F] in
theorem SimInfo.Valid.post {i : SimInfo F} (h : i.Valid) : i.postInit = .ok i := by
  unfold SimInfo.postInit
  rw [if_neg (not_not.2 h.1), if_neg (not_not.2 h.2.1), if_neg (not_not.2 h.2.2)]

theorem holds_readable {info : SimInfo F} {c : Coll (List F) (IrMat F)} (hc : c.Proper)
    (hr : info.reverb ≠ "modified") {f : Folder F S} {i : SimInfo F} {b : Built F S} (h : f.Holds i b)
    (hcmp : Comparable (c.setDefault info.reverb) b.coll) :
    Readable info (c.setDefault info.reverb) f := by
  obtain ⟨f1, f2, f3, f4, f5⟩ := c.setDefault_frame info.reverb
  refine ⟨i, b, ?_, ?_, fun _ => ?_⟩
  · unfold Folder.loadConfig
    rw [h.config]
    exact h.valid
  · unfold Folder.loadArrays
    rw [h.arrays]
    rfl
  · refine protoEquals_ok (Coll.setDefault_consistent hc.con _) h.con hcmp ?_ h.full
    intro s hs m hm
    exact setDefault_given hc hr (by rw [← f2]; exact hs) (by rw [← f3]; exact hm)

/-- C47, partial: if a session of a setup is in the folder, then whatever other
complete sessions are there and in whatever order they are listed, the search with
that setup returns a session that passes the test.  Missing: stored paths of
another length than the user's (`C47_violated_length`), and configurations that
`load_from_file` rejects (`C47_violated_random`). -/
theorem C47_found_partial [IsStrictOrderedRing F] {sys : GenSys F G} {g g' : G} {info : SimInfo F}
    (hv : info.Valid) {c : Coll (List F) (IrMat F)} (hc : c.Proper) {source : String → Option S} {b : Built F S}
    (hb : setupArrays sys g info (c.setDefault info.reverb) source = .ok (g', b))
    {st : Store F S} {nm : Name} {md : Bool} (hmem : (nm, some ⟨.full info, .full b, md⟩) ∈ st)
    (hst : ∀ nm f, (nm, some f) ∈ st → ∃ i b', f.Holds i b' ∧ Comparable (c.setDefault info.reverb) b'.coll) :
    ∃ nm' f i b', searchSession info (c.setDefault info.reverb) st = .ok (some (nm', f)) ∧
      (nm', some f) ∈ st ∧ f.config = .full i ∧ f.arrays = .full b' ∧
      equalAudio info i (c.setDefault info.reverb).typeValues = true ∧
      protoEquals (c.setDefault info.reverb) b'.coll = .ok true := by
  have hr : info.reverb ≠ "modified" := by
    intro h
    rcases hv.2.2 with h' | h' | h' <;> rw [h'] at h <;> revert h <;> decide
  obtain ⟨f1, f2, f3, f4, f5⟩ := c.setDefault_frame info.reverb
  obtain ⟨hset, _⟩ := setupArrays_spec (Coll.setDefault_consistent hc.con _) (by rw [f1]; exact hc.init) hb
  have hself : protoEquals (c.setDefault info.reverb) b.coll = .ok true := by
    refine protoEquals_self (Coll.setDefault_consistent hc.con _) hset (by rw [f1]; exact hc.num) ?_
    intro s hs m hm ht
    obtain ⟨t, h1, h2⟩ := setDefault_given hc hr (by rw [← f2]; exact hs) (by rw [← f3]; exact hm)
    rw [h1] at ht
    exact h2 (Option.some.inj ht)
  obtain ⟨r, h1, h2⟩ := searchSession_ok (info := info) (c := c.setDefault info.reverb) (st := st) (by
    intro nm f hm
    obtain ⟨i, b', h, hcmp⟩ := hst nm f hm
    exact holds_readable hc hr h hcmp)
  cases r with
  | none =>
    refine absurd ⟨info, b, ?_, rfl, equalAudio_refl _ _, hself⟩ (h2 rfl _ _ hmem)
    exact hv.post
  | some p =>
    obtain ⟨nm', f⟩ := p
    obtain ⟨k1, i, b', q1, q2, q3, q4⟩ := searchSession_found h1
    obtain ⟨i0, b0, hh, _⟩ := hst nm' f k1
    unfold Folder.loadConfig at q1
    rw [hh.config] at q1
    simp only [FileC.read] at q1
    rw [hh.valid] at q1
    unfold Folder.loadArrays at q2
    rw [hh.arrays] at q2
    cases Except.ok.inj q1
    cases Except.ok.inj q2
    exact ⟨nm', f, i, b', h1, k1, hh.config, hh.arrays, q3, q4⟩

/-- C78, partial: with complete sessions of comparable shapes in the folder,
`create_simulator` succeeds whenever it succeeds without the folder.  Missing: the
comparability of shapes (`C78_violated_length`) and configurations that
`load_from_file` rejects (`C78_violated_random`). -/
theorem C78_create_partial {sys : GenSys F G} {g : G} {info : SimInfo F} (hr : info.reverb ≠ "modified")
    {c : Coll (List F) (IrMat F)} (hc : c.Proper) {source : String → Option S} {st : Store F S} {time : Name}
    (hst : ∀ nm f, (nm, some f) ∈ st → ∃ i b', f.Holds i b' ∧ Comparable (c.setDefault info.reverb) b'.coll)
    {r} (h : createArrays sys g info c source none time = .ok r) :
    ∃ r', createArrays sys g info c source (some st) time = .ok r' := by
  obtain ⟨f1, f2, f3, f4, f5⟩ := c.setDefault_frame info.reverb
  unfold createArrays at h ⊢
  by_cases he : c.arrays.isEmpty
  · rw [if_pos he] at h; cases h
  rw [if_neg he] at h ⊢
  dsimp only at h ⊢
  have hs : ∃ y, setupArrays sys g info (c.setDefault info.reverb) source = .ok y := by
    cases hauto : info.autoSaveLoad <;> rw [hauto] at h <;>
      · dsimp only at h
        cases h3 : setupArrays sys g info (c.setDefault info.reverb) source with
        | error x => rw [h3] at h; cases h
        | ok y => exact ⟨y, rfl⟩
  obtain ⟨⟨gy, b_y⟩, hs⟩ := hs
  cases hauto : info.autoSaveLoad with
  | false => dsimp only; rw [hs]; exact ⟨_, rfl⟩
  | true =>
    dsimp only
    obtain ⟨r, h1, h2⟩ := searchSession_ok (info := info) (c := c.setDefault info.reverb) (st := st) (by
      intro nm f hm
      obtain ⟨i, b', h, hcmp⟩ := hst nm f hm
      exact holds_readable hc hr h hcmp)
    unfold loadSession
    rw [h1]
    cases r with
    | none =>
      dsimp only
      rw [hs]
      dsimp only
      unfold saveSession
      obtain ⟨k, hk, _⟩ := C69_unique_folder "session_".toList time (st.map Prod.fst)
      rw [hk (st.length + 1) (by rw [List.length_map]; omega)]
      exact ⟨_, rfl⟩
    | some p =>
      obtain ⟨nm, f⟩ := p
      dsimp only
      obtain ⟨k1, i, b', q1, q2, q3, q4⟩ := searchSession_found h1
      rw [q2]
      dsimp only
      obtain ⟨b'', hb''⟩ := setSources_ok (source := source) (l := (c.setDefault info.reverb).frees) (b := b') (by
        intro x hx
        obtain ⟨⟨hn, _⟩, _, _⟩ := protoEquals_true.1 q4
        obtain ⟨a, ha, _, rfl⟩ := (Coll.setDefault_consistent hc.con info.reverb).mem_frees.1 hx
        rw [Coll.find_isSome]
        obtain ⟨b0, hb0, e⟩ := List.mem_map.1 (hn a ha)
        exact ⟨b0, hb0, e⟩)
      rw [hb'']
      exact ⟨_, rfl⟩

/-! ### C48 -/

omit [Field F] [LinearOrder F] in
theorem saveUpTo_zero (st : Store F S) (nm : Name) (i : SimInfo F) (b : Built F S) :
    st.saveUpTo 0 nm i b = st := rfl

omit [Field F] [LinearOrder F] in
theorem saveUpTo_done (st : Store F S) {k : Nat} (hk : 5 ≤ k) (nm : Name) (i : SimInfo F) (b : Built F S) :
    st.saveUpTo k nm i b = st ++ [(nm, some ⟨.full i, .full b, false⟩)] := by
  unfold Store.saveUpTo
  rw [List.take_of_length_le (by simpa [saveOps] using hk)]
  rfl

/-- C48, partial: if the interruption comes before the folder is made or after
the last write, or if a matching session is listed before the interrupted one,
the next `create_simulator` succeeds.  Missing: all other points, see
`C48_violated`. -/
theorem C48_crash_partial {sys : GenSys F G} {g : G} {info : SimInfo F} (hr : info.reverb ≠ "modified")
    {c : Coll (List F) (IrMat F)} (hc : c.Proper) {source : String → Option S} {st : Store F S} {time : Name}
    (hst : ∀ nm f, (nm, some f) ∈ st → ∃ i b', f.Holds i b' ∧ Comparable (c.setDefault info.reverb) b'.coll)
    {r} (h : createArrays sys g info c source none time = .ok r) {k : Nat} {nm : Name} {i0 : SimInfo F} {b0 : Built F S}
    (h0 : ∀ md, (⟨.full i0, .full b0, md⟩ : Folder F S).Holds i0 b0)
    (hcmp : Comparable (c.setDefault info.reverb) b0.coll)
    (hk : k = 0 ∨ 5 ≤ k ∨ ∃ nm f, (nm, some f) ∈ st ∧ Matches info (c.setDefault info.reverb) f) :
    ∃ r', createArrays sys g info c source (some (st.saveUpTo k nm i0 b0)) time = .ok r' := by
  rcases hk with rfl | hk | ⟨nm1, f1, hm1, hmat⟩
  · rw [saveUpTo_zero]; exact C78_create_partial hr hc hst h
  · rw [saveUpTo_done st hk]
    refine C78_create_partial hr hc ?_ h
    intro nm' f hm
    rcases List.mem_append.1 hm with hm | hm
    · exact hst nm' f hm
    · rw [List.mem_singleton] at hm
      cases hm
      exact ⟨i0, b0, h0 false, hcmp⟩
  · -- the search ends before the interrupted folder
    obtain ⟨r0, k1, k2⟩ := searchSession_ok (info := info) (c := c.setDefault info.reverb) (st := st) (by
      intro nm f hm
      obtain ⟨i, b', h, hcmp⟩ := hst nm f hm
      exact holds_readable hc hr h hcmp)
    cases r0 with
    | none => exact absurd hmat (k2 rfl nm1 f1 hm1)
    | some p =>
      obtain ⟨r', hr'⟩ := C78_create_partial (sys := sys) (g := g) (source := source) (time := time) hr hc hst h
      have happ : ∀ (l : Store F S) (x : Store F S) {p}, searchSession info (c.setDefault info.reverb) l = .ok (some p) →
          searchSession info (c.setDefault info.reverb) (l ++ x) = .ok (some p) := by
        intro l x p hp
        induction l with
        | nil => cases hp
        | cons e l ih =>
          obtain ⟨nm', o⟩ := e
          cases o with
          | none => exact ih hp
          | some f =>
            rw [List.cons_append]
            rw [searchSession] at hp ⊢
            cases q1 : f.loadConfig with
            | error x => rw [q1] at hp; cases hp
            | ok i =>
              rw [q1] at hp
              dsimp only at hp ⊢
              cases q2 : f.loadArrays with
              | error x => rw [q2] at hp; cases hp
              | ok b =>
                rw [q2] at hp
                dsimp only at hp ⊢
                split_ifs at hp ⊢
                · cases q3 : protoEquals (c.setDefault info.reverb) b.coll with
                  | error x => rw [q3] at hp; cases hp
                  | ok rr =>
                    rw [q3] at hp
                    cases rr
                    · exact ih hp
                    · exact hp
                · exact ih hp
      have hx : ∃ x, st.saveUpTo k nm i0 b0 = st ++ x := by
        unfold Store.saveUpTo
        split
        · exact ⟨[], (List.append_nil _).symm⟩
        · exact ⟨_, rfl⟩
      obtain ⟨x, hx⟩ := hx
      rw [hx]
      unfold createArrays at hr' ⊢
      split
      · rename_i he; rw [if_pos he] at hr'; cases hr'
      · rename_i he
        rw [if_neg he] at hr'
        dsimp only at hr' ⊢
        cases hauto : info.autoSaveLoad with
        | false => rw [hauto] at hr'; dsimp only at hr' ⊢; split at hr' <;> simp_all
        | true =>
          rw [hauto] at hr'
          dsimp only at hr' ⊢
          unfold loadSession at hr' ⊢
          rw [k1] at hr'
          rw [happ st x k1]
          obtain ⟨nm2, f2⟩ := p
          dsimp only at hr' ⊢
          cases q2 : f2.loadArrays with
          | error x => rw [q2] at hr'; cases hr'
          | ok b =>
            rw [q2] at hr'
            dsimp only at hr' ⊢
            cases q3 : setSources source (c.setDefault info.reverb).frees b with
            | error x => rw [q3] at hr'; cases hr'
            | ok bb => exact ⟨_, rfl⟩

/-- C48 does not hold: after an interruption at any other point, every later
`create_simulator` that does not find a session listed before the incomplete one
fails. -/
theorem C48_violated {sys : GenSys F G} {g : G} {info : SimInfo F} (hauto : info.autoSaveLoad = true)
    {c : Coll (List F) (IrMat F)} (hne : c.arrays ≠ []) {source : String → Option S} {st : Store F S} {time : Name}
    (hst : ∀ nm f, (nm, some f) ∈ st → Readable info (c.setDefault info.reverb) f ∧
      ¬ Matches info (c.setDefault info.reverb) f)
    {k : Nat} (hk : 1 ≤ k) (hk' : k ≤ 4) (nm : Name) (i0 : SimInfo F) (b0 : Built F S) :
    createArrays sys g info c source (some (st.saveUpTo k nm i0 b0)) time =
      .error (if k = 4 then .value else .fileNotFound) := by
  have hs : searchSession info (c.setDefault info.reverb) (st.saveUpTo k nm i0 b0) =
      .error (if k = 4 then .value else .fileNotFound) := by
    have : k = 1 ∨ k = 2 ∨ k = 3 ∨ k = 4 := by omega
    rcases this with rfl | rfl | rfl | rfl <;>
      exact (searchSession_skip (info := info) _ hst).trans rfl
  unfold createArrays
  rw [if_neg (by rw [List.isEmpty_iff]; exact hne)]
  dsimp only
  rw [hauto]
  dsimp only
  unfold loadSession
  rw [hs]

/-! ### C49 -/

omit [Field F] [LinearOrder F] in
theorem loadFromPath_saved (i : SimInfo F) (b : Built F S) (md fig : Bool) :
    loadFromPath ⟨.full i, .full b, md⟩ fig =
      match i.postInit with
      | .error x => .error x
      | .ok i => if fig && !md then .error .fileNotFound else .ok (i, b) := rfl

/-- C49, the part that holds: the folder written by `create_simulator` is new, and
without a figure folder `load_from_path` returns the configuration and the arrays
of the simulator.  Missing: figure folders (`C49_violated`) and configurations that
`load_from_file` rejects (`C49_violated_random`). -/
theorem C49_load_partial {sys : GenSys F G} {g g' : G} {info : SimInfo F} {c : Coll (List F) (IrMat F)}
    {source : String → Option S} {st st' : Store F S} {time : Name} {b : Built F S}
    (h : createArrays sys g info c source (some st) time = .ok (g', b, some st')) :
    st' = st ∨ ∃ nm f, st' = st ++ [(nm, some f)] ∧ nm ∉ st.map Prod.fst ∧
      (info.Valid → loadFromPath f false = .ok (info, b)) := by
  unfold createArrays at h
  split at h
  · cases h
  dsimp only at h
  split at h
  · rename_i st0 _ hst0
    cases Option.some.inj hst0
    split at h
    · cases h
    · have := Except.ok.inj h
      simp only [Prod.mk.injEq, Option.some.injEq] at this
      exact .inl this.2.2.symm
    · split at h
      · cases h
      · split at h
        · cases h
        · rename_i st1 hsave
          have := Except.ok.inj h
          simp only [Prod.mk.injEq, Option.some.injEq] at this
          obtain ⟨rfl, rfl, rfl⟩ := this
          right
          unfold saveSession at hsave
          obtain ⟨k, hk, hfree, _⟩ := C69_unique_folder "session_".toList time (st.map Prod.fst)
          rw [hk (st.length + 1) (by rw [List.length_map]; omega)] at hsave
          have hsave' := Except.ok.inj hsave
          rw [saveUpTo_done st (Nat.le_refl 5)] at hsave'
          refine ⟨_, _, hsave'.symm, hfree, fun hv => ?_⟩
          rw [loadFromPath_saved, hv.post]
          rfl
  · split at h
    · cases h
    · have := Except.ok.inj h
      simp only [Prod.mk.injEq, Option.some.injEq] at this
      exact .inl this.2.2.symm

/-- C49 does not hold: with a figure folder no session written by
`create_simulator` can be loaded. -/
theorem C49_violated {i : SimInfo F} (hi : i.Valid) {b : Built F S} (st : Store F S) {time : Name} {st' : Store F S}
    (h : saveSession st time i b = .ok st') :
    ∃ nm f, st' = st ++ [(nm, some f)] ∧ loadFromPath f true = .error .fileNotFound := by
  unfold saveSession at h
  split at h
  · cases h
  · have h' := Except.ok.inj h
    rw [saveUpTo_done st (Nat.le_refl 5)] at h'
    refine ⟨_, _, h'.symm, ?_⟩
    rw [loadFromPath_saved, hi.post]
    rfl

/-- C49 does not hold without a figure folder either: the configuration file
documents the default type "random", but a session saved with it cannot be
loaded. -/
theorem C49_violated_random {i : SimInfo F} (hi : i.reverb = "random") {b : Built F S} (st : Store F S)
    {time : Name} {st' : Store F S} (h : saveSession st time i b = .ok st') (fig : Bool) :
    ∃ nm f, st' = st ++ [(nm, some f)] ∧ loadFromPath f fig = .error .assertion := by
  unfold saveSession at h
  split at h
  · cases h
  · have h' := Except.ok.inj h
    rw [saveUpTo_done st (Nat.le_refl 5)] at h'
    refine ⟨_, _, h'.symm, ?_⟩
    rw [loadFromPath_saved]
    have : i.postInit = .error .assertion := by
      unfold SimInfo.postInit
      split_ifs with h1 h2 h3
      · rfl
      · rfl
      · rw [hi] at h3; revert h3; decide
      · rfl
    rw [this]

end
end Verif

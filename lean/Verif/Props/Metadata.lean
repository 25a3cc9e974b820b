/-
C116: the metadata files.
-/
import Verif.Model.Metadata
import Mathlib.Data.List.Basic
import Mathlib.Data.List.Nodup
namespace Verif

section
variable {V J : Type}

theorem PyDict.get_cons (e : String × V) (d : PyDict V) (k : String) :
    PyDict.get (e :: d) k = if e.1 = k then some e.2 else PyDict.get d k := by
  unfold PyDict.get
  by_cases h : e.1 = k <;> simp [h]

theorem PyDict.get_append (d d' : PyDict V) (k : String) :
    PyDict.get (d ++ d') k = (PyDict.get d k).or (PyDict.get d' k) := by
  induction d with
  | nil => simp [PyDict.get]
  | cons e d ih =>
    rw [List.cons_append, PyDict.get_cons, PyDict.get_cons, ih]
    split <;> simp

theorem PyDict.get_none {d : PyDict V} {k : String} (h : d.any (fun e => e.1 == k) = false) : PyDict.get d k = none := by
  induction d with
  | nil => rfl
  | cons e d ih =>
    simp only [List.any_cons, Bool.or_eq_false_iff] at h
    rw [PyDict.get_cons, if_neg (by simpa using h.1), ih h.2]

theorem PyDict.get_put (d : PyDict V) (k k' : String) (v : V) :
    PyDict.get (PyDict.put d k v) k' = if k' = k then some v else PyDict.get d k' := by
  unfold PyDict.put
  split
  · rename_i hany
    have : ∀ (d : PyDict V), PyDict.get (d.map fun e => if e.1 == k then (k, v) else e) k' =
        if k' = k then (if d.any (fun e => e.1 == k) then some v else none) else PyDict.get d k' := by
      intro d
      induction d with
      | nil => simp [PyDict.get]
      | cons e d ih =>
        rw [List.map_cons, PyDict.get_cons, PyDict.get_cons, ih]
        by_cases h1 : e.1 = k <;> by_cases h2 : k' = k
        · subst h2; simp [h1]
        · have h3 : ¬ k = k' := fun h => h2 h.symm
          simp [h1, h2, h3]
        · subst h2
          have h3 : (e.1 == k') = false := by simpa using h1
          simp only [h3, List.any_cons, Bool.false_or, h1, if_false, if_true, Bool.false_eq_true]
        · simp [h1, h2]
    rw [this]
    rw [if_pos hany]
  · rename_i hany
    rw [PyDict.get_append]
    by_cases h : k' = k
    · subst h
      rw [PyDict.get_none (Bool.eq_false_iff.2 hany)]
      simp [PyDict.get]
    · rw [if_neg h]
      have : PyDict.get [(k, v)] k' = none := by rw [PyDict.get_cons, if_neg (fun h' => h h'.symm)]; rfl
      rw [this, Option.or_none]

theorem PyDict.get_merge : ∀ (new old : PyDict V), (new.map Prod.fst).Nodup → ∀ k,
    PyDict.get (PyDict.merge old new) k = (PyDict.get new k).or (PyDict.get old k)
  | [], old, _, k => by simp [PyDict.merge, PyDict.get]
  | e :: new, old, h, k => by
    have ih := PyDict.get_merge new (PyDict.put old e.1 e.2) (List.nodup_cons.1 h).2 k
    unfold PyDict.merge at ih ⊢
    rw [List.foldl_cons, ih, PyDict.get_put, PyDict.get_cons]
    by_cases hk : e.1 = k
    · subst hk
      have : PyDict.get new e.1 = none := by
        apply PyDict.get_none
        rw [List.any_eq_false]
        intro x hx hxe
        exact (List.nodup_cons.1 h).1 (by rw [← beq_iff_eq.1 hxe]; exact List.mem_map_of_mem hx)
      simp [this]
    · rw [if_neg hk, if_neg fun h' => hk h'.symm]

theorem PyDict.get_mem {d : PyDict V} {k : String} {v : V} (h : PyDict.get d k = some v) : (k, v) ∈ d := by
  induction d with
  | nil => simp [PyDict.get] at h
  | cons e d ih =>
    rw [PyDict.get_cons] at h
    split at h
    · rename_i hk; cases h; subst hk; simp
    · simp [ih h]

theorem dumpJson_ok {enc : V → Option J} : ∀ {d : PyDict V}, (∀ k v, (k, v) ∈ d → (enc v).isSome) →
    ∃ l, dumpJson enc d = (.data l, none) ∧ ∀ k, PyDict.get l k = (PyDict.get d k).bind enc
  | d, h => by
    have : ∀ d : PyDict V, (∀ k v, (k, v) ∈ d → (enc v).isSome) →
        ∃ l, (d.mapM fun e => (enc e.2).map fun j => (e.1, j)) = some l ∧
          ∀ k, PyDict.get l k = (PyDict.get d k).bind enc := by
      intro d
      induction d with
      | nil => intro _; exact ⟨[], rfl, fun k => by simp [PyDict.get]⟩
      | cons e d ih =>
        intro h
        obtain ⟨l, hl, hg⟩ := ih fun k v hm => h k v (by simp [hm])
        obtain ⟨j, hj⟩ := Option.isSome_iff_exists.1 (h e.1 e.2 (by simp))
        refine ⟨(e.1, j) :: l, ?_, ?_⟩
        · rw [List.mapM_cons, hj, hl]; rfl
        · intro k
          rw [PyDict.get_cons, PyDict.get_cons, hg k]
          split
          · simp [hj]
          · rfl
    obtain ⟨l, hl, hg⟩ := this d h
    exact ⟨l, by unfold dumpJson; rw [hl], hg⟩

theorem merge_mem {old new : PyDict V} {k : String} {v : V} (h : (k, v) ∈ PyDict.merge old new) :
    (∃ k, (k, v) ∈ old) ∨ ∃ k, (k, v) ∈ new := by
  induction new generalizing old with
  | nil => exact .inl ⟨k, h⟩
  | cons e new ih =>
    unfold PyDict.merge at h ih
    rw [List.foldl_cons] at h
    rcases ih h with ⟨k', h'⟩ | ⟨k', h'⟩
    · unfold PyDict.put at h'
      split at h'
      · obtain ⟨x, hx, hxe⟩ := List.mem_map.1 h'
        split at hxe
        · cases hxe; exact .inr ⟨e.1, by simp⟩
        · subst hxe; exact .inl ⟨_, hx⟩
      · rcases List.mem_append.1 h' with h' | h'
        · exact .inl ⟨_, h'⟩
        · simp only [List.mem_singleton] at h'
          cases h'; exact .inr ⟨e.1, by simp⟩
    · exact .inr ⟨k', by simp [h']⟩

/-- The content of a metadata file, if it can be read. -/
def JsonFile.value (f : JsonFile J) (k : String) : Option J :=
  match f with
  | .data d => d.get k
  | _ => none

/-- The value of a key in the last of the dictionaries that has it. -/
def lastValue (ds : List (PyDict V)) (k : String) : Option V := ds.foldl (fun acc d => (d.get k).or acc) none

theorem lastValue_init (ds : List (PyDict V)) (k : String) (a : Option V) :
    ds.foldl (fun acc d => (d.get k).or acc) a = (lastValue ds k).or a := by
  unfold lastValue
  induction ds generalizing a with
  | nil => rfl
  | cons d ds ih =>
    rw [List.foldl_cons, List.foldl_cons, ih, ih ((PyDict.get d k).or none), Option.or_none, Option.or_assoc]

theorem lastValue_mem {ds : List (PyDict V)} {k : String} {v : V} (h : lastValue ds k = some v) :
    ∃ d ∈ ds, (k, v) ∈ d := by
  induction ds with
  | nil => cases h
  | cons d ds ih =>
    unfold lastValue at h
    rw [List.foldl_cons, lastValue_init, Option.or_none] at h
    cases hl : lastValue ds k with
    | none =>
      rw [hl, Option.none_or] at h
      exact ⟨d, by simp, PyDict.get_mem h⟩
    | some w =>
      rw [hl, Option.some_or] at h
      cases h
      obtain ⟨d', hd', hm⟩ := ih hl
      exact ⟨d', by simp [hd'], hm⟩

theorem get_decoded (enc : V → Option J) (dec : J → V) (hdec : ∀ j, enc (dec j) = some j) (old : PyDict J)
    (k : String) : (PyDict.get (old.map fun e => (e.1, dec e.2)) k).bind enc = PyDict.get old k := by
  induction old with
  | nil => rfl
  | cons e old ih =>
    rw [List.map_cons, PyDict.get_cons, PyDict.get_cons]
    split
    · simp [hdec]
    · exact ih

/-- **C116 (partial)** Adding metadata to that of a simulation, any number of times: the file then has each
key with the value that was given last, and the keys it had before that were not given again.  `enc` and `dec` are the
writing and reading of values; what has been read can be written again.  Missing: values that cannot be
written. -/
theorem C116_added_partial (enc : V → Option J) (dec : J → V) (hdec : ∀ j, enc (dec j) = some j) :
    ∀ (ds : List (PyDict V)) (f : JsonFile J), f ≠ .broken → (∀ d ∈ ds, (d.map Prod.fst).Nodup) →
      (∀ d ∈ ds, ∀ k v, (k, v) ∈ d → (enc v).isSome) →
      ∃ f', addAllMetadata enc dec f ds = (f', none) ∧ f' ≠ .broken ∧
        ∀ k, f'.value k = ((lastValue ds k).bind enc).or (f.value k)
  | [], f, hf, _, _ => ⟨f, rfl, hf, fun k => by simp [lastValue]⟩
  | d :: ds, f, hf, hn, he => by
    have h1 : ∃ f1, addToSimMetadata enc dec f d = (f1, none) ∧ f1 ≠ .broken ∧
        ∀ k, f1.value k = ((PyDict.get d k).bind enc).or (f.value k) := by
      cases f with
      | broken => exact absurd rfl hf
      | missing =>
        obtain ⟨l, hl, hg⟩ := dumpJson_ok (enc := enc) (d := d) (he d (by simp))
        refine ⟨.data l, hl, by simp, fun k => ?_⟩
        show PyDict.get l k = _
        rw [hg]; simp [JsonFile.value]
      | data old =>
        obtain ⟨l, hl, hg⟩ := dumpJson_ok (enc := enc) (d := PyDict.merge (old.map fun e => (e.1, dec e.2)) d) (by
          intro k v hm
          rcases merge_mem hm with ⟨k', h'⟩ | ⟨k', h'⟩
          · obtain ⟨e, _, hee⟩ := List.mem_map.1 h'
            cases hee
            rw [hdec]; rfl
          · exact he d (by simp) _ _ h')
        refine ⟨.data l, hl, by simp, fun k => ?_⟩
        show PyDict.get l k = (_ : Option J).or (PyDict.get old k)
        rw [hg, PyDict.get_merge _ _ (hn d (by simp))]
        have hold := get_decoded enc dec hdec old k
        cases hd : PyDict.get d k with
        | none => simpa using hold
        | some v =>
          obtain ⟨j, hj⟩ := Option.isSome_iff_exists.1 (he d (by simp) k v (PyDict.get_mem hd))
          simp [hj]
    obtain ⟨f1, e1, hb, hv⟩ := h1
    obtain ⟨f', e2, hb', hv'⟩ := C116_added_partial enc dec hdec ds f1 hb (fun d hd => hn d (by simp [hd]))
      (fun d hd => he d (by simp [hd]))
    refine ⟨f', by simp only [addAllMetadata, e1, e2], hb', fun k => ?_⟩
    rw [hv', hv]
    have : lastValue (d :: ds) k = (lastValue ds k).or (PyDict.get d k) := by
      unfold lastValue
      rw [List.foldl_cons, lastValue_init, Option.or_none]
      rfl
    rw [this]
    cases hl : lastValue ds k with
    | none => simp
    | some v =>
      have : (enc v).isSome := by
        obtain ⟨d', hd', hm⟩ := lastValue_mem hl
        exact he d' (by simp [hd']) k v hm
      obtain ⟨j, hj⟩ := Option.isSome_iff_exists.1 this
      simp [hj]

theorem dumpJson_broken {enc : V → Option J} {d : PyDict V} {k : String} {v : V} (hm : (k, v) ∈ d) (h : enc v = none) :
    dumpJson enc d = (.broken, some .typeErr) := by
  have : (d.mapM fun e => (enc e.2).map fun j => (e.1, j)) = none := by
    induction d with
    | nil => simp at hm
    | cons e d ih =>
      rw [List.mapM_cons]
      rcases List.mem_cons.1 hm with hm | hm
      · subst hm; simp [h]
      · rw [ih hm]
        cases enc e.2 <;> rfl
  unfold dumpJson
  rw [this]

theorem merge_has {old new : PyDict V} (hn : (new.map Prod.fst).Nodup) {k : String} {v : V} (h : (k, v) ∈ new) :
    (k, v) ∈ PyDict.merge old new := by
  have hg : PyDict.get new k = some v := by
    induction new with
    | nil => simp at h
    | cons e new ih =>
      rw [PyDict.get_cons]
      rcases List.mem_cons.1 h with h | h
      · subst h; simp
      · rw [if_neg, ih (List.nodup_cons.1 hn).2 h]
        intro he
        exact (List.nodup_cons.1 hn).1 (he ▸ List.mem_map_of_mem h)
  apply PyDict.get_mem
  rw [PyDict.get_merge _ _ hn, hg]
  rfl

/-- **C116 (the code violates it)** One value that JSON does not know, anywhere in the dictionary that is
added: the call raises, whatever the file contained can no longer be read, and every later call raises as well,
also for dictionaries that could be written. -/
theorem C116_violated (enc : V → Option J) (dec : J → V) (f : JsonFile J) (d : PyDict V)
    (hn : (d.map Prod.fst).Nodup) {k : String} {v : V} (hm : (k, v) ∈ d) (hv : enc v = none) :
    (∃ e, (addToSimMetadata enc dec f d).2 = some e) ∧
    (∀ k, (addToSimMetadata enc dec f d).1.value k = none) ∧
    ∀ d', (addToSimMetadata enc dec (addToSimMetadata enc dec f d).1 d') = (.broken, some .value) := by
  have : ∃ e, addToSimMetadata enc dec f d = (.broken, some e) := by
    cases f with
    | missing => exact ⟨_, dumpJson_broken hm hv⟩
    | broken => exact ⟨_, rfl⟩
    | data old => exact ⟨_, dumpJson_broken (merge_has hn hm) hv⟩
  obtain ⟨e, he⟩ := this
  rw [he]
  exact ⟨⟨e, rfl⟩, fun _ => rfl, fun _ => rfl⟩

/-- **C116** The metadata of the processors: each is found under its name, and nothing else is in the file,
also nothing of what was there before; without a folder nothing is written. -/
theorem C116_processors (enc : V → Option J) (f : JsonFile J) (procs : List (String × V))
    (hn : (procs.map Prod.fst).Nodup) (he : ∀ p ∈ procs, (enc p.2).isSome) :
    (∃ f', writeProcessorMetadata enc true f procs = (f', none) ∧
      (∀ p ∈ procs, f'.value p.1 = enc p.2) ∧ ∀ k, k ∉ procs.map Prod.fst → f'.value k = none) ∧
    writeProcessorMetadata enc false f procs = (f, none) := by
  refine ⟨?_, rfl⟩
  have hmerge : procs.foldl (fun d p => PyDict.put d p.1 p.2) [] = PyDict.merge [] procs := rfl
  obtain ⟨l, hl, hg⟩ := dumpJson_ok (enc := enc) (d := PyDict.merge [] procs) (by
    intro k v hm
    rcases merge_mem hm with ⟨k', h'⟩ | ⟨k', h'⟩
    · simp at h'
    · exact he _ h')
  refine ⟨.data l, by unfold writeProcessorMetadata; rw [if_pos rfl, hmerge, hl], ?_, ?_⟩
  · intro p hp
    show PyDict.get l p.1 = _
    have := merge_has (old := []) hn (k := p.1) (v := p.2) hp
    rw [hg, PyDict.get_merge _ _ hn]
    have hgp : PyDict.get procs p.1 = some p.2 := by
      clear hg hl hmerge this he
      induction procs with
      | nil => simp at hp
      | cons e procs ih =>
        rw [PyDict.get_cons]
        rcases List.mem_cons.1 hp with h | h
        · subst h; simp
        · rw [if_neg, ih (List.nodup_cons.1 hn).2 h]
          intro he
          exact (List.nodup_cons.1 hn).1 (he ▸ List.mem_map_of_mem h)
    rw [hgp]; rfl
  · intro k hk
    show PyDict.get l k = _
    rw [hg, PyDict.get_merge _ _ hn]
    have : PyDict.get procs k = none := by
      cases h : PyDict.get procs k with
      | none => rfl
      | some v => exact absurd (List.mem_map_of_mem (f := Prod.fst) (PyDict.get_mem h)) hk
    rw [this]; rfl

/-- **C116 (the code violates it)** Two processors with the same name: only the metadata of the one that
comes last is in the file. -/
theorem C116_violated_names (enc : V → Option J) (f : JsonFile J) (n : String) (v w : V) (hv : (enc v).isSome)
    (j : J) (hw : enc w = some j) :
    writeProcessorMetadata enc true f [(n, v), (n, w)] = (.data [(n, j)], none) := by
  simp [writeProcessorMetadata, PyDict.put, dumpJson, hw]

end

/-! ### Examples: values are numbers, or something JSON does not know. -/

/-- Numbers are written, `none` stands for an array. -/
def exEnc : Option Nat → Option Nat := id

example : ∃ f', addAllMetadata exEnc some (.data [("a", 1), ("b", 2)]) [[("b", some 3), ("c", some 4)], [("c", some 5)]] = (f', none) ∧
    f'.value "a" = some 1 ∧ f'.value "b" = some 3 ∧ f'.value "c" = some 5 ∧ f'.value "d" = none :=
  ⟨_, rfl, rfl, rfl, rfl, rfl⟩

example : ∃ f', addAllMetadata exEnc some (.data [("a", 1), ("b", 2)]) [[("b", some 3), ("c", some 4)], [("c", some 5)]] = (f', none) ∧
    f' ≠ .broken ∧ ∀ k, f'.value k = ((lastValue [[("b", some 3), ("c", some 4)], [("c", some 5)]] k).bind exEnc).or
      ((JsonFile.data [("a", 1), ("b", 2)]).value k) :=
  C116_added_partial exEnc some (fun _ => rfl) _ _ (by simp) (by decide) (by
    intro d hd k v hm
    simp only [List.mem_cons, List.not_mem_nil, or_false] at hd
    rcases hd with rfl | rfl <;> simp only [List.mem_cons, List.not_mem_nil, or_false, Prod.mk.injEq] at hm
    · rcases hm with ⟨_, rfl⟩ | ⟨_, rfl⟩ <;> rfl
    · rw [hm.2]; rfl)

example : ∀ d', addToSimMetadata exEnc some (addToSimMetadata exEnc some (.data [("a", 1)]) [("x", some 1), ("array", none)]).1 d' =
    (.broken, some .value) :=
  (C116_violated exEnc some (.data [("a", 1)]) [("x", some 1), ("array", none)] (by decide) (k := "array") (v := none)
    (by simp) rfl).2.2

example : ∃ f', writeProcessorMetadata exEnc true (.data [("old", 1)]) [("p", some 1), ("q", some 2)] = (f', none) ∧
    (∀ p ∈ [("p", some 1), ("q", some 2)], f'.value p.1 = exEnc p.2) ∧ ∀ k, k ∉ ["p", "q"] → f'.value k = none :=
  (C116_processors exEnc _ _ (by decide) (by decide)).1

end Verif

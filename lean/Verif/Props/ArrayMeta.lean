/-
C119: the files that describe arrays and paths.
-/
import Verif.Model.ArrayMeta
import Verif.Props.Metadata
namespace Verif

/-- A source whose metadata has no numpy array. -/
def SourceInfo.Plain : SourceInfo → Prop
  | .multiSine _ _ => False
  | .sine _ _ (.array _) => False
  | .band _ _ (.array _) => False
  | _ => True

theorem jsonAll_map {α : Type} (f : α → PyVal) (hf : ∀ a, (f a).json = true) (l : List α) : PyVal.jsonAll (l.map f) = true := by
  induction l with
  | nil => rfl
  | cons a l ih => rw [List.map_cons, PyVal.jsonAll, hf, ih]; rfl

theorem json_list {α : Type} (f : α → PyVal) (hf : ∀ a, (f a).json = true) (l : List α) : (PyVal.list (l.map f)).json = true := by
  rw [PyVal.json]; exact jsonAll_map f hf l

theorem json_num (q : Rat) : (PyVal.num q).json = true := by rw [PyVal.json] <;> simp

theorem json_power (p : NumArg) : p.power.json = true := by
  cases p with
  | num q => exact json_num q
  | list l => exact json_list _ json_num l
  | array l => exact json_list _ json_num l

theorem json_raw (p : NumArg) (h : ∀ l, p ≠ .array l) : p.raw.json = true := by
  cases p with
  | num q => exact json_num q
  | list l => exact json_list _ json_num l
  | array l => exact absurd rfl (h l)

theorem json_null : PyVal.null.json = true := by rw [PyVal.json] <;> simp
theorem json_bool (b : Bool) : (PyVal.bool b).json = true := by rw [PyVal.json] <;> simp
theorem json_str (s : String) : (PyVal.str s).json = true := by rw [PyVal.json] <;> simp

theorem plain_json (s : SourceInfo) (h : s.Plain) : (PyVal.dict s.info).json = true := by
  rw [PyVal.json]
  cases s with
  | white ch p => simp [SourceInfo.info, PyVal.jsonDict, json_num, json_power]
  | sine ch p f =>
    have : f.raw.json = true := json_raw f (by rintro l rfl; exact h)
    simp [SourceInfo.info, PyVal.jsonDict, json_num, json_power, this]
  | counter n => simp [SourceInfo.info, PyVal.jsonDict, json_num]
  | multiSine p f => exact absurd h (by simp [SourceInfo.Plain])
  | band ch p f =>
    have : f.raw.json = true := json_raw f (by rintro l rfl; exact h)
    simp [SourceInfo.info, PyVal.jsonDict, json_num, json_power, this]
  | mls o p =>
    cases p with
    | none => simp [SourceInfo.info, PyVal.jsonDict, json_num, json_null]
    | some l => simp [SourceInfo.info, PyVal.jsonDict, json_num, json_null, json_list _ json_num]
  | gold ch p o =>
    have : ∀ q : Rat, (PyVal.list [.num q]).json = true := by
      intro q
      simp [PyVal.json, PyVal.jsonAll]
    simp [SourceInfo.info, PyVal.jsonDict, json_num, json_list _ this]
  | sequence ch => simp [SourceInfo.info, PyVal.jsonDict, json_num]
  | pulse ch => simp [SourceInfo.info, PyVal.jsonDict, json_num]
  | autocorr ch => simp [SourceInfo.info, PyVal.jsonDict, json_num]

theorem PyDict.get_of_mem {V : Type} : ∀ {d : PyDict V} {k : String} {v : V}, (d.map Prod.fst).Nodup → (k, v) ∈ d →
    PyDict.get d k = some v
  | e :: d, k, v, hn, h => by
    rw [PyDict.get_cons]
    rcases List.mem_cons.1 h with h | h
    · subst h; simp
    · rw [if_neg, PyDict.get_of_mem (List.nodup_cons.1 hn).2 h]
      intro he
      exact (List.nodup_cons.1 hn).1 (he ▸ List.mem_map_of_mem h)

/-- What the constructors put in the metadata. -/
theorem create_info {a : ArrObj} {region : Option String}
    (h : ArrObj.create a.name a.cls a.pos a.numGroups a.dynamic region a.source = .ok a) :
    PyDict.get a.info "type" = some (.str a.cls) ∧ PyDict.get a.info "number" = some (.num a.pos.length) ∧
    PyDict.get a.info "number of groups" = some (.num a.numGroups) ∧ PyDict.get a.info "dynamic" = some (.bool a.dynamic) ∧
    (∀ r, region = some r → PyDict.get a.info "region shape" = some (.str r)) ∧
    (∀ s, a.source = some s → PyDict.get a.info "source info" = some (.dict s.info) ∧ s.channels = a.pos.length) ∧
    ((∀ s, a.source = some s → s.Plain) → PyVal.jsonDict a.info = true) := by
  obtain ⟨name, cls, num, numGroups, dynamic, pos, source, info⟩ := a
  unfold ArrObj.create at h
  dsimp only at h ⊢
  cases source with
  | none =>
    cases region with
    | none =>
      simp only [Except.ok.injEq, ArrObj.mk.injEq, true_and] at h
      obtain ⟨_, rfl⟩ := h
      refine ⟨by simp [PyDict.get], ?_, ?_, ?_, by simp, by simp, ?_⟩
      · simp [PyDict.get]
      · simp [PyDict.get]
      · simp [PyDict.get]
      · intro _; simp [PyVal.jsonDict, json_num, json_str, json_bool]
    | some r =>
      simp only [Except.ok.injEq, ArrObj.mk.injEq, true_and] at h
      obtain ⟨_, rfl⟩ := h
      refine ⟨?_, ?_, ?_, ?_, ?_, by simp, ?_⟩
      · simp [PyDict.get, PyDict.put]
      · simp [PyDict.get, PyDict.put]
      · simp [PyDict.get, PyDict.put]
      · simp [PyDict.get, PyDict.put]
      · intro r' hr'; cases hr'; simp [PyDict.get, PyDict.put]
      · intro _; simp [PyDict.put, PyVal.jsonDict, json_num, json_str, json_bool]
  | some s =>
    dsimp only at h
    split at h
    · rename_i hch
      cases region with
      | none =>
        simp only [Except.ok.injEq, ArrObj.mk.injEq, true_and] at h
        obtain ⟨_, rfl⟩ := h
        refine ⟨?_, ?_, ?_, ?_, by simp, ?_, ?_⟩
        · simp [PyDict.get, PyDict.put]
        · simp [PyDict.get, PyDict.put]
        · simp [PyDict.get, PyDict.put]
        · simp [PyDict.get, PyDict.put]
        · intro s' hs'; cases hs'; exact ⟨by simp [PyDict.get, PyDict.put], hch⟩
        · intro hp; simp [PyDict.put, PyVal.jsonDict, json_num, json_str, json_bool, plain_json s (hp s rfl)]
      | some r =>
        simp only [Except.ok.injEq, ArrObj.mk.injEq, true_and] at h
        obtain ⟨_, rfl⟩ := h
        refine ⟨?_, ?_, ?_, ?_, ?_, ?_, ?_⟩
        · simp [PyDict.get, PyDict.put]
        · simp [PyDict.get, PyDict.put]
        · simp [PyDict.get, PyDict.put]
        · simp [PyDict.get, PyDict.put]
        · intro r' hr'; cases hr'; simp [PyDict.get, PyDict.put]
        · intro s' hs'; cases hs'; exact ⟨by simp [PyDict.get, PyDict.put], hch⟩
        · intro hp; simp [PyDict.put, PyVal.jsonDict, json_num, json_str, json_bool, plain_json s (hp s rfl)]
    · cases h

/-! ### Names of pairs -/

theorem key_inj {a b c d : String} (ha : '>' ∉ a.toList) (hc : '>' ∉ c.toList) (h : a ++ "->" ++ b = c ++ "->" ++ d) :
    a = c ∧ b = d := by
  have hl := congrArg String.toList h
  simp only [String.toList_append] at hl
  have hs : "->".toList = ['-', '>'] := by decide
  rw [hs] at hl
  have key : ∀ (x y u v : List Char), '>' ∉ x → '>' ∉ y → x ++ ['-', '>'] ++ u = y ++ ['-', '>'] ++ v → x = y ∧ u = v := by
    intro x
    induction x with
    | nil =>
      intro y u v _ hy e
      cases y with
      | nil => simpa using e
      | cons c y =>
        cases y with
        | nil => simp at e
        | cons c' y => simp at e; exact absurd (by simp [← e.2.1]) hy
    | cons c x ih =>
      intro y u v hx hy e
      cases y with
      | nil =>
        cases x with
        | nil => simp at e
        | cons c' x => simp at e; exact absurd (by simp [e.2.1]) hx
      | cons c' y =>
        simp only [List.cons_append, List.cons.injEq] at e
        obtain ⟨e1, e2⟩ := ih y u v (fun h => hx (by simp [h])) (fun h => hy (by simp [h])) e.2
        exact ⟨by rw [e.1, e1], e2⟩
  obtain ⟨h1, h2⟩ := key _ _ _ _ ha hc hl
  exact ⟨String.toList_inj.1 h1, String.toList_inj.1 h2⟩

/-- The entry of a pair. -/
def PairInfo.entry (p : PairInfo) : String × PyVal :=
  (p.src ++ "->" ++ p.mic, .dict (("type", .str (if p.empty then "none" else p.type)) ::
    match p.ism with
    | none => []
    | some m => [("ism_info", .dict m)]))

theorem pathInfo_eq (pairs : List PairInfo) : pathInfo pairs = PyDict.merge [] (pairs.map PairInfo.entry) := by
  unfold pathInfo PyDict.merge
  rw [List.foldl_map]
  rfl

theorem enc_of_json {v : PyVal} (h : v.json = true) : v.enc = some v := by unfold PyVal.enc; rw [if_pos h]

theorem dumpJson_plain {d : PyDict PyVal} (h : ∀ e ∈ d, e.2.json = true) :
    ∃ l, dumpJson PyVal.enc d = (.data l, none) ∧ ∀ k, PyDict.get l k = PyDict.get d k := by
  obtain ⟨l, hl, hg⟩ := dumpJson_ok (enc := PyVal.enc) (d := d) fun k v hm => by rw [enc_of_json (h _ hm)]; rfl
  refine ⟨l, hl, fun k => ?_⟩
  rw [hg]
  cases hd : PyDict.get d k with
  | none => rfl
  | some v => exact enc_of_json (h _ (PyDict.get_mem hd))

/-- **C119 (partial)** A new simulator with a folder: every array, as it was created, is described in the
files by its class, number of elements, groups, whether it moves, its region, the metadata of its source, and
its positions; every pair of arrays by the type of its path and what is known of its image sources.  Missing:
sources with numpy arrays in their metadata, arrays that were changed after their creation, and source names
that contain `>`. -/
theorem C119_described_partial (arrs : List ArrObj) (region : ArrObj → Option String) (pairs : List PairInfo)
    (hn : (arrs.map ArrObj.name).Nodup)
    (hc : ∀ a ∈ arrs, ArrObj.create a.name a.cls a.pos a.numGroups a.dynamic (region a) a.source = .ok a)
    (hs : ∀ a ∈ arrs, ∀ s, a.source = some s → s.Plain)
    (hp : (pairs.map fun p => (p.src, p.mic)).Nodup) (hgt : ∀ p ∈ pairs, '>' ∉ p.src.toList)
    (hi : ∀ p ∈ pairs, ∀ m, p.ism = some m → PyVal.jsonDict m = true) :
    ∃ files, saveMetadata true arrs pairs = (files, none) ∧
      (∀ a ∈ arrs, ∃ d, files.arrays.value a.name = some (.dict d) ∧ PyDict.get d "type" = some (.str a.cls) ∧
        PyDict.get d "number" = some (.num a.pos.length) ∧ PyDict.get d "number of groups" = some (.num a.numGroups) ∧
        PyDict.get d "dynamic" = some (.bool a.dynamic) ∧
        (∀ r, region a = some r → PyDict.get d "region shape" = some (.str r)) ∧
        (∀ s, a.source = some s → PyDict.get d "source info" = some (.dict s.info)) ∧
        files.pos.value a.name = some (.list (a.pos.map fun p => .list (p.map .num)))) ∧
      ∀ p ∈ pairs, ∃ d, files.paths.value (p.src ++ "->" ++ p.mic) = some (.dict d) ∧
        PyDict.get d "type" = some (.str (if p.empty then "none" else p.type)) ∧
        PyDict.get d "ism_info" = p.ism.map .dict := by
  obtain ⟨f, hf, gf⟩ := dumpJson_plain (d := arrs.map fun a => (a.name, PyVal.dict a.info)) (by
    intro e he
    obtain ⟨a, ha, rfl⟩ := List.mem_map.1 he
    have hr := hc a ha
    rw [PyVal.json]
    exact (create_info hr).2.2.2.2.2.2 (hs a ha))
  obtain ⟨h, hh, gh⟩ := dumpJson_plain (d := arrs.map fun a => (a.name, PyVal.list (a.pos.map fun p => .list (p.map .num)))) (by
    intro e he
    obtain ⟨a, ha, rfl⟩ := List.mem_map.1 he
    exact json_list _ (fun p => json_list _ json_num p) _)
  have hkeys : ((pairs.map PairInfo.entry).map Prod.fst).Nodup := by
    rw [List.map_map]
    rw [List.nodup_map_iff_inj_on (List.Nodup.of_map _ hp)]
    intro p hpm q hqm e
    obtain ⟨e1, e2⟩ := key_inj (hgt p hpm) (hgt q hqm) e
    exact List.inj_on_of_nodup_map hp hpm hqm (by simp [e1, e2])
  obtain ⟨g, hg, gg⟩ := dumpJson_plain (d := pathInfo pairs) (by
    intro e he
    rw [pathInfo_eq] at he
    rcases merge_mem (k := e.1) (v := e.2) he with ⟨k, h'⟩ | ⟨k, h'⟩
    · simp at h'
    · obtain ⟨p, hpm, hpe⟩ := List.mem_map.1 h'
      have he2 : e.2 = p.entry.2 := by rw [hpe]
      rw [he2]
      unfold PairInfo.entry
      rw [PyVal.json]
      cases hm : p.ism with
      | none => simp [PyVal.jsonDict, json_str]
      | some m =>
        have : (PyVal.dict m).json = true := by rw [PyVal.json]; exact hi p hpm m hm
        simp [PyVal.jsonDict, json_str, this])
  refine ⟨⟨.data f, .data g, .data h⟩, ?_, ?_, ?_⟩
  · unfold saveMetadata
    rw [if_pos rfl, hf]
    dsimp only
    rw [hg]
    dsimp only
    rw [hh]
  · intro a ha
    obtain ⟨h1, h2, h3, h4, h5, h6, -⟩ := create_info (hc a ha)
    refine ⟨a.info, ?_, h1, h2, h3, h4, h5, fun s hs => (h6 s hs).1, ?_⟩
    · show PyDict.get f a.name = _
      rw [gf]
      exact PyDict.get_of_mem (by rw [List.map_map]; exact hn) (List.mem_map.2 ⟨a, ha, rfl⟩)
    · show PyDict.get h a.name = _
      rw [gh]
      exact PyDict.get_of_mem (by rw [List.map_map]; exact hn) (List.mem_map.2 ⟨a, ha, rfl⟩)
  · intro p hpm
    have hget : PyDict.get g (p.src ++ "->" ++ p.mic) = some p.entry.2 := by
      rw [gg, pathInfo_eq, PyDict.get_merge _ _ hkeys,
        PyDict.get_of_mem (d := pairs.map PairInfo.entry) (v := p.entry.2) hkeys (List.mem_map.2 ⟨p, hpm, rfl⟩)]
      rfl
    unfold PairInfo.entry at hget
    refine ⟨_, hget, ?_, ?_⟩
    · rw [PyDict.get_cons, if_pos rfl]
    · rw [PyDict.get_cons, if_neg (show ¬ ("type" = "ism_info") by decide)]
      cases p.ism with
      | none => rfl
      | some m => rfl

/-- **C119 (the code violates it)** One array with a `MultiSineSource`, or any other source with a numpy array
in its metadata: creating a simulator with a folder raises, and the description of the arrays that is left
cannot be read. -/
theorem C119_violated_arrays (arrs : List ArrObj) (pairs : List PairInfo) (a : ArrObj) (ha : a ∈ arrs) (region : Option String)
    (hc : ArrObj.create a.name a.cls a.pos a.numGroups a.dynamic region a.source = .ok a) (s : SourceInfo)
    (hsrc : a.source = some s) (hs : ¬ s.Plain) :
    ∃ files, saveMetadata true arrs pairs = (files, some .typeErr) ∧ ∀ k, files.arrays.value k = none := by
  have hj : (PyVal.dict s.info).json = false := by
    rw [PyVal.json]
    unfold SourceInfo.Plain at hs
    split at hs
    · simp [SourceInfo.info, PyVal.jsonDict, PyVal.json]
    · simp [SourceInfo.info, PyVal.jsonDict, PyVal.json, NumArg.raw]
    · simp [SourceInfo.info, PyVal.jsonDict, PyVal.json, NumArg.raw]
    · exact absurd trivial hs
  have hget := ((create_info hc).2.2.2.2.2.1 s hsrc).1
  have hda : ∀ (d : PyDict PyVal) (k : String) (v : PyVal), (k, v) ∈ d → v.json = false → PyVal.jsonDict d = false := by
    intro d
    induction d with
    | nil => intro k v h; simp at h
    | cons e d ih =>
      intro k v h hv
      rw [PyVal.jsonDict]
      rcases List.mem_cons.1 h with h | h
      · rw [← h, hv]; rfl
      · rw [ih k v h hv, Bool.and_false]
  have hinfo : (PyVal.dict a.info).enc = none := by
    unfold PyVal.enc
    rw [PyVal.json, hda _ _ _ (PyDict.get_mem hget) hj]
    rfl
  refine ⟨⟨.broken, .missing, .missing⟩, ?_, fun _ => rfl⟩
  unfold saveMetadata
  rw [if_pos rfl, dumpJson_broken (d := arrs.map fun a => (a.name, PyVal.dict a.info)) (k := a.name) (v := .dict a.info)
    (List.mem_map.2 ⟨a, ha, rfl⟩) hinfo]

/-- **C119 (the code violates it)** A source that is set later, or groups that are set later, do not appear:
the description is that of the array as it was created. -/
theorem C119_violated_changed (a a' : ArrObj) (s : SourceInfo) (groups : List (List Nat)) (h : a.setSource s = .ok a') :
    a'.source = some s ∧ a'.info = a.info ∧ (a.setGroups groups).numGroups = groups.length ∧ (a.setGroups groups).info = a.info := by
  unfold ArrObj.setSource at h
  split at h
  · cases h; exact ⟨rfl, rfl, rfl, rfl⟩
  · cases h

/-- **C119 (the code violates it)** The pair of `a` and `b->c` and that of `a->b` and `c` have the same name; of
the two only the second one is in the file. -/
theorem C119_violated_pairs : pathInfo [⟨"a", "b->c", false, "ism", none⟩, ⟨"a", "c", false, "none", none⟩,
      ⟨"a->b", "b->c", false, "none", none⟩, ⟨"a->b", "c", false, "direct", none⟩] =
    [("a->b->c", .dict [("type", .str "direct")]), ("a->c", .dict [("type", .str "none")]),
     ("a->b->b->c", .dict [("type", .str "none")])] := by
  rfl

/-- The numbers in a value that is a number, a list, or a list of lists of one number. -/
def PyVal.numbers : PyVal → List Rat
  | .num q => [q]
  | .list l => l.filterMap fun v => match v with
    | .num q => some q
    | .list [.num q] => some q
    | _ => none
  | _ => []

/-- The numbers of an argument. -/
def NumArg.numbers : NumArg → List Rat
  | .num q => [q]
  | .list l => l
  | .array l => l

theorem numbers_list (l : List Rat) : (PyVal.list (l.map .num)).numbers = l := by
  simp [PyVal.numbers, List.filterMap_map, Function.comp_def]

theorem numbers_power (p : NumArg) : p.power.numbers = p.numbers := by
  cases p with
  | num q => rfl
  | list l => exact numbers_list l
  | array l => exact numbers_list l

/-- **C119** The power, number or array, that a source was created with can be found in its description, and so can its
number of channels. -/
theorem C119_power (ch order : Nat) (p f : NumArg) (q : Rat) (fs l : List Rat) :
    ((PyDict.get (SourceInfo.white ch p).info "power").map PyVal.numbers = some p.numbers) ∧
    ((PyDict.get (SourceInfo.sine ch p f).info "power").map PyVal.numbers = some p.numbers) ∧
    ((PyDict.get (SourceInfo.band ch p f).info "power").map PyVal.numbers = some p.numbers) ∧
    ((PyDict.get (SourceInfo.multiSine q fs).info "power").map PyVal.numbers = some [q]) ∧
    ((PyDict.get (SourceInfo.gold ch l order).info "power").map PyVal.numbers = some l) ∧
    ∀ s : SourceInfo, (PyDict.get s.info "number of channels").map PyVal.numbers = some [(s.channels : Rat)] := by
  refine ⟨?_, ?_, ?_, ?_, ?_, ?_⟩
  · simp [SourceInfo.info, PyDict.get, numbers_power]
  · simp [SourceInfo.info, PyDict.get, numbers_power]
  · simp [SourceInfo.info, PyDict.get, numbers_power]
  · simp [SourceInfo.info, PyDict.get, PyVal.numbers]
  · simp [SourceInfo.info, PyDict.get, PyVal.numbers, List.filterMap_map]
  · intro s
    unfold SourceInfo.info
    rw [PyDict.get_cons, if_pos rfl]
    rfl

/-- **C119** A counter, a sum of sines and a maximum length sequence have one channel: they are described so, and are
sources of arrays with one element only. -/
theorem C119_one_channel {s : SourceInfo}
    (hs : (∃ n, s = .counter n) ∨ (∃ p f, s = .multiSine p f) ∨ ∃ o p, s = .mls o p) :
    PyDict.get s.info "number of channels" = some (.num 1) ∧
    ∀ (name cls : String) (pos : List (List Rat)) (groups : Nat) (dynamic : Bool) (region : Option String),
      (∃ a, ArrObj.create name cls pos groups dynamic region (some s) = .ok a) ↔ ∃ x, pos = [x] := by
  have h1 : s.channels = 1 := by
    rcases hs with ⟨_, rfl⟩ | ⟨_, _, rfl⟩ | ⟨_, _, rfl⟩ <;> rfl
  constructor
  · unfold SourceInfo.info
    rw [PyDict.get_cons, if_pos rfl, h1]
    rfl
  · intro name cls pos groups dynamic region
    rw [← List.length_eq_one_iff]
    unfold ArrObj.create
    dsimp only
    rw [h1]
    constructor
    · rintro ⟨a, h⟩
      split at h
      · rename_i h1; exact h1.symm
      · cases h
    · intro h
      exact ⟨_, if_pos h.symm⟩

example (pos : List (List Rat)) : (∃ a, ArrObj.create "src" "FreeSourceArray" pos 1 false none (some (.counter 5)) = .ok a) ↔
    ∃ x, pos = [x] :=
  (C119_one_channel (.inl ⟨5, rfl⟩)).2 "src" "FreeSourceArray" pos 1 false none

/-- **C119** The other sources have the number of channels that they were created with. -/
theorem C119_channels (ch order : Nat) (p f : NumArg) (l : List Rat) (s : SourceInfo)
    (hs : s ∈ [.white ch p, .sine ch p f, .band ch p f, .gold ch l order, .sequence ch, .pulse ch, .autocorr ch]) :
    PyDict.get s.info "number of channels" = some (.num ch) ∧
    ∀ (name cls : String) (pos : List (List Rat)) (groups : Nat) (dynamic : Bool) (region : Option String),
      (∃ a, ArrObj.create name cls pos groups dynamic region (some s) = .ok a) ↔ pos.length = ch := by
  have h1 : s.channels = ch := by
    simp only [List.mem_cons, List.not_mem_nil, or_false] at hs
    rcases hs with rfl | rfl | rfl | rfl | rfl | rfl | rfl <;> rfl
  constructor
  · unfold SourceInfo.info
    rw [PyDict.get_cons, if_pos rfl, h1]
  · intro name cls pos groups dynamic region
    unfold ArrObj.create
    dsimp only
    rw [h1]
    constructor
    · rintro ⟨a, h⟩
      split at h
      · rename_i h1; exact h1.symm
      · cases h
    · intro h
      exact ⟨_, if_pos h.symm⟩

example : PyDict.get (SourceInfo.pulse 3).info "number of channels" = some (.num 3) :=
  (C119_channels 3 0 (.num 1) (.num 1) [] _ (by simp)).1

/-! ### Examples -/

/-- A microphone array, a free source with white noise and a region array. -/
def exArrs : List ArrObj :=
  [⟨"mic", "MicArray", 2, 1, false, [[0, 0, 0], [1, 0, 0]], none,
    [("type", .str "MicArray"), ("number", .num 2), ("number of groups", .num 1), ("dynamic", .bool false)]⟩,
   ⟨"src", "FreeSourceArray", 1, 1, false, [[2, 0, 0]], some (.white 1 (.num 3)),
    [("type", .str "FreeSourceArray"), ("number", .num 1), ("number of groups", .num 1), ("dynamic", .bool false),
     ("source info", .dict (SourceInfo.white 1 (.num 3)).info)]⟩,
   ⟨"zone", "RegionArray", 1, 1, false, [[3, 0, 0]], none,
    [("type", .str "RegionArray"), ("number", .num 1), ("number of groups", .num 1), ("dynamic", .bool false),
     ("region shape", .str "Disc")]⟩]

example : ∃ files, saveMetadata true exArrs [⟨"src", "mic", false, "ism", some [("Max ISM order", .num 7)]⟩] = (files, none) := by
  obtain ⟨files, h, _⟩ := C119_described_partial exArrs
    (fun a => if a.name = "zone" then some "Disc" else none) [⟨"src", "mic", false, "ism", some [("Max ISM order", .num 7)]⟩]
    (by decide)
    (by
      intro a ha
      simp only [exArrs, List.mem_cons, List.not_mem_nil, or_false] at ha
      rcases ha with rfl | rfl | rfl <;> rfl)
    (by
      intro a ha s hs
      simp only [exArrs, List.mem_cons, List.not_mem_nil, or_false] at ha
      rcases ha with rfl | rfl | rfl
      · cases hs
      · cases hs; trivial
      · cases hs)
    (by decide) (by decide)
    (by
      intro p hp m hm
      simp only [List.mem_cons, List.not_mem_nil, or_false] at hp
      subst hp
      cases hm
      simp [PyVal.jsonDict, json_num])
  exact ⟨files, h⟩

example : ∃ files, saveMetadata true [⟨"src", "FreeSourceArray", 1, 1, false, [[2, 0, 0]], some (.multiSine 1 [100, 200]),
      [("type", .str "FreeSourceArray"), ("number", .num 1), ("number of groups", .num 1), ("dynamic", .bool false),
       ("source info", .dict (SourceInfo.multiSine 1 [100, 200]).info)]⟩] [] = (files, some .typeErr) ∧
      ∀ k, files.arrays.value k = none :=
  C119_violated_arrays _ [] _ (List.mem_singleton.2 rfl) none rfl (.multiSine 1 [100, 200]) rfl (fun h => h)

example : ∃ a', ArrObj.setSource (exArrs.getD 1 ⟨"", "", 0, 0, false, [], none, []⟩) (.sine 1 (.num 5) (.num 440)) = .ok a' ∧
    a'.info = (exArrs.getD 1 ⟨"", "", 0, 0, false, [], none, []⟩).info := ⟨_, rfl, rfl⟩

end Verif

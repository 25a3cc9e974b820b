/-
Changing the coordinates of an array collection, and of a simulation.
-/
import Verif.Spec.Room
import Verif.Lemmas.Array
namespace Verif

theorem foldlM_mapOk {ε α β γ : Type} (f : α → β) (step : α → γ → Except ε α) (step' : β → γ → Except ε β) :
    ∀ (l : List γ) (a : α), (∀ a, ∀ x ∈ l, step' (f a) x = (step a x).map f) →
      l.foldlM step' (f a) = (l.foldlM step a).map f
  | [], _, _ => rfl
  | x :: l, a, h => by
    simp only [List.foldlM_cons]
    rw [h a x (by simp)]
    cases step a x with
    | error e => rfl
    | ok b => exact foldlM_mapOk f step step' l b fun a y hy => h a y (by simp [hy])

theorem foldlM_map_inv {ε α β γ : Type} (f : α → β) (I : α → Prop) (step : α → γ → Except ε α)
    (step' : β → γ → Except ε β) :
    ∀ (l : List γ) (a : α), I a → (∀ a, I a → ∀ x ∈ l, step' (f a) x = (step a x).map f) →
      (∀ a, I a → ∀ x ∈ l, ∀ b, step a x = .ok b → I b) →
      l.foldlM step' (f a) = (l.foldlM step a).map f ∧ ∀ b, l.foldlM step a = .ok b → I b
  | [], a, ha, _, _ => ⟨rfl, by rintro b ⟨⟩; exact ha⟩
  | x :: l, a, ha, h, hi => by
    simp only [List.foldlM_cons]
    rw [h a ha x (by simp)]
    cases hs : step a x with
    | error e => exact ⟨rfl, by rintro b ⟨⟩⟩
    | ok b =>
      exact foldlM_map_inv f I step step' l b (hi a ha x (by simp) b hs) (fun a ha y hy => h a ha y (by simp [hy]))
        (fun a ha y hy => hi a ha y (by simp [hy]))

section
variable {Pt Pt' H G : Type}

theorem Arr.mapPos_dynamic (f : Pt → Pt') (a : Arr Pt) : (a.mapPos f).dynamic = a.dynamic := by
  cases a with | mk => simp [Arr.mapPos, Arr.dynamic]

theorem Arr.mapPos_update (f : Pt → Pt') (n : Nat) (a : Arr Pt) : (a.mapPos f).update n = (a.update n).mapPos f := by
  unfold Arr.update
  cases h : a.traj <;> simp [Arr.mapPos, h]

theorem Coll.mapPos_find (f : Pt → Pt') (c : Coll Pt H) (nm : String) :
    (c.mapPos f).find nm = (c.find nm).map (Arr.mapPos f) := by
  unfold Coll.find Coll.mapPos
  simp only [List.find?_map]
  rfl

theorem Coll.mapPos_combos (f : Pt → Pt') (c : Coll Pt H) : (c.mapPos f).combos = c.combos := rfl

theorem Coll.mapPos_calc (f : Pt → Pt') (c : Coll Pt H) : (c.mapPos f).calcRirParameters = c.calcRirParameters := by
  unfold Coll.calcRirParameters
  rw [Coll.mapPos_combos]
  congr 3
  funext p
  rw [Coll.mapPos_find, Coll.mapPos_find]
  cases c.find p.1 <;> cases c.find p.2 <;> simp [Arr.mapPos]

variable {gen : GenFn Pt H G} {gen' : GenFn Pt' H G} {f : Pt → Pt'} {T : String → Prop}

/-- State and collection with changed coordinates. -/
def mapGc (f : Pt → Pt') (gc : G × Coll Pt H) : G × Coll Pt' H := (gc.1, gc.2.mapPos f)

theorem setupOne_mapPos (hgen : ∀ g a b t, T t → gen' g (a.mapPos f) (b.mapPos f) t = gen g a b t) (hn : T "none")
    (gc : G × Coll Pt H) (hT : ∀ s m t, gc.2.types s m = some t → T t) (p : String × String) :
    Coll.setupOne gen' (mapGc f gc) p = (Coll.setupOne gen gc p).map (mapGc f) := by
  unfold Coll.setupOne
  simp only [mapGc, Coll.mapPos_find]
  cases gc.2.find p.1 with
  | none => rfl
  | some s =>
    cases gc.2.find p.2 with
    | none => rfl
    | some m =>
      simp only [Option.map_some]
      have h1 : (s.mapPos f).num = s.num := rfl
      have h2 : (m.mapPos f).num = m.num := rfl
      have h3 : (gc.2.mapPos f).types = gc.2.types := rfl
      rw [h1, h2, h3]
      cases ht : (if s.num = 0 ∨ m.num = 0 then some "none" else gc.2.types p.1 p.2) with
      | none => rfl
      | some t =>
        have hTt : T t := by
          split at ht
          · cases ht; exact hn
          · exact hT _ _ _ ht
        dsimp only
        split
        · have := hgen gc.1 s.geo m.geo t hTt
          have h4 : (s.mapPos f).geo = s.geo.mapPos f := rfl
          have h5 : (m.mapPos f).geo = m.geo.mapPos f := rfl
          rw [h4, h5, this]
          cases gen gc.1 s.geo m.geo t <;> rfl
        · rfl

theorem setupOne_types {gc gc' : G × Coll Pt H} {p : String × String} (h : Coll.setupOne gen gc p = .ok gc') :
    gc'.2.types = gc.2.types := by
  unfold Coll.setupOne at h
  split at h
  · split at h
    · cases h
    · split at h
      · split at h
        · cases h
        · cases h; rfl
      · cases h; rfl
  · cases h

theorem setupIr_mapPos (hgen : ∀ g a b t, T t → gen' g (a.mapPos f) (b.mapPos f) t = gen g a b t) (hn : T "none")
    (g : G) (c : Coll Pt H) (hT : ∀ s m t, c.types s m = some t → T t) :
    (c.mapPos f).setupIr gen' g = (c.setupIr gen g).map (mapGc f) ∧
      ∀ gc, c.setupIr gen g = .ok gc → gc.2.types = c.types := by
  unfold Coll.setupIr
  rw [Coll.mapPos_calc, Coll.mapPos_combos]
  cases c.calcRirParameters with
  | error x => exact ⟨rfl, by rintro gc ⟨⟩⟩
  | ok _ =>
    exact foldlM_map_inv (mapGc f) (fun gc => gc.2.types = c.types) (Coll.setupOne gen) (Coll.setupOne gen') c.combos
      (g, c) rfl (fun a ha x _ => setupOne_mapPos hgen hn a (by rw [ha]; exact hT) x)
      fun a ha x _ b hb => (setupOne_types hb).trans ha

theorem updatePath_mapPos (hgen : ∀ g a b t, T t → gen' g (a.mapPos f) (b.mapPos f) t = gen g a b t)
    (gc : G × Coll Pt H) (hT : ∀ s m t, gc.2.types s m = some t → T t) (s m : String) :
    Coll.updatePath gen' (mapGc f gc) s m = (Coll.updatePath gen gc s m).map (mapGc f) := by
  unfold Coll.updatePath
  simp only [mapGc, Coll.mapPos_find]
  cases gc.2.find s with
  | none => rfl
  | some a =>
    cases gc.2.find m with
    | none => rfl
    | some b =>
      have h3 : (gc.2.mapPos f).types = gc.2.types := rfl
      rw [h3]
      cases ht : gc.2.types s m with
      | none => rfl
      | some t =>
        simp only [Option.map_some]
        split
        · rfl
        · have := hgen gc.1 a.geo b.geo t (hT _ _ _ ht)
          have h4 : (a.mapPos f).geo = a.geo.mapPos f := rfl
          have h5 : (b.mapPos f).geo = b.geo.mapPos f := rfl
          rw [h4, h5, this]
          cases gen gc.1 a.geo b.geo t <;> rfl

theorem updatePath_types {gc gc' : G × Coll Pt H} {s m : String} (h : Coll.updatePath gen gc s m = .ok gc') :
    gc'.2.types = gc.2.types := by
  unfold Coll.updatePath at h
  split at h
  · split at h
    · cases h
    · split at h
      · cases h
      · cases h; rfl
  · cases h

theorem updateLoop_mapPos (hgen : ∀ g a b t, T t → gen' g (a.mapPos f) (b.mapPos f) t = gen g a b t) :
    ∀ (l already : List String) (gc : G × Coll Pt H), (∀ s m t, gc.2.types s m = some t → T t) →
      Coll.updateLoop gen' l already (mapGc f gc) = (Coll.updateLoop gen l already gc).map (mapGc f) ∧
      ∀ gc', Coll.updateLoop gen l already gc = .ok gc' → gc'.2.types = gc.2.types
  | [], already, gc, hT => ⟨rfl, by rintro gc' ⟨⟩; rfl⟩
  | nm :: rest, already, gc, hT => by
    unfold Coll.updateLoop
    have hf : (mapGc f gc).2.find nm = (gc.2.find nm).map (Arr.mapPos f) := Coll.mapPos_find ..
    rw [hf]
    cases gc.2.find nm with
    | none => exact ⟨rfl, by rintro gc' ⟨⟩⟩
    | some a =>
      simp only [Option.map_some]
      have hk : (a.mapPos f).kind = a.kind := rfl
      rw [hk]
      cases a.kind with
      | none => exact ⟨rfl, by rintro gc' ⟨⟩⟩
      | some k =>
        cases k with
        | mic =>
          dsimp only
          have key := foldlM_map_inv (mapGc f) (fun x => x.2.types = gc.2.types)
            (fun gc s => Coll.updatePath gen gc s nm) (fun gc s => Coll.updatePath gen' gc s nm)
            (gc.2.srcs.filter fun s => !already.contains s) gc rfl
            (fun a ha x _ => updatePath_mapPos hgen a (by rw [ha]; exact hT) x nm)
            fun a ha x _ b hb => (updatePath_types hb).trans ha
          have hs : (mapGc f gc).2.srcs = gc.2.srcs := rfl
          rw [hs, key.1]
          cases hr : (gc.2.srcs.filter fun s => !already.contains s).foldlM
              (fun gc s => Coll.updatePath gen gc s nm) gc with
          | error x => exact ⟨rfl, by rintro gc' ⟨⟩⟩
          | ok gc1 =>
            have ht := key.2 gc1 hr
            simp only [Except.map]
            have hs1 : (mapGc f gc1).2.srcs = gc1.2.srcs := rfl
            rw [hs1]
            cases gc1.2.srcs.getLast? with
            | none => exact ⟨rfl, by rintro gc' ⟨⟩⟩
            | some s =>
              dsimp only
              have hp : (mapGc f gc1).2.paths = gc1.2.paths := rfl
              rw [hp]
              cases gc1.2.paths s nm with
              | none => exact ⟨rfl, by rintro gc' ⟨⟩⟩
              | some h =>
                have ih := updateLoop_mapPos hgen rest (already ++ [nm])
                  (gc1.1, { gc1.2 with rirs := gc1.2.rirs ++ [h] }) (by dsimp only; rw [ht]; exact hT)
                exact ⟨ih.1, fun gc' hg => (ih.2 gc' hg).trans ht⟩
        | free =>
          dsimp only
          have key := foldlM_map_inv (mapGc f) (fun x => x.2.types = gc.2.types)
            (fun gc m => Coll.updatePath gen gc nm m) (fun gc m => Coll.updatePath gen' gc nm m)
            (gc.2.mics.filter fun s => !already.contains s) gc rfl
            (fun a ha x _ => updatePath_mapPos hgen a (by rw [ha]; exact hT) nm x)
            fun a ha x _ b hb => (updatePath_types hb).trans ha
          have hs : (mapGc f gc).2.mics = gc.2.mics := rfl
          rw [hs, key.1]
          cases hr : (gc.2.mics.filter fun s => !already.contains s).foldlM
              (fun gc m => Coll.updatePath gen gc nm m) gc with
          | error x => exact ⟨rfl, by rintro gc' ⟨⟩⟩
          | ok gc1 =>
            have ht := key.2 gc1 hr
            have ih := updateLoop_mapPos hgen rest (already ++ [nm]) gc1 (by rw [ht]; exact hT)
            exact ⟨ih.1, fun gc' hg => (ih.2 gc' hg).trans ht⟩
        | ctrl =>
          dsimp only
          have key := foldlM_map_inv (mapGc f) (fun x => x.2.types = gc.2.types)
            (fun gc m => Coll.updatePath gen gc nm m) (fun gc m => Coll.updatePath gen' gc nm m)
            (gc.2.mics.filter fun s => !already.contains s) gc rfl
            (fun a ha x _ => updatePath_mapPos hgen a (by rw [ha]; exact hT) nm x)
            fun a ha x _ b hb => (updatePath_types hb).trans ha
          have hs : (mapGc f gc).2.mics = gc.2.mics := rfl
          rw [hs, key.1]
          cases hr : (gc.2.mics.filter fun s => !already.contains s).foldlM
              (fun gc m => Coll.updatePath gen gc nm m) gc with
          | error x => exact ⟨rfl, by rintro gc' ⟨⟩⟩
          | ok gc1 =>
            have ht := key.2 gc1 hr
            have ih := updateLoop_mapPos hgen rest (already ++ [nm]) gc1 (by rw [ht]; exact hT)
            exact ⟨ih.1, fun gc' hg => (ih.2 gc' hg).trans ht⟩

theorem update_mapPos (hgen : ∀ g a b t, T t → gen' g (a.mapPos f) (b.mapPos f) t = gen g a b t)
    (gc : G × Coll Pt H) (hT : ∀ s m t, gc.2.types s m = some t → T t) (n : Nat) :
    Coll.update gen' (mapGc f gc) n = (Coll.update gen gc n).map (mapGc f) ∧
      ∀ gc', Coll.update gen gc n = .ok gc' → gc'.2.types = gc.2.types := by
  unfold Coll.update
  have h1 : (mapGc f gc).2.freq = gc.2.freq := rfl
  rw [h1]
  split
  · exact ⟨rfl, by rintro gc' ⟨⟩⟩
  · split
    · exact ⟨rfl, by rintro gc' ⟨⟩; rfl⟩
    · have h2 : ((mapGc f gc).2.arrays.filter Arr.dynamic).map Arr.name =
          (gc.2.arrays.filter Arr.dynamic).map Arr.name := by
        show ((gc.2.arrays.map (Arr.mapPos f)).filter Arr.dynamic).map Arr.name = _
        rw [List.filter_map, List.map_map]
        have : (Arr.dynamic ∘ Arr.mapPos f : Arr Pt → Bool) = Arr.dynamic := funext (Arr.mapPos_dynamic f)
        rw [this]
        rfl
      have h3 : ((mapGc f gc).1, { (mapGc f gc).2 with arrays := (mapGc f gc).2.arrays.map (Arr.update n) }) =
          mapGc f (gc.1, { gc.2 with arrays := gc.2.arrays.map (Arr.update n) }) := by
        simp only [mapGc, Coll.mapPos, List.map_map]
        congr 3
        funext a
        exact Arr.mapPos_update f n a
      rw [h2, h3]
      exact updateLoop_mapPos hgen _ [] _ hT

end

/-! ### the simulator -/

section
variable {R IR F S A A' P D O : Type}

/-- The state with another description of the arrays. -/
def Eng.onArr {Sg : Type} (φ : A → A') (e : Eng Sg F S A P) : Eng Sg F S A' P :=
  ⟨e.sig, e.srcs, e.filts, φ e.arr, e.proc⟩

/-- The state with another description of the arrays. -/
def SimSt.onArr (φ : A → A') (st : SimSt R F S A P D O) : SimSt R F S A' P D O :=
  ⟨st.eng.onArr φ, st.idx, st.n, st.diags, st.log⟩

/-- The simulation with another description of the arrays. -/
def SimCfg.setArr (cfg : SimCfg R IR F S A P D O) (upd : A' → Nat → Except PyErr A')
    (path : A' → String → String → Except PyErr IR) : SimCfg R IR F S A' P D O :=
  { B := cfg.B, C := cfg.C, tot := cfg.tot, warm := cfg.warm, contrib := cfg.contrib, plotNone := cfg.plotNone
    arrays := cfg.arrays, srcGet := cfg.srcGet, filt := cfg.filt, arrUpdate := upd, arrPath := path
    proc := cfg.proc, diag := cfg.diag }

variable {cfg : SimCfg R IR F S A P D O} {upd : A' → Nat → Except PyErr A'}
  {path : A' → String → String → Except PyErr IR} {φ : A → A'} {I : A → Prop}

theorem withArr_B : (cfg.setArr upd path).B = cfg.B := rfl
theorem withArr_C : (cfg.setArr upd path).C = cfg.C := rfl
theorem withArr_plotNone : (cfg.setArr upd path).plotNone = cfg.plotNone := rfl
theorem withArr_arrays : (cfg.setArr upd path).arrays = cfg.arrays := rfl
theorem withArr_srcGet : (cfg.setArr upd path).srcGet = cfg.srcGet := rfl
theorem withArr_filt : (cfg.setArr upd path).filt = cfg.filt := rfl
theorem withArr_upd : (cfg.setArr upd path).arrUpdate = upd := rfl
theorem withArr_path : (cfg.setArr upd path).arrPath = path := rfl
theorem withArr_proc : (cfg.setArr upd path).proc = cfg.proc := rfl
theorem withArr_diag : (cfg.setArr upd path).diag = cfg.diag := rfl
theorem withArr_num : (cfg.setArr upd path).prepNum = cfg.prepNum := rfl
theorem withArr_last : (cfg.setArr upd path).lastBlock = cfg.lastBlock := rfl
theorem mapArr_sig {Sg : Type} (e : Eng Sg F S A P) : (e.onArr φ).sig = e.sig := rfl
theorem mapArr_srcs {Sg : Type} (e : Eng Sg F S A P) : (e.onArr φ).srcs = e.srcs := rfl
theorem mapArr_filts {Sg : Type} (e : Eng Sg F S A P) : (e.onArr φ).filts = e.filts := rfl
theorem mapArr_arr {Sg : Type} (e : Eng Sg F S A P) : (e.onArr φ).arr = φ e.arr := rfl
theorem mapArr_proc {Sg : Type} (e : Eng Sg F S A P) : (e.onArr φ).proc = e.proc := rfl
theorem mapArr_eng (e : SimSt R F S A P D O) : (e.onArr φ).eng = e.eng.onArr φ := rfl
theorem mapArr_idx (e : SimSt R F S A P D O) : (e.onArr φ).idx = e.idx := rfl
theorem mapArr_n (e : SimSt R F S A P D O) : (e.onArr φ).n = e.n := rfl
theorem mapArr_diags (e : SimSt R F S A P D O) : (e.onArr φ).diags = e.diags := rfl
theorem mapArr_log (e : SimSt R F S A P D O) : (e.onArr φ).log = e.log := rfl

/-- Simplifies the fields of `SimCfg.setArr` and `onArr`. -/
macro "simparr" : tactic =>
  `(tactic| try simp only [withArr_B, withArr_C,  withArr_plotNone, withArr_arrays, withArr_srcGet,
    withArr_filt, withArr_upd, withArr_path, withArr_proc, withArr_diag, withArr_num, withArr_last,
    mapArr_sig, mapArr_srcs, mapArr_filts, mapArr_arr, mapArr_proc, mapArr_eng, mapArr_idx, mapArr_n,
    mapArr_diags, mapArr_log])

theorem prepSource_arr (num : Nat) (e : Eng (Sigs R) F S A P) (a : ArrInfo) :
    (cfg.setArr upd path).prepSource num (e.onArr φ) a = (cfg.prepSource num e a).map (Eng.onArr φ) := by
  unfold SimCfg.prepSource
  simparr
  cases cfg.srcGet (e.srcs a.name) num with
  | error x => rfl
  | ok r =>
    dsimp only
    simparr
    cases sigAssign e.sig a.name ((cfg.B : Int) - num) cfg.B r.2 <;> rfl

theorem stepSource_arr (i : Int) (e : Eng (Sigs R) F S A P) (a : ArrInfo) :
    (cfg.setArr upd path).stepSource i (e.onArr φ) a = (cfg.stepSource i e a).map (Eng.onArr φ) := by
  unfold SimCfg.stepSource
  simparr
  cases cfg.srcGet (e.srcs a.name) 1 with
  | error x => rfl
  | ok r =>
    dsimp only
    simparr
    cases sigAssign e.sig a.name i (i + 1) r.2 <;> rfl

theorem prepPair_arr [Add R] (num : Nat) (e : Eng (Sigs R) F S A P) (p : ArrInfo × ArrInfo) :
    (cfg.setArr upd path).prepPair num (e.onArr φ) p = (cfg.prepPair num e p).map (Eng.onArr φ) := by
  unfold SimCfg.prepPair
  simparr
  cases sigGet e.sig p.1.name ((cfg.B : Int) - num) cfg.B with
  | error x => rfl
  | ok x =>
    dsimp only
    simparr
    cases cfg.filt.process (e.filts p.1.name p.2.name) x with
    | error x => rfl
    | ok r =>
      dsimp only
      simparr
      cases sigAdd e.sig p.2.name 0 cfg.B r.2 with
      | error x => rfl
      | ok sig =>
        dsimp only
        simparr
        have hc : (if (cfg.setArr upd path).contrib then
            sigAssign sig (contribName p.1 p.2) ((cfg.B : Int) - num) cfg.B r.2 else .ok sig) = (if cfg.contrib then
            sigAssign sig (contribName p.1 p.2) ((cfg.B : Int) - num) cfg.B r.2 else .ok sig) := rfl
        rw [hc]
        cases (if cfg.contrib then
            sigAssign sig (contribName p.1 p.2) ((cfg.B : Int) - num) cfg.B r.2 else .ok sig) <;> rfl

theorem stepPair_arr [Add R] (i : Int) (e : Eng (Sigs R) F S A P) (p : ArrInfo × ArrInfo) :
    (cfg.setArr upd path).stepPair i (e.onArr φ) p = (cfg.stepPair i e p).map (Eng.onArr φ) := by
  unfold SimCfg.stepPair
  simparr
  cases sigGet e.sig p.1.name i (i + 1) with
  | error x => rfl
  | ok x =>
    dsimp only
    simparr
    cases cfg.filt.process (e.filts p.1.name p.2.name) x with
    | error x => rfl
    | ok r =>
      dsimp only
      simparr
      cases sigAdd e.sig p.2.name i (i + 1) r.2 with
      | error x => rfl
      | ok sig =>
        dsimp only
        simparr
        have hc : (if (cfg.setArr upd path).contrib then
            sigAssign sig (contribName p.1 p.2) i (i + 1) r.2 else .ok sig) = (if cfg.contrib then
            sigAssign sig (contribName p.1 p.2) i (i + 1) r.2 else .ok sig) := rfl
        rw [hc]
        cases (if cfg.contrib then
            sigAssign sig (contribName p.1 p.2) i (i + 1) r.2 else .ok sig) <;> rfl

theorem stepUpdate_arr {Sg : Type} (hp : ∀ a s m, path (φ a) s m = cfg.arrPath a s m) (e : Eng Sg F S A P)
    (p : ArrInfo × ArrInfo) :
    (cfg.setArr upd path).stepUpdate (e.onArr φ) p = (cfg.stepUpdate e p).map (Eng.onArr φ) := by
  unfold SimCfg.stepUpdate
  split
  · simparr
    rw [hp]
    cases cfg.arrPath e.arr p.1.name p.2.name with
    | error x => rfl
    | ok ir =>
      dsimp only
      simparr
      cases cfg.filt.updateIr (e.filts p.1.name p.2.name) ir <;> rfl
  · rfl

theorem createFilters_arr (hp : ∀ a s m, path (φ a) s m = cfg.arrPath a s m) (a : A) (f0 : String → String → F) :
    (cfg.setArr upd path).createFilters (φ a) f0 = cfg.createFilters a f0 := by
  unfold SimCfg.createFilters
  simp only [withArr_path, withArr_arrays, withArr_filt, hp]

theorem propagate_arr [Add R] (hp : ∀ a s m, path (φ a) s m = cfg.arrPath a s m) (i : Int) (e : Eng (Sigs R) F S A P) :
    (cfg.setArr upd path).propagate i (e.onArr φ) = (cfg.propagate i e).map (Eng.onArr φ) := by
  unfold SimCfg.propagate
  simparr
  rw [foldlM_mapOk (Eng.onArr φ) (cfg.stepSource i) _ _ _ fun a x _ => stepSource_arr i a x]
  cases (freeOf cfg.arrays).foldlM (cfg.stepSource i) e with
  | error x => rfl
  | ok e1 =>
    simp only [Except.map]
    simparr
    rw [foldlM_mapOk (Eng.onArr φ) cfg.stepUpdate _ _ _ fun a x _ => stepUpdate_arr hp a x]
    cases (combosOf cfg.arrays).foldlM cfg.stepUpdate e1 with
    | error x => rfl
    | ok e2 =>
      simp only [Except.map]
      exact foldlM_mapOk (Eng.onArr φ) (cfg.stepPair i) _ _ _ fun a x _ => stepPair_arr i a x

theorem foldlM_keepsArr {α γ : Type} {ε : Type} (I : α → Prop) (step : α → γ → Except ε α) :
    ∀ (l : List γ) (a : α), I a → (∀ a, I a → ∀ x b, step a x = .ok b → I b) → ∀ b, l.foldlM step a = .ok b → I b
  | [], a, ha, _, b, h => by cases h; exact ha
  | x :: l, a, ha, hi, b, h => by
    simp only [List.foldlM_cons] at h
    cases hs : step a x with
    | error e => rw [hs] at h; cases h
    | ok c => rw [hs] at h; exact foldlM_keepsArr I step l c (hi a ha x c hs) hi b h

theorem prepSource_keeps {num : Nat} {e e' : Eng (Sigs R) F S A P} {a : ArrInfo}
    (h : cfg.prepSource num e a = .ok e') : e'.arr = e.arr := by
  unfold SimCfg.prepSource at h
  split at h
  · cases h
  · split at h
    · cases h
    · cases h; rfl

theorem prepPair_keeps [Add R] {num : Nat} {e e' : Eng (Sigs R) F S A P} {p : ArrInfo × ArrInfo}
    (h : cfg.prepPair num e p = .ok e') : e'.arr = e.arr := by
  unfold SimCfg.prepPair at h
  split at h
  · cases h
  · split at h
    · cases h
    · split at h
      · cases h
      · split at h
        · cases h
        · cases h; rfl

theorem propagate_keeps [Add R] {i : Int} {e e' : Eng (Sigs R) F S A P} (h : cfg.propagate i e = .ok e') :
    e'.arr = e.arr := by
  unfold SimCfg.propagate at h
  split at h
  · cases h
  · rename_i e1 h1
    have k1 := foldlM_keepsArr (fun x => x.arr = e.arr) (cfg.stepSource i) _ e rfl
      (fun a ha x b hb => by
        unfold SimCfg.stepSource at hb
        split at hb
        · cases hb
        · split at hb
          · cases hb
          · cases hb; exact ha) e1 h1
    split at h
    · cases h
    · rename_i e2 h2
      have k2 := foldlM_keepsArr (fun x => x.arr = e.arr) cfg.stepUpdate _ e1 k1
        (fun a ha x b hb => by
          unfold SimCfg.stepUpdate at hb
          split at hb
          · split at hb
            · cases hb
            · split at hb
              · cases hb
              · cases hb; exact ha
          · cases hb; exact ha) e2 h2
      exact foldlM_keepsArr (fun x => x.arr = e.arr) (cfg.stepPair i) _ e2 k2
        (fun a ha x b hb => by
          unfold SimCfg.stepPair at hb
          split at hb
          · cases hb
          · split at hb
            · cases hb
            · split at hb
              · cases hb
              · split at hb
                · cases hb
                · cases hb; exact ha) e' h

theorem callProc_arr (n : Nat) (i : Int) (e : Eng (Sigs R) F S A P) :
    (cfg.setArr upd path).callProc n i (e.onArr φ) = (cfg.callProc n i e).map (Eng.onArr φ) := by
  unfold SimCfg.callProc
  simparr
  cases cfg.proc with
  | none => rfl
  | some p =>
    dsimp only
    split
    · rfl
    · split
      · simparr
        cases p.process e.proc e.sig i <;> rfl
      · rfl

theorem callProc_keeps {n : Nat} {i : Int} {e e' : Eng (Sigs R) F S A P} (h : cfg.callProc n i e = .ok e') :
    e'.arr = e.arr := by
  unfold SimCfg.callProc at h
  split at h
  · cases h; rfl
  · split at h
    · cases h
    · split at h
      · split at h
        · cases h
        · cases h; rfl
      · cases h; rfl

theorem engine_arr [Add R] (hp : ∀ a s m, path (φ a) s m = cfg.arrPath a s m)
    (hu : ∀ a n, I a → upd (φ a) n = (cfg.arrUpdate a n).map φ) (n : Nat) (i : Int) (e : Eng (Sigs R) F S A P)
    (hI : I e.arr) :
    (cfg.setArr upd path).engine n i (e.onArr φ) = (cfg.engine n i e).map (Eng.onArr φ) := by
  unfold SimCfg.engine
  simparr
  rw [hu _ _ hI]
  cases cfg.arrUpdate e.arr n with
  | error x => rfl
  | ok arr =>
    simp only [Except.map]
    have := callProc_arr (cfg := cfg) (upd := upd) (path := path) (φ := φ) n i { e with arr := arr }
    rw [show (⟨e.sig, e.srcs, e.filts, φ arr, e.proc⟩ : Eng (Sigs R) F S A' P) =
      Eng.onArr φ { e with arr := arr } from rfl, this]
    cases cfg.callProc n i { e with arr := arr } with
    | error x => rfl
    | ok e1 => exact propagate_arr hp i e1

theorem engine_keeps [Add R] {n : Nat} {i : Int} {e e' : Eng (Sigs R) F S A P}
    (hk : ∀ a n b, I a → cfg.arrUpdate a n = .ok b → I b) (hI : I e.arr) (h : cfg.engine n i e = .ok e') :
    I e'.arr := by
  unfold SimCfg.engine at h
  split at h
  · cases h
  · rename_i arr ha
    split at h
    · cases h
    · rename_i e1 h1
      rw [propagate_keeps h, callProc_keeps h1]
      exact hk _ _ _ hI ha

theorem step_arr [Zero R] [Add R] (hp : ∀ a s m, path (φ a) s m = cfg.arrPath a s m)
    (hu : ∀ a n, I a → upd (φ a) n = (cfg.arrUpdate a n).map φ) (st : SimSt R F S A P D O) (hI : I st.eng.arr) :
    (cfg.setArr upd path).step (st.onArr φ) = (cfg.step st).map (SimSt.onArr φ) := by
  unfold SimCfg.step
  rw [show (cfg.setArr upd path).engine (st.onArr φ).n (st.onArr φ).idx (st.onArr φ).eng = _ from
    engine_arr hp hu st.n st.idx st.eng hI]
  cases cfg.engine st.n st.idx st.eng with
  | error x => rfl
  | ok e =>
    simp only [Except.map]
    have hs : saveData (cfg.setArr upd path).diag (if (cfg.setArr upd path).proc.isSome then
          some (e.onArr φ).proc else none) (e.onArr φ).sig (st.onArr φ).idx (st.onArr φ).n
          ((cfg.setArr upd path).lastBlock (st.onArr φ).idx) (st.onArr φ).diags =
        saveData cfg.diag (if cfg.proc.isSome then some e.proc else none) e.sig st.idx st.n
          (cfg.lastBlock st.idx) st.diags := rfl
    rw [hs]
    cases saveData cfg.diag (if cfg.proc.isSome then some e.proc else none) e.sig st.idx st.n
      (cfg.lastBlock st.idx) st.diags with
    | error x => rfl
    | ok ds =>
      dsimp only
      have hd : dispatch (cfg.setArr upd path).diag (cfg.setArr upd path).plotNone ds (st.onArr φ).log =
        dispatch cfg.diag cfg.plotNone ds st.log := rfl
      rw [hd]
      cases dispatch cfg.diag cfg.plotNone ds st.log with
      | error x => rfl
      | ok r =>
        have hl : (cfg.setArr upd path).lastBlock (st.onArr φ).idx = cfg.lastBlock st.idx := rfl
        rw [hl]
        dsimp only
        cases cfg.lastBlock st.idx <;> rfl

theorem step_keeps [Zero R] [Add R] (hk : ∀ a n b, I a → cfg.arrUpdate a n = .ok b → I b)
    {st st' : SimSt R F S A P D O} (hI : I st.eng.arr) (h : cfg.step st = .ok st') : I st'.eng.arr := by
  unfold SimCfg.step at h
  split at h
  · cases h
  · rename_i e he
    have := engine_keeps hk hI he
    dsimp only at h
    split at h
    · cases h
    · split at h
      · cases h
      · cases h
        dsimp only
        split <;> exact this

theorem steps_arr [Zero R] [Add R] (hp : ∀ a s m, path (φ a) s m = cfg.arrPath a s m)
    (hu : ∀ a n, I a → upd (φ a) n = (cfg.arrUpdate a n).map φ)
    (hk : ∀ a n b, I a → cfg.arrUpdate a n = .ok b → I b) (st : SimSt R F S A P D O) (hI : I st.eng.arr) :
    ∀ k, (cfg.setArr upd path).steps k (st.onArr φ) = (cfg.steps k st).map (SimSt.onArr φ) ∧
      ∀ st', cfg.steps k st = .ok st' → I st'.eng.arr
  | 0 => ⟨rfl, by rintro st' ⟨⟩; exact hI⟩
  | k + 1 => by
    obtain ⟨h1, h2⟩ := steps_arr hp hu hk st hI k
    simp only [SimCfg.steps]
    rw [h1]
    cases hs : cfg.steps k st with
    | error x => exact ⟨rfl, by rintro st' ⟨⟩⟩
    | ok st1 => exact ⟨step_arr hp hu st1 (h2 st1 hs), fun st' h => step_keeps hk (h2 st1 hs) h⟩

theorem init_arr [Zero R] [Add R] (hp : ∀ a s m, path (φ a) s m = cfg.arrPath a s m) (srcs : String → S) (arr : A)
    (proc : P) (f0 : F) (ds : List (Diag D)) :
    (cfg.setArr upd path).init srcs (φ arr) proc f0 ds = (cfg.init srcs arr proc f0 ds).map (SimSt.onArr φ) ∧
      ∀ st, cfg.init srcs arr proc f0 ds = .ok st → st.eng.arr = arr := by
  unfold SimCfg.init
  have h1 : (cfg.setArr upd path).createSignals = cfg.createSignals := rfl
  rw [h1]
  cases cfg.createSignals with
  | error x => exact ⟨rfl, by rintro st ⟨⟩⟩
  | ok sig =>
    dsimp only
    rw [createFilters_arr hp]
    cases cfg.createFilters arr (fun _ _ => f0) with
    | error x => exact ⟨rfl, by rintro st ⟨⟩⟩
    | ok fs =>
      dsimp only
      have key : ∀ e : Eng (Sigs R) F S A P, (cfg.setArr upd path).prepare (e.onArr φ) =
          (cfg.prepare e).map (Eng.onArr φ) ∧ ∀ e', cfg.prepare e = .ok e' → e'.arr = e.arr := by
        intro e
        unfold SimCfg.prepare
        simparr
        rw [foldlM_mapOk (Eng.onArr φ) (cfg.prepSource cfg.prepNum) _ _ _ fun a x _ => prepSource_arr _ a x]
        cases hs : (freeOf cfg.arrays).foldlM (cfg.prepSource cfg.prepNum) e with
        | error x => exact ⟨rfl, by rintro e' ⟨⟩⟩
        | ok e1 =>
          have k1 := foldlM_keepsArr (fun x => x.arr = e.arr) (cfg.prepSource cfg.prepNum) _ e rfl
            (fun a ha x b hb => (prepSource_keeps hb).trans ha) e1 hs
          exact ⟨foldlM_mapOk (Eng.onArr φ) (cfg.prepPair cfg.prepNum) _ _ _ fun a x _ => prepPair_arr _ a x,
            foldlM_keepsArr (fun x => x.arr = e.arr) (cfg.prepPair cfg.prepNum) _ e1 k1
              (fun a ha x b hb => (prepPair_keeps hb).trans ha)⟩
      have k := key ⟨sig, srcs, fs, arr, proc⟩
      rw [show (⟨sig, srcs, fs, φ arr, proc⟩ : Eng (Sigs R) F S A' P) = Eng.onArr φ ⟨sig, srcs, fs, arr, proc⟩
        from rfl, k.1]
      cases hq : cfg.prepare ⟨sig, srcs, fs, arr, proc⟩ with
      | error x => exact ⟨rfl, by rintro st ⟨⟩⟩
      | ok e => exact ⟨rfl, by rintro st ⟨⟩; exact k.2 e hq⟩

theorem run_arr [Zero R] [Add R] (hp : ∀ a s m, path (φ a) s m = cfg.arrPath a s m)
    (hu : ∀ a n, I a → upd (φ a) n = (cfg.arrUpdate a n).map φ)
    (hk : ∀ a n b, I a → cfg.arrUpdate a n = .ok b → I b) (srcs : String → S) (arr : A) (hI : I arr)
    (proc : P) (f0 : F) (ds : List (Diag D)) :
    (cfg.setArr upd path).run srcs (φ arr) proc f0 ds = (cfg.run srcs arr proc f0 ds).map (SimSt.onArr φ) := by
  unfold SimCfg.run
  obtain ⟨h1, h2⟩ := init_arr (upd := upd) hp srcs arr proc f0 ds
  rw [h1]
  cases hi : cfg.init srcs arr proc f0 ds with
  | error x => rfl
  | ok st =>
    simp only [Except.map]
    have hm : (cfg.setArr upd path).tot + (cfg.setArr upd path).mbs = cfg.tot + cfg.mbs := rfl
    rw [hm, (steps_arr hp hu hk st (by rw [h2 st hi]; exact hI) _).1]
    cases cfg.steps (cfg.tot + cfg.mbs) st with
    | error x => rfl
    | ok st' =>
      simp only [Except.map]
      simparr
      cases dispatch cfg.diag cfg.plotNone st'.diags st'.log <;> rfl

end
end Verif

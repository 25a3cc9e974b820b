/-
Runs with equivalent array collections produce the same signals.
-/
import Verif.Model.Shared
import Verif.Lemmas.Sim
namespace Verif

section
variable {R IR F S A A' P D O : Type}

/-- The same configuration with another representation of the array collection. -/
def SimCfg.withArr (cfg : SimCfg R IR F S A P D O) (upd : A' → Nat → Except PyErr A')
    (path : A' → String → String → Except PyErr IR) : SimCfg R IR F S A' P D O :=
  ⟨cfg.B, cfg.C, cfg.tot, cfg.warm, cfg.contrib, cfg.plotNone, cfg.arrays, cfg.srcGet, cfg.filt, upd, path, cfg.proc, cfg.diag⟩

def Eng.mapArr {Sg : Type} (h : A → A') (e : Eng Sg F S A P) : Eng Sg F S A' P := ⟨e.sig, e.srcs, e.filts, h e.arr, e.proc⟩

def SimSt.mapArr (h : A → A') (st : SimSt R F S A P D O) : SimSt R F S A' P D O :=
  ⟨st.eng.mapArr h, st.idx, st.n, st.diags, st.log⟩

variable (cfg : SimCfg R IR F S A P D O) (upd : A' → Nat → Except PyErr A')
  (path : A' → String → String → Except PyErr IR) (h : A → A')

theorem mapArr_prepSource (num : Nat) (e : Eng (Sigs R) F S A P) (a : ArrInfo) :
    (cfg.withArr upd path).prepSource num (e.mapArr h) a = (cfg.prepSource num e a).map (Eng.mapArr h) := by
  unfold SimCfg.prepSource SimCfg.withArr Eng.mapArr
  dsimp only
  cases cfg.srcGet (e.srcs a.name) num with
  | error x => rfl
  | ok v =>
    dsimp only
    cases sigAssign e.sig a.name ((cfg.B : Int) - num) cfg.B v.2 <;> rfl

theorem mapArr_prepPair [Add R] (num : Nat) (e : Eng (Sigs R) F S A P) (p : ArrInfo × ArrInfo) :
    (cfg.withArr upd path).prepPair num (e.mapArr h) p = (cfg.prepPair num e p).map (Eng.mapArr h) := by
  unfold SimCfg.prepPair SimCfg.withArr Eng.mapArr
  dsimp only
  cases sigGet e.sig p.1.name ((cfg.B : Int) - num) cfg.B with
  | error x => rfl
  | ok x =>
    dsimp only
    cases cfg.filt.process (e.filts p.1.name p.2.name) x with
    | error x => rfl
    | ok v =>
      dsimp only
      cases sigAdd e.sig p.2.name 0 cfg.B v.2 with
      | error x => rfl
      | ok sig =>
        dsimp only
        cases (if cfg.contrib then sigAssign sig (contribName p.1 p.2) ((cfg.B : Int) - num) cfg.B v.2 else .ok sig) <;> rfl

theorem mapArr_stepSource (i : Int) (e : Eng (Sigs R) F S A P) (a : ArrInfo) :
    (cfg.withArr upd path).stepSource i (e.mapArr h) a = (cfg.stepSource i e a).map (Eng.mapArr h) := by
  unfold SimCfg.stepSource SimCfg.withArr Eng.mapArr
  dsimp only
  cases cfg.srcGet (e.srcs a.name) 1 with
  | error x => rfl
  | ok v =>
    dsimp only
    cases sigAssign e.sig a.name i (i + 1) v.2 <;> rfl

theorem mapArr_stepUpdate (hp : ∀ a s m, path (h a) s m = cfg.arrPath a s m) (e : Eng (Sigs R) F S A P) (p : ArrInfo × ArrInfo) :
    (cfg.withArr upd path).stepUpdate (e.mapArr h) p = (cfg.stepUpdate e p).map (Eng.mapArr h) := by
  unfold SimCfg.stepUpdate SimCfg.withArr Eng.mapArr
  dsimp only
  rw [hp]
  cases p.1.dynamic || p.2.dynamic with
  | false => rfl
  | true =>
    rw [if_pos rfl, if_pos rfl]
    cases cfg.arrPath e.arr p.1.name p.2.name with
    | error x => rfl
    | ok ir =>
      dsimp only
      cases cfg.filt.updateIr (e.filts p.1.name p.2.name) ir <;> rfl

theorem mapArr_stepPair [Add R] (i : Int) (e : Eng (Sigs R) F S A P) (p : ArrInfo × ArrInfo) :
    (cfg.withArr upd path).stepPair i (e.mapArr h) p = (cfg.stepPair i e p).map (Eng.mapArr h) := by
  unfold SimCfg.stepPair SimCfg.withArr Eng.mapArr
  dsimp only
  cases sigGet e.sig p.1.name i (i + 1) with
  | error x => rfl
  | ok x =>
    dsimp only
    cases cfg.filt.process (e.filts p.1.name p.2.name) x with
    | error x => rfl
    | ok v =>
      dsimp only
      cases sigAdd e.sig p.2.name i (i + 1) v.2 with
      | error x => rfl
      | ok sig =>
        dsimp only
        cases (if cfg.contrib then sigAssign sig (contribName p.1 p.2) i (i + 1) v.2 else .ok sig) <;> rfl

theorem foldlM_hom {ε α β γ : Type} (h : α → β) (f : α → γ → Except ε α) (f' : β → γ → Except ε β)
    (hf : ∀ x p, f' (h x) p = (f x p).map h) : ∀ (l : List γ) (x : α), l.foldlM f' (h x) = (l.foldlM f x).map h
  | [], x => rfl
  | p :: l, x => by
    rw [List.foldlM_cons, List.foldlM_cons, hf]
    cases f x p with
    | error e => rfl
    | ok y => exact foldlM_hom h f f' hf l y

theorem mapArr_prepare [Add R] (e : Eng (Sigs R) F S A P) :
    (cfg.withArr upd path).prepare (e.mapArr h) = (cfg.prepare e).map (Eng.mapArr h) := by
  unfold SimCfg.prepare
  have h1 := foldlM_hom (Eng.mapArr h) (cfg.prepSource cfg.prepNum) ((cfg.withArr upd path).prepSource cfg.prepNum)
    (mapArr_prepSource cfg upd path h cfg.prepNum) (freeOf cfg.arrays) e
  have e1 : (cfg.withArr upd path).prepNum = cfg.prepNum := rfl
  have e2 : (cfg.withArr upd path).arrays = cfg.arrays := rfl
  rw [e1, e2, h1]
  cases (freeOf cfg.arrays).foldlM (cfg.prepSource cfg.prepNum) e with
  | error x => rfl
  | ok e' =>
    exact foldlM_hom (Eng.mapArr h) (cfg.prepPair cfg.prepNum) ((cfg.withArr upd path).prepPair cfg.prepNum)
      (mapArr_prepPair cfg upd path h cfg.prepNum) (combosOf cfg.arrays) e'

theorem mapArr_propagate [Add R] (hp : ∀ a s m, path (h a) s m = cfg.arrPath a s m) (i : Int) (e : Eng (Sigs R) F S A P) :
    (cfg.withArr upd path).propagate i (e.mapArr h) = (cfg.propagate i e).map (Eng.mapArr h) := by
  unfold SimCfg.propagate
  have e2 : (cfg.withArr upd path).arrays = cfg.arrays := rfl
  rw [e2, foldlM_hom (Eng.mapArr h) (cfg.stepSource i) _ (mapArr_stepSource cfg upd path h i) (freeOf cfg.arrays) e]
  cases (freeOf cfg.arrays).foldlM (cfg.stepSource i) e with
  | error x => rfl
  | ok e1 =>
    dsimp only [Except.map]
    rw [foldlM_hom (Eng.mapArr h) cfg.stepUpdate _ (mapArr_stepUpdate cfg upd path h hp) (combosOf cfg.arrays) e1]
    cases (combosOf cfg.arrays).foldlM cfg.stepUpdate e1 with
    | error x => rfl
    | ok e2 => exact foldlM_hom (Eng.mapArr h) (cfg.stepPair i) _ (mapArr_stepPair cfg upd path h i) (combosOf cfg.arrays) e2

theorem mapArr_callProc (n : Nat) (i : Int) (e : Eng (Sigs R) F S A P) :
    (cfg.withArr upd path).callProc n i (e.mapArr h) = (cfg.callProc n i e).map (Eng.mapArr h) := by
  unfold SimCfg.callProc SimCfg.withArr Eng.mapArr
  dsimp only
  cases cfg.proc with
  | none => rfl
  | some p =>
    dsimp only
    split_ifs
    · rfl
    · cases p.process e.proc e.sig i <;> rfl
    · rfl

theorem mapArr_engine [Add R] (hp : ∀ a s m, path (h a) s m = cfg.arrPath a s m)
    (hu : ∀ a n, upd (h a) n = (cfg.arrUpdate a n).map h) (n : Nat) (i : Int) (e : Eng (Sigs R) F S A P) :
    (cfg.withArr upd path).engine n i (e.mapArr h) = (cfg.engine n i e).map (Eng.mapArr h) := by
  unfold SimCfg.engine
  have e1 : (cfg.withArr upd path).arrUpdate = upd := rfl
  have e2 : (e.mapArr h).arr = h e.arr := rfl
  rw [e1, e2, hu]
  cases cfg.arrUpdate e.arr n with
  | error x => rfl
  | ok a =>
    have := mapArr_callProc cfg upd path h n i { e with arr := a }
    have e3 : ({ e.mapArr h with arr := h a } : Eng (Sigs R) F S A' P) = Eng.mapArr h { e with arr := a } := rfl
    dsimp only [Except.map]
    rw [e3, this]
    cases cfg.callProc n i { e with arr := a } with
    | error x => rfl
    | ok e1 => exact mapArr_propagate cfg upd path h hp i e1

theorem mapArr_step [Zero R] [Add R] (hp : ∀ a s m, path (h a) s m = cfg.arrPath a s m)
    (hu : ∀ a n, upd (h a) n = (cfg.arrUpdate a n).map h) (st : SimSt R F S A P D O) :
    (cfg.withArr upd path).step (st.mapArr h) = (cfg.step st).map (SimSt.mapArr h) := by
  unfold SimCfg.step
  have e1 : (st.mapArr h).n = st.n := rfl
  have e2 : (st.mapArr h).idx = st.idx := rfl
  have e3 : (st.mapArr h).eng = st.eng.mapArr h := rfl
  rw [e1, e2, e3, mapArr_engine cfg upd path h hp hu]
  cases cfg.engine st.n st.idx st.eng with
  | error x => rfl
  | ok e =>
    have e5 : (cfg.withArr upd path).diag = cfg.diag := rfl
    have e6 : (cfg.withArr upd path).proc = cfg.proc := rfl
    have e4 : (cfg.withArr upd path).lastBlock st.idx = cfg.lastBlock st.idx := rfl
    have e7 : (cfg.withArr upd path).plotNone = cfg.plotNone := rfl
    dsimp only [Except.map, Eng.mapArr, SimSt.mapArr]
    rw [e4, e5, e6, e7]
    cases saveData cfg.diag (if cfg.proc.isSome then some e.proc else none) e.sig st.idx st.n (cfg.lastBlock st.idx) st.diags with
    | error x => rfl
    | ok ds =>
      dsimp only
      cases dispatch cfg.diag cfg.plotNone ds st.log with
      | error x => rfl
      | ok r =>
        dsimp only
        cases cfg.lastBlock st.idx <;> rfl

theorem mapArr_steps [Zero R] [Add R] (hp : ∀ a s m, path (h a) s m = cfg.arrPath a s m)
    (hu : ∀ a n, upd (h a) n = (cfg.arrUpdate a n).map h) (st : SimSt R F S A P D O) :
    ∀ k, (cfg.withArr upd path).steps k (st.mapArr h) = (cfg.steps k st).map (SimSt.mapArr h)
  | 0 => rfl
  | k + 1 => by
    unfold SimCfg.steps
    rw [mapArr_steps hp hu st k]
    cases cfg.steps k st with
    | error x => rfl
    | ok st' => exact mapArr_step cfg upd path h hp hu st'

theorem mapArr_createFilters (hp : ∀ a s m, path (h a) s m = cfg.arrPath a s m) (arr : A) (f0 : String → String → F) :
    (cfg.withArr upd path).createFilters (h arr) f0 = cfg.createFilters arr f0 := by
  unfold SimCfg.createFilters SimCfg.withArr
  dsimp only
  simp only [hp]

theorem mapArr_run [Zero R] [Add R] (hp : ∀ a s m, path (h a) s m = cfg.arrPath a s m)
    (hu : ∀ a n, upd (h a) n = (cfg.arrUpdate a n).map h) (srcs : String → S) (arr : A) (proc : P) (f0 : F)
    (diags : List (Diag D)) :
    (cfg.withArr upd path).run srcs (h arr) proc f0 diags = (cfg.run srcs arr proc f0 diags).map (SimSt.mapArr h) := by
  have hinit : (cfg.withArr upd path).init srcs (h arr) proc f0 diags =
      (cfg.init srcs arr proc f0 diags).map (SimSt.mapArr h) := by
    unfold SimCfg.init
    have e1 : (cfg.withArr upd path).createSignals = cfg.createSignals := rfl
    rw [e1]
    cases cfg.createSignals with
    | error x => rfl
    | ok sig =>
      dsimp only
      rw [mapArr_createFilters cfg upd path h hp]
      cases cfg.createFilters arr (fun _ _ => f0) with
      | error x => rfl
      | ok fs =>
        dsimp only
        have := mapArr_prepare cfg upd path h { sig := sig, srcs := srcs, filts := fs, arr := arr, proc := proc }
        unfold Eng.mapArr at this
        dsimp only at this
        rw [this]
        cases cfg.prepare { sig := sig, srcs := srcs, filts := fs, arr := arr, proc := proc } <;> rfl
  unfold SimCfg.run
  rw [hinit]
  cases cfg.init srcs arr proc f0 diags with
  | error x => rfl
  | ok st =>
    have e1 : (cfg.withArr upd path).tot + (cfg.withArr upd path).mbs = cfg.tot + cfg.mbs := rfl
    dsimp only [Except.map]
    rw [e1, mapArr_steps cfg upd path h hp hu]
    cases cfg.steps (cfg.tot + cfg.mbs) st with
    | error x => rfl
    | ok st' =>
      have e5 : (cfg.withArr upd path).diag = cfg.diag := rfl
      have e7 : (cfg.withArr upd path).plotNone = cfg.plotNone := rfl
      dsimp only [Except.map, SimSt.mapArr]
      rw [e5, e7]
      cases dispatch cfg.diag cfg.plotNone st'.diags st'.log <;> rfl

end

section
variable {Pt H G K : Type}

/-- The global state projected to what the generation of responses uses. -/
def projG (k : G → K) (gc : G × Coll Pt H) : K × Coll Pt H := (k gc.1, gc.2)

variable (k : G → K) (gen : GenFn Pt H G) (gen' : GenFn Pt H K)
  (hg : ∀ g s m t, gen' (k g) s m t = (gen g s m t).map fun r => (k r.1, r.2))
include hg

theorem projG_updatePath (gc : G × Coll Pt H) (s m : String) :
    Coll.updatePath gen' (projG k gc) s m = (Coll.updatePath gen gc s m).map (projG k) := by
  unfold Coll.updatePath projG
  dsimp only
  cases gc.2.find s with
  | none => rfl
  | some a =>
    cases gc.2.find m with
    | none => rfl
    | some b =>
      cases gc.2.types s m with
      | none => rfl
      | some t =>
        dsimp only
        split_ifs
        · rfl
        · rw [hg]
          cases gen gc.1 a.geo b.geo t <;> rfl

theorem projG_updateLoop : ∀ (l already : List String) (gc : G × Coll Pt H),
    Coll.updateLoop gen' l already (projG k gc) = (Coll.updateLoop gen l already gc).map (projG k)
  | [], _, gc => rfl
  | nm :: rest, already, gc => by
    unfold Coll.updateLoop
    have e : (projG k gc).2 = gc.2 := rfl
    rw [e]
    cases gc.2.find nm with
    | none => rfl
    | some a =>
      dsimp only
      cases a.kind with
      | none => rfl
      | some kd =>
        cases kd with
        | mic =>
          dsimp only
          rw [foldlM_hom (projG k) (fun gc s => Coll.updatePath gen gc s nm) _ (fun x p => projG_updatePath k gen gen' hg x p nm)]
          cases (gc.2.srcs.filter fun s => !already.contains s).foldlM (fun gc s => Coll.updatePath gen gc s nm) gc with
          | error x => rfl
          | ok gc' =>
            have e : (projG k gc').2 = gc'.2 := rfl
            dsimp only [Except.map]
            rw [e]
            cases gc'.2.srcs.getLast? with
            | none => rfl
            | some s =>
              dsimp only
              cases gc'.2.paths s nm with
              | none => rfl
              | some h => exact projG_updateLoop rest (already ++ [nm]) (gc'.1, { gc'.2 with rirs := gc'.2.rirs ++ [h] })
        | free =>
          dsimp only
          rw [foldlM_hom (projG k) (fun gc m => Coll.updatePath gen gc nm m) _ (fun x p => projG_updatePath k gen gen' hg x nm p)]
          cases (gc.2.mics.filter fun m => !already.contains m).foldlM (fun gc m => Coll.updatePath gen gc nm m) gc with
          | error x => rfl
          | ok gc' => exact projG_updateLoop rest (already ++ [nm]) gc'
        | ctrl =>
          dsimp only
          rw [foldlM_hom (projG k) (fun gc m => Coll.updatePath gen gc nm m) _ (fun x p => projG_updatePath k gen gen' hg x nm p)]
          cases (gc.2.mics.filter fun m => !already.contains m).foldlM (fun gc m => Coll.updatePath gen gc nm m) gc with
          | error x => rfl
          | ok gc' => exact projG_updateLoop rest (already ++ [nm]) gc'

theorem projG_update (gc : G × Coll Pt H) (n : Nat) :
    Coll.update gen' (projG k gc) n = (Coll.update gen gc n).map (projG k) := by
  unfold Coll.update
  have e : (projG k gc).2 = gc.2 := rfl
  rw [e]
  split_ifs
  · rfl
  · rfl
  · exact projG_updateLoop k gen gen' hg _ _ (gc.1, { gc.2 with arrays := gc.2.arrays.map (Arr.update n) })

theorem projG_setupOne (gc : G × Coll Pt H) (p : String × String) :
    Coll.setupOne gen' (projG k gc) p = (Coll.setupOne gen gc p).map (projG k) := by
  unfold Coll.setupOne projG
  dsimp only
  cases gc.2.find p.1 with
  | none => rfl
  | some s =>
    cases gc.2.find p.2 with
    | none => rfl
    | some m =>
      dsimp only
      cases (if s.num = 0 ∨ m.num = 0 then some "none" else gc.2.types p.1 p.2) with
      | none => rfl
      | some t =>
        dsimp only
        split_ifs
        · rw [hg]
          cases gen gc.1 s.geo m.geo t <;> rfl
        · rfl

theorem projG_setupIr (g : G) (c : Coll Pt H) : Coll.setupIr gen' (k g) c = (Coll.setupIr gen g c).map (projG k) := by
  unfold Coll.setupIr
  cases c.calcRirParameters with
  | error x => rfl
  | ok _ => exact foldlM_hom (projG k) _ _ (projG_setupOne k gen gen' hg) c.combos (g, c)

end
end Verif

/-
Simulations with adaptive noise control under a change of coordinates.
-/
import Verif.Lemmas.Room
import Verif.Lemmas.OrderWith
import Verif.Model.AncReal
import Verif.Spec.ValidRoom
namespace Verif

section
variable {R IR F S A A' P D O : Type} [Zero R] [Add R] {cfg : SimCfg R IR F S A P D O} {upd : A' → Nat → Except PyErr A'}
  {path : A' → String → String → Except PyErr IR} {φ : A → A'} {I : A → Prop}

theorem runWith_arr {prep : P → Sigs R → Int → Except PyErr (P × Sigs R)} (hp : ∀ a s m, path (φ a) s m = cfg.arrPath a s m)
    (hu : ∀ a n, I a → upd (φ a) n = (cfg.arrUpdate a n).map φ)
    (hk : ∀ a n b, I a → cfg.arrUpdate a n = .ok b → I b) (srcs : String → S) (arr : A) (hI : I arr)
    (proc : P) (f0 : F) (ds : List (Diag D)) :
    (cfg.setArr upd path).runWith prep srcs (φ arr) proc f0 ds = (cfg.runWith prep srcs arr proc f0 ds).map (SimSt.onArr φ) := by
  unfold SimCfg.runWith SimCfg.initWith
  obtain ⟨h1, h2⟩ := init_arr (upd := upd) hp srcs arr proc f0 ds
  rw [h1]
  cases hi : cfg.init srcs arr proc f0 ds with
  | error x => rfl
  | ok st0 =>
    simp only [Except.map]
    simparr
    cases prep st0.eng.proc st0.eng.sig st0.idx with
    | error x => rfl
    | ok v =>
      dsimp only
      have hm : (cfg.setArr upd path).tot + (cfg.setArr upd path).mbs = cfg.tot + cfg.mbs := rfl
      have hst := (steps_arr (upd := upd) (path := path) hp hu hk
        (⟨⟨v.2, st0.eng.srcs, st0.eng.filts, st0.eng.arr, v.1⟩, st0.idx, st0.n, st0.diags, st0.log⟩ : SimSt R F S A P D O)
        (by show I st0.eng.arr; rw [h2 st0 hi]; exact hI) (cfg.tot + cfg.mbs)).1
      rw [hm]
      rw [show (cfg.setArr upd path).steps (cfg.tot + cfg.mbs)
        (⟨⟨v.2, st0.eng.srcs, st0.eng.filts, φ st0.eng.arr, v.1⟩, st0.idx, st0.n, st0.diags, st0.log⟩ : SimSt R F S A' P D O) = _ from hst]
      cases cfg.steps (cfg.tot + cfg.mbs) ⟨⟨v.2, st0.eng.srcs, st0.eng.filts, st0.eng.arr, v.1⟩, st0.idx, st0.n, st0.diags, st0.log⟩ with
      | error x => rfl
      | ok st' =>
        simp only [Except.map]
        simparr
        cases dispatch cfg.diag cfg.plotNone st'.diags st'.log <;> rfl

end

section
variable {F K R S P D O G : Type} [Field K] [LinearOrder K] [Zero R] [One R] [Add R]

/-- What is made of the prepared arrays before the run: the processor, its `prepare`, its state and the diagnostics. -/
abbrev Builder (R P D : Type) := Coll Unit (IrMat R) →
  Except PyErr (Proc R P × (P → Sigs R → Int → Except PyErr (P × Sigs R)) × P × List (Diag D))

/-- The outcome of preparing and running a simulation with a processor that is made from the prepared arrays, for
an arbitrary type of points. -/
def outcomeWith {Pt : Type} (base : SimCfg R (IrMat R) F S Unit P D O) (gen : GenFn Pt (IrMat R) G) (g : G)
    (c : Coll Pt (IrMat R)) (srcs : String → S) (f0 : F) (build : Builder R P D) : Except PyErr (Observed F R S P D O G) :=
  match c.setupIr gen g with
  | .error x => .error x
  | .ok gc =>
    match build (gc.2.mapPos fun _ => ()) with
    | .error x => .error x
    | .ok b => ((({ base with arrays := c.infos, proc := some b.1 } : SimCfg R (IrMat R) F S Unit P D O).setArr (Coll.update gen)
        Coll.path).runWith b.2.1 srcs gc b.2.2.1 f0 b.2.2.2).map observe

theorem Arr.mapPos_mapPos {A B C : Type} (f : A → B) (g : B → C) (a : Arr A) : (a.mapPos f).mapPos g = a.mapPos (g ∘ f) := by
  simp [Arr.mapPos, Function.comp_def, Option.map_map]

theorem Coll.mapPos_mapPos {A B C H : Type} (f : A → B) (g : B → C) (c : Coll A H) : (c.mapPos f).mapPos g = c.mapPos (g ∘ f) := by
  simp [Coll.mapPos, Function.comp_def, Arr.mapPos_mapPos]

theorem outcomeWith_mapPos {Pt Pt' : Type} (base : SimCfg R (IrMat R) F S Unit P D O) {gen : GenFn Pt (IrMat R) G}
    {gen' : GenFn Pt' (IrMat R) G} {f : Pt → Pt'} {T : String → Prop}
    (hgen : ∀ g a b t, T t → gen' g (a.mapPos f) (b.mapPos f) t = gen g a b t) (hn : T "none") (g : G)
    (c : Coll Pt (IrMat R)) (hT : ∀ s m t, c.types s m = some t → T t) (srcs : String → S) (f0 : F) (build : Builder R P D) :
    outcomeWith base gen' g (c.mapPos f) srcs f0 build = outcomeWith base gen g c srcs f0 build := by
  unfold outcomeWith
  obtain ⟨h1, h2⟩ := setupIr_mapPos hgen hn g c hT
  rw [h1, mapPos_infos]
  cases hs : c.setupIr gen g with
  | error x => rfl
  | ok gc =>
    simp only [Except.map]
    have hb : ((mapGc f gc).2.mapPos fun _ => ()) = gc.2.mapPos fun _ => () := Coll.mapPos_mapPos ..
    rw [hb]
    cases build (gc.2.mapPos fun _ => ()) with
    | error x => rfl
    | ok b =>
      dsimp only
      have ht := h2 gc hs
      have key := runWith_arr (prep := b.2.1)
        (cfg := ({ base with arrays := c.infos, proc := some b.1 } : SimCfg R (IrMat R) F S Unit P D O).setArr
          (Coll.update gen) (Coll.path (G := G))) (upd := Coll.update gen') (path := Coll.path) (φ := mapGc f)
        (I := fun x : G × Coll Pt (IrMat R) => x.2.types = c.types)
        (fun _ _ _ => rfl) (fun a n ha => (update_mapPos hgen a (by rw [ha]; exact hT) n).1)
        (fun a n b ha hb => ((update_mapPos hgen a (by rw [ha]; exact hT) n).2 b hb).trans ha)
        srcs gc ht b.2.2.1 f0 b.2.2.2
      have e : (SimCfg.setArr (({ base with arrays := c.infos, proc := some b.1 } : SimCfg R (IrMat R) F S Unit P D O).setArr
          (Coll.update gen) (Coll.path (G := G))) (Coll.update gen') Coll.path) =
          ({ base with arrays := c.infos, proc := some b.1 } : SimCfg R (IrMat R) F S Unit P D O).setArr (Coll.update gen')
            (Coll.path (Pt := Pt') (G := G)) := rfl
      rw [e] at key
      rw [key]
      show Except.map observe (Except.map _ _) = Except.map observe _
      rw [Except.map_map']
      rfl

end

section
variable {F K R S D O G : Type} [Field K] [LinearOrder K] [Field R]

theorem numOfArray_mapPos {Pt Pt' H : Type} (f : Pt → Pt') (c : Coll Pt H) (nm : String) :
    numOfArray (c.mapPos f).arrays nm = numOfArray c.arrays nm := by
  have := Coll.mapPos_find f c nm
  unfold Coll.find at this
  unfold numOfArray
  rw [this]
  cases c.arrays.find? fun a => a.name == nm <;> rfl

omit [Field R] in
theorem fxCreate_mapPos {Pt Pt' H : Type} (f : Pt → Pt') (c : Coll Pt H) (bs ub L : Nat) (mu beta : R) (norm : FxNorm) :
    fxCreate (c.mapPos f).arrays bs ub L mu beta norm = fxCreate c.arrays bs ub L mu beta norm := by
  unfold fxCreate
  simp only [numOfArray_mapPos]

/-- What `example_active_noise_control.py` makes of the prepared arrays. -/
def fxBuilder (bs ub L : Nat) (mu beta : R) (norm : FxNorm) (mk : Coll Unit (IrMat R) → Except PyErr (List (Diag D))) :
    Builder R (FxSt R) D := fun c =>
  match Coll.path ((), c) "loudspeaker" "error" with
  | .error x => .error x
  | .ok sp =>
    match fxCreate c.arrays bs ub L mu beta norm with
    | .error x => .error x
    | .ok q =>
      match mk c with
      | .error x => .error x
      | .ok ds => .ok (fxProc q, fxPrepare, fxInit q sp, ds)

theorem ancSimulate_observe (base : SimCfg R (IrMat R) F S (G × Coll (K × K × K) (IrMat R)) (FxSt R) D O) (ext : RoomExt K R G)
    (i : RoomInfo K) (g : G) (c : Coll (K × K × K) (IrMat R)) (srcs : String → S) (bs ub L : Nat) (mu beta : R) (norm : FxNorm) (f0 : F)
    {diags : Coll (K × K × K) (IrMat R) → Except PyErr (List (Diag D))} {mk : Coll Unit (IrMat R) → Except PyErr (List (Diag D))}
    (hmk : ∀ c, diags c = mk (c.mapPos fun _ => ())) :
    (ancSimulate base ext i g c srcs bs ub L mu beta norm f0 diags).map observe =
      match i.parameters ext with
      | .error x => .error x
      | .ok par => outcomeWith (base.setArr (A' := Unit) (fun _ _ => .ok ()) fun _ _ _ => .error .key)
          (createPath (i.cfg ext par)) g c srcs f0 (fxBuilder bs ub L mu beta norm mk) := by
  unfold ancSimulate roomSetup outcomeWith fxBuilder
  cases i.parameters ext with
  | error x => rfl
  | ok par =>
    dsimp only
    cases c.setupIr (createPath (i.cfg ext par)) g with
    | error x => rfl
    | ok gc =>
      dsimp only
      rw [show Coll.path ((), gc.2.mapPos fun _ => ()) "loudspeaker" "error" = Coll.path gc "loudspeaker" "error" from rfl, fxCreate_mapPos, hmk]
      cases Coll.path gc "loudspeaker" "error" with
      | error x => rfl
      | ok sp =>
        dsimp only
        cases fxCreate gc.2.arrays bs ub L mu beta norm with
        | error x => rfl
        | ok q =>
          dsimp only
          cases mk (gc.2.mapPos fun _ => ()) <;> rfl

/-- What `example_active_noise_control_real_data.py` makes of the prepared arrays. -/
def fastBuilder (bs L : Nat) (mu beta : R) (mk : Coll Unit (IrMat R) → Except PyErr (List (Diag D))) :
    Builder R (FastSt R) D := fun c =>
  match Coll.path ((), c) "loudspeaker" "error" with
  | .error x => .error x
  | .ok sp =>
    match fastCreate c.arrays bs L mu beta with
    | .error x => .error x
    | .ok q =>
      match mk c with
      | .error x => .error x
      | .ok ds => .ok (fastProc q, fastPrepare q, fastInit q sp, ds)

theorem realSimulate_observe (base : SimCfg R (IrMat R) F S (G × Coll (K × K × K) (IrMat R)) (FastSt R) D O) (ext : RoomExt K R G)
    (i : RoomInfo K) (g : G) (c : Coll (K × K × K) (IrMat R)) (srcs : String → S) (bs L : Nat) (mu beta : R) (f0 : F)
    {diags : Coll (K × K × K) (IrMat R) → Except PyErr (List (Diag D))} {mk : Coll Unit (IrMat R) → Except PyErr (List (Diag D))}
    (hmk : ∀ c, diags c = mk (c.mapPos fun _ => ())) :
    (realSimulate base ext i g c srcs bs L mu beta f0 diags).map observe =
      match i.parameters ext with
      | .error x => .error x
      | .ok par => outcomeWith (base.setArr (A' := Unit) (fun _ _ => .ok ()) fun _ _ _ => .error .key)
          (createPath (i.cfg ext par)) g c srcs f0 (fastBuilder bs L mu beta mk) := by
  unfold realSimulate roomSetup outcomeWith fastBuilder fastCreate
  cases i.parameters ext with
  | error x => rfl
  | ok par =>
    dsimp only
    cases c.setupIr (createPath (i.cfg ext par)) g with
    | error x => rfl
    | ok gc =>
      dsimp only
      rw [show Coll.path ((), gc.2.mapPos fun _ => ()) "loudspeaker" "error" = Coll.path gc "loudspeaker" "error" from rfl, fxCreate_mapPos, hmk]
      cases Coll.path gc "loudspeaker" "error" with
      | error x => rfl
      | ok sp =>
        dsimp only
        cases fxCreate gc.2.arrays bs L L mu beta .block with
        | error x => rfl
        | ok q =>
          dsimp only
          cases mk (gc.2.mapPos fun _ => ()) <;> rfl

end

section
variable {K R : Type}

theorem addArray_mapPos {Pt Pt' H : Type} (f : Pt → Pt') (c : Coll Pt H) (a : Arr Pt) :
    ((c.mapPos f).addArray (a.mapPos f)).1 = (c.addArray a).1.mapPos f := by
  unfold Coll.addArray
  rw [show (a.mapPos f).name = a.name from rfl, Coll.mapPos_find, Option.isSome_map, show (a.mapPos f).kind = a.kind from rfl]
  split
  · rfl
  · dsimp only
    split <;> simp [Coll.mapPos, Arr.mapPos]

theorem addAll_mapPos {Pt Pt' H : Type} (f : Pt → Pt') : ∀ (as : List (Arr Pt)) (c : Coll Pt H),
    (c.mapPos f).addAll (as.map (Arr.mapPos f)) = (c.addAll as).mapPos f
  | [], _ => rfl
  | a :: as, c => by
    have := addAll_mapPos f as (c.addArray a).1
    unfold Coll.addAll at *
    rw [List.map_cons, List.foldl_cons, List.foldl_cons, addArray_mapPos, this]

theorem op_mapPos {Pt Pt' : Type} (f : Pt → Pt') (c : Coll Pt (IrMat R)) (o : PathOp R) :
    (c.mapPos f).op o = (c.op o).mapPos f := by
  cases o with
  | type s m t =>
    simp only [Coll.op]
    unfold Coll.setPathType
    rw [show (c.mapPos f).srcs = c.srcs from rfl, show (c.mapPos f).mics = c.mics from rfl]
    split
    · rfl
    · split <;> rfl
  | path h s m =>
    simp only [Coll.op]
    unfold Coll.setPropPath
    rw [show (c.mapPos f).srcs = c.srcs from rfl, show (c.mapPos f).mics = c.mics from rfl, Coll.mapPos_find, Coll.mapPos_find]
    split
    · rfl
    · split
      · rfl
      · cases c.find s with
        | none => rfl
        | some a =>
          cases c.find m with
          | none => rfl
          | some b =>
            simp only [Option.map_some]
            rw [show (a.mapPos f).num = a.num from rfl, show (b.mapPos f).num = b.num from rfl]
            split
            · rfl
            · split <;> rfl

theorem ops_mapPos {Pt Pt' : Type} (f : Pt → Pt') : ∀ (os : List (PathOp R)) (c : Coll Pt (IrMat R)),
    os.foldl Coll.op (c.mapPos f) = (os.foldl Coll.op c).mapPos f
  | [], _ => rfl
  | o :: os, c => by rw [List.foldl_cons, List.foldl_cons, op_mapPos, ops_mapPos f os]

theorem setDefault_mapPos {Pt Pt' H : Type} (f : Pt → Pt') (t : String) (c : Coll Pt H) :
    (c.mapPos f).setDefault t = (c.setDefault t).mapPos f := by
  unfold Coll.setDefault
  rw [Coll.mapPos_combos]
  generalize c.combos = l
  induction l generalizing c with
  | nil => rfl
  | cons p l ih =>
    rw [List.foldl_cons, List.foldl_cons, ← ih]
    congr 1
    show (if ((c.types p.1 p.2).isNone && (c.paths p.1 p.2).isNone) = true then _ else if (c.paths p.1 p.2).isSome = true then _ else _) = _
    split
    · rfl
    · split <;> rfl

/-- A setup with all coordinates changed. -/
theorem planned_mapPos (f : K × K × K → K × K × K) (freq : Nat) (as : List (Arr (K × K × K))) (os : List (PathOp R)) (t : String) :
    planned freq (as.map (Arr.mapPos f)) os t = (planned freq as os t).mapPos f := by
  unfold planned
  rw [← setDefault_mapPos, ← ops_mapPos, ← addAll_mapPos]
  rfl

end
end Verif

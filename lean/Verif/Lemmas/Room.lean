/-
Impulse responses and simulations under a change of coordinates.
-/
import Verif.Lemmas.MapPos
namespace Verif

section
variable {R Pt Pt' G : Type} [Zero R]

theorem ismLoop_mapPos {c : RirCfg R Pt G} {c' : RirCfg R Pt' G} {f : Pt → Pt'} (h1 : c'.irLen = c.irLen)
    (h2 : c'.minDly = c.minDly) (h3 : ∀ g ss ms, c'.roomRir g (ss.map f) (ms.map f) = c.roomRir g ss ms)
    (src mic : Geo Pt) : ∀ (fuel done : Nat) (g : G) (ir : Nat → Nat → List R),
      ismLoop c' (src.mapPos f) (mic.mapPos f) fuel done g ir = ismLoop c src mic fuel done g ir
  | fuel, done, g, ir => by
    have hl : (mic.mapPos f).pos.length = mic.pos.length := by simp [Geo.mapPos]
    have hl' : (src.mapPos f).pos.length = src.pos.length := by simp [Geo.mapPos]
    have ho : (mic.mapPos f).omni = mic.omni := rfl
    unfold ismLoop
    rw [hl, hl', ho, h1, h2]
    split
    · rfl
    · cases fuel with
      | zero => rfl
      | succ fuel =>
        dsimp only
        split
        · rfl
        · have hr : c'.roomRir g (src.mapPos f).pos
              (((mic.mapPos f).pos.drop done).take (min 500 (mic.pos.length - done))) =
              c.roomRir g src.pos ((mic.pos.drop done).take (min 500 (mic.pos.length - done))) := by
            rw [← h3]
            simp [Geo.mapPos, List.map_take, List.map_drop]
          rw [hr]
          cases fillBatch c.irLen c.minDly src.pos.length mic.pos.length done
              (c.roomRir g src.pos ((mic.pos.drop done).take (min 500 (mic.pos.length - done)))).2 ir with
          | error x => rfl
          | ok ir => exact ismLoop_mapPos h1 h2 h3 src mic fuel _ _ _

theorem createPath_mapPos [One R] {c : RirCfg R Pt G} {c' : RirCfg R Pt' G} {f : Pt → Pt'} (h1 : c'.irLen = c.irLen)
    (h2 : c'.highpass = c.highpass) (h3 : c'.pad = c.pad) (h4 : c'.normal = c.normal) (h5 : c'.sos = c.sos)
    (t : String)
    (h6 : t = "ism" → c'.dims = c.dims ∧ c'.minDly = c.minDly ∧
      ∀ g ss ms, c'.roomRir g (ss.map f) (ms.map f) = c.roomRir g ss ms)
    (g : G) (src mic : Geo Pt) : createPath c' g (src.mapPos f) (mic.mapPos f) t = createPath c g src mic t := by
  unfold createPath
  have e1 : (src.mapPos f).num = src.num := rfl
  have e2 : (mic.mapPos f).num = mic.num := rfl
  simp only [e1, e2, h1, h2, h3, h4, h5]
  by_cases ht : t = "ism"
  · obtain ⟨k1, k2, k3⟩ := h6 ht
    have : ismPath c' g (src.mapPos f) (mic.mapPos f) = ismPath c g src mic := by
      unfold ismPath
      have hl : (mic.mapPos f).pos.length = mic.pos.length := by simp [Geo.mapPos]
      have hl' : (src.mapPos f).pos.length = src.pos.length := by simp [Geo.mapPos]
      rw [hl, hl', h1, ismLoop_mapPos h1 k2 k3]
    rw [this, k1]
  · rw [if_neg ht, if_neg ht]

end

section
variable {F K R S P D O G : Type} [Field K] [LinearOrder K] [Zero R] [One R] [Add R]

theorem mapPos_infos {Pt Pt' H : Type} (f : Pt → Pt') (c : Coll Pt H) : (c.mapPos f).infos = c.infos := by
  unfold Coll.infos Coll.mapPos
  rw [List.filterMap_map]
  congr 1
  funext a
  simp only [Function.comp, Arr.mapPos_dynamic]
  rfl

theorem Except.map_map' {ε α β γ : Type} (f : α → β) (g : β → γ) (x : Except ε α) :
    (x.map f).map g = x.map fun a => g (f a) := by
  cases x <;> rfl

/-- The outcome of preparing and running a simulation, for an arbitrary type of points. -/
def outcome {Pt : Type} (base : SimCfg R (IrMat R) F S Unit P D O) (gen : GenFn Pt (IrMat R) G) (g : G)
    (c : Coll Pt (IrMat R)) (srcs : String → S) (proc : P) (f0 : F) (ds : List (Diag D)) :
    Except PyErr (Observed F R S P D O G) :=
  match c.setupIr gen g with
  | .error x => .error x
  | .ok gc => ((({ base with arrays := c.infos } : SimCfg R (IrMat R) F S Unit P D O).setArr (Coll.update gen)
      Coll.path).run srcs gc proc f0 ds).map observe

theorem outcome_mapPos {Pt Pt' : Type} (base : SimCfg R (IrMat R) F S Unit P D O) {gen : GenFn Pt (IrMat R) G}
    {gen' : GenFn Pt' (IrMat R) G} {f : Pt → Pt'} {T : String → Prop}
    (hgen : ∀ g a b t, T t → gen' g (a.mapPos f) (b.mapPos f) t = gen g a b t) (hn : T "none") (g : G)
    (c : Coll Pt (IrMat R)) (hT : ∀ s m t, c.types s m = some t → T t) (srcs : String → S) (proc : P) (f0 : F)
    (ds : List (Diag D)) :
    outcome base gen' g (c.mapPos f) srcs proc f0 ds = outcome base gen g c srcs proc f0 ds := by
  unfold outcome
  obtain ⟨h1, h2⟩ := setupIr_mapPos hgen hn g c hT
  rw [h1, mapPos_infos]
  cases hs : c.setupIr gen g with
  | error x => rfl
  | ok gc =>
    simp only [Except.map]
    have ht := h2 gc hs
    have key := run_arr (cfg := ({ base with arrays := c.infos } : SimCfg R (IrMat R) F S Unit P D O).setArr
        (Coll.update gen) (Coll.path (G := G))) (upd := Coll.update gen') (path := Coll.path) (φ := mapGc f)
      (I := fun x : G × Coll Pt (IrMat R) => x.2.types = c.types)
      (fun _ _ _ => rfl) (fun a n ha => (update_mapPos hgen a (by rw [ha]; exact hT) n).1)
      (fun a n b ha hb => ((update_mapPos hgen a (by rw [ha]; exact hT) n).2 b hb).trans ha)
      srcs gc ht proc f0 ds
    have e : (SimCfg.setArr (({ base with arrays := c.infos } : SimCfg R (IrMat R) F S Unit P D O).setArr
        (Coll.update gen) (Coll.path (G := G))) (Coll.update gen') Coll.path) =
        ({ base with arrays := c.infos } : SimCfg R (IrMat R) F S Unit P D O).setArr (Coll.update gen')
          (Coll.path (Pt := Pt') (G := G)) := rfl
    rw [e] at key
    rw [key]
    show Except.map observe (Except.map _ _) = Except.map observe _
    rw [Except.map_map']
    rfl

theorem simulate_observe (base : SimCfg R (IrMat R) F S (G × Coll (K × K × K) (IrMat R)) P D O) (ext : RoomExt K R G)
    (i : RoomInfo K) (g : G) (c : Coll (K × K × K) (IrMat R)) (srcs : String → S) (proc : P) (f0 : F)
    (ds : List (Diag D)) :
    (simulate base ext i g c srcs proc f0 ds).map observe =
      match i.parameters ext with
      | .error x => .error x
      | .ok par => outcome (base.setArr (A' := Unit) (fun _ _ => .ok ()) fun _ _ _ => .error .key)
          (createPath (i.cfg ext par)) g c srcs proc f0 ds := by
  unfold simulate roomSetup outcome
  cases i.parameters ext with
  | error x => rfl
  | ok par =>
    dsimp only
    cases c.setupIr (createPath (i.cfg ext par)) g <;> rfl

end
end Verif

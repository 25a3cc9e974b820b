/-
The groups of an array play no role in a simulation.
-/
import Verif.Spec.RegionArray
import Verif.Lemmas.Room
namespace Verif

section
variable {Pt H G : Type} {gen : GenFn Pt H G}

/-- State and collection without groups. -/
def ungroupGc (gc : G × Coll Pt H) : G × Coll Pt H := (gc.1, gc.2.ungroup)

theorem ungroup_find (c : Coll Pt H) (nm : String) : c.ungroup.find nm = (c.find nm).map Arr.ungroup := by
  unfold Coll.find Coll.ungroup
  simp only [List.find?_map]
  rfl

theorem ungroup_update (n : Nat) (a : Arr Pt) : a.ungroup.update n = (a.update n).ungroup := by
  unfold Arr.update
  cases h : a.traj <;> simp [Arr.ungroup, h]

theorem ungroup_infos (c : Coll Pt H) : c.ungroup.infos = c.infos := by
  unfold Coll.infos Coll.ungroup
  rw [List.filterMap_map]
  rfl

theorem ungroup_calc (c : Coll Pt H) : c.ungroup.calcRirParameters = c.calcRirParameters := by
  unfold Coll.calcRirParameters
  have : c.ungroup.combos = c.combos := rfl
  rw [this]
  congr 3
  funext p
  rw [ungroup_find, ungroup_find]
  cases c.find p.1 <;> cases c.find p.2 <;> rfl

theorem setupOne_ungroup (gc : G × Coll Pt H) (p : String × String) :
    Coll.setupOne gen (ungroupGc gc) p = (Coll.setupOne gen gc p).map ungroupGc := by
  unfold Coll.setupOne
  simp only [ungroupGc, ungroup_find]
  cases gc.2.find p.1 with
  | none => rfl
  | some s =>
    cases gc.2.find p.2 with
    | none => rfl
    | some m =>
      simp only [Option.map_some]
      have h1 : s.ungroup.num = s.num := rfl
      have h2 : m.ungroup.num = m.num := rfl
      have h3 : gc.2.ungroup.types = gc.2.types := rfl
      have h4 : s.ungroup.geo = s.geo := rfl
      have h5 : m.ungroup.geo = m.geo := rfl
      rw [h1, h2, h3, h4, h5]
      cases ht : (if s.num = 0 ∨ m.num = 0 then some "none" else gc.2.types p.1 p.2) with
      | none => rfl
      | some t =>
        dsimp only
        split
        · cases gen gc.1 s.geo m.geo t <;> rfl
        · rfl

theorem setupIr_ungroup (g : G) (c : Coll Pt H) : c.ungroup.setupIr gen g = (c.setupIr gen g).map ungroupGc := by
  unfold Coll.setupIr
  rw [ungroup_calc]
  cases c.calcRirParameters with
  | error x => rfl
  | ok _ =>
    exact foldlM_mapOk ungroupGc (Coll.setupOne gen) (Coll.setupOne gen) c.combos (g, c) fun a x _ => setupOne_ungroup a x

theorem updatePath_ungroup (gc : G × Coll Pt H) (s m : String) :
    Coll.updatePath gen (ungroupGc gc) s m = (Coll.updatePath gen gc s m).map ungroupGc := by
  unfold Coll.updatePath
  simp only [ungroupGc, ungroup_find]
  cases gc.2.find s with
  | none => rfl
  | some a =>
    cases gc.2.find m with
    | none => rfl
    | some b =>
      have h3 : gc.2.ungroup.types = gc.2.types := rfl
      rw [h3]
      cases ht : gc.2.types s m with
      | none => rfl
      | some t =>
        simp only [Option.map_some]
        split
        · rfl
        · have h4 : a.ungroup.geo = a.geo := rfl
          have h5 : b.ungroup.geo = b.geo := rfl
          rw [h4, h5]
          cases gen gc.1 a.geo b.geo t <;> rfl

theorem updateLoop_ungroup : ∀ (l already : List String) (gc : G × Coll Pt H),
    Coll.updateLoop gen l already (ungroupGc gc) = (Coll.updateLoop gen l already gc).map ungroupGc
  | [], already, gc => rfl
  | nm :: rest, already, gc => by
    unfold Coll.updateLoop
    have hf : (ungroupGc gc).2.find nm = (gc.2.find nm).map Arr.ungroup := ungroup_find ..
    have hs : (ungroupGc gc).2.srcs = gc.2.srcs := rfl
    have hm : (ungroupGc gc).2.mics = gc.2.mics := rfl
    rw [hf]
    cases gc.2.find nm with
    | none => rfl
    | some a =>
      simp only [Option.map_some]
      have hk : a.ungroup.kind = a.kind := rfl
      rw [hk]
      cases a.kind with
      | none => rfl
      | some k =>
        cases k with
        | mic =>
          dsimp only
          rw [hs, foldlM_mapOk ungroupGc (fun gc s => Coll.updatePath gen gc s nm) (fun gc s => Coll.updatePath gen gc s nm)
            _ gc fun a x _ => updatePath_ungroup a x nm]
          cases hr : (gc.2.srcs.filter fun s => !already.contains s).foldlM
              (fun gc s => Coll.updatePath gen gc s nm) gc with
          | error x => rfl
          | ok gc1 =>
            simp only [Except.map]
            have hs1 : (ungroupGc gc1).2.srcs = gc1.2.srcs := rfl
            rw [hs1]
            cases gc1.2.srcs.getLast? with
            | none => rfl
            | some s =>
              dsimp only
              have hp : (ungroupGc gc1).2.paths = gc1.2.paths := rfl
              rw [hp]
              cases gc1.2.paths s nm with
              | none => rfl
              | some h =>
                exact updateLoop_ungroup rest (already ++ [nm]) (gc1.1, { gc1.2 with rirs := gc1.2.rirs ++ [h] })
        | free =>
          dsimp only
          rw [hm, foldlM_mapOk ungroupGc (fun gc m => Coll.updatePath gen gc nm m) (fun gc m => Coll.updatePath gen gc nm m)
            _ gc fun a x _ => updatePath_ungroup a nm x]
          cases hr : (gc.2.mics.filter fun s => !already.contains s).foldlM
              (fun gc m => Coll.updatePath gen gc nm m) gc with
          | error x => rfl
          | ok gc1 => exact updateLoop_ungroup rest (already ++ [nm]) gc1
        | ctrl =>
          dsimp only
          rw [hm, foldlM_mapOk ungroupGc (fun gc m => Coll.updatePath gen gc nm m) (fun gc m => Coll.updatePath gen gc nm m)
            _ gc fun a x _ => updatePath_ungroup a nm x]
          cases hr : (gc.2.mics.filter fun s => !already.contains s).foldlM
              (fun gc m => Coll.updatePath gen gc nm m) gc with
          | error x => rfl
          | ok gc1 => exact updateLoop_ungroup rest (already ++ [nm]) gc1

theorem update_ungroup (gc : G × Coll Pt H) (n : Nat) :
    Coll.update gen (ungroupGc gc) n = (Coll.update gen gc n).map ungroupGc := by
  unfold Coll.update
  have h1 : (ungroupGc gc).2.freq = gc.2.freq := rfl
  rw [h1]
  split
  · rfl
  · split
    · rfl
    · have h2 : ((ungroupGc gc).2.arrays.filter Arr.dynamic).map Arr.name =
          (gc.2.arrays.filter Arr.dynamic).map Arr.name := by
        show ((gc.2.arrays.map Arr.ungroup).filter Arr.dynamic).map Arr.name = _
        rw [List.filter_map, List.map_map]
        rfl
      have h3 : ((ungroupGc gc).1, { (ungroupGc gc).2 with arrays := (ungroupGc gc).2.arrays.map (Arr.update n) }) =
          ungroupGc (gc.1, { gc.2 with arrays := gc.2.arrays.map (Arr.update n) }) := by
        simp only [ungroupGc, Coll.ungroup, List.map_map]
        congr 3
        funext a
        exact ungroup_update n a
      rw [h2, h3]
      exact updateLoop_ungroup _ [] _

end

section
variable {F K R S P D O G : Type} [Field K] [LinearOrder K] [Zero R] [One R] [Add R]

theorem outcome_ungroup {Pt : Type} (base : SimCfg R (IrMat R) F S Unit P D O) (gen : GenFn Pt (IrMat R) G) (g : G)
    (c : Coll Pt (IrMat R)) (srcs : String → S) (proc : P) (f0 : F) (ds : List (Diag D)) :
    outcome base gen g c.ungroup srcs proc f0 ds = outcome base gen g c srcs proc f0 ds := by
  unfold outcome
  rw [setupIr_ungroup, ungroup_infos]
  cases hs : c.setupIr gen g with
  | error x => rfl
  | ok gc =>
    simp only [Except.map]
    have key := run_arr (cfg := ({ base with arrays := c.infos } : SimCfg R (IrMat R) F S Unit P D O).setArr
        (Coll.update gen) (Coll.path (G := G))) (upd := Coll.update gen) (path := Coll.path) (φ := ungroupGc)
      (I := fun _ => True) (fun _ _ _ => rfl) (fun a n _ => update_ungroup a n) (fun _ _ _ _ _ => trivial)
      srcs gc trivial proc f0 ds
    have e : (SimCfg.setArr (({ base with arrays := c.infos } : SimCfg R (IrMat R) F S Unit P D O).setArr
        (Coll.update gen) (Coll.path (G := G))) (Coll.update gen) Coll.path) =
        ({ base with arrays := c.infos } : SimCfg R (IrMat R) F S Unit P D O).setArr (Coll.update gen)
          (Coll.path (Pt := Pt) (G := G)) := rfl
    rw [e] at key
    rw [key]
    show Except.map observe (Except.map _ _) = Except.map observe _
    rw [Except.map_map']
    rfl

theorem simulate_ungroup (base : SimCfg R (IrMat R) F S (G × Coll (K × K × K) (IrMat R)) P D O) (ext : RoomExt K R G)
    (i : RoomInfo K) (g : G) (c : Coll (K × K × K) (IrMat R)) (srcs : String → S) (proc : P) (f0 : F)
    (ds : List (Diag D)) :
    (simulate base ext i g c.ungroup srcs proc f0 ds).map observe = (simulate base ext i g c srcs proc f0 ds).map observe := by
  rw [simulate_observe, simulate_observe]
  cases i.parameters ext with
  | error x => rfl
  | ok par => exact outcome_ungroup ..

end
end Verif

/-
Runs of two collections of which the second one has been given some impulse responses of the first one.
-/
import Verif.Lemmas.Given
import Verif.Lemmas.AlikeBase
namespace Verif

section
variable {Pt R F S P D O G : Type} [Field R]

/-- Related collections give the same run. -/
theorem run_given (base : SimCfg R (IrMat R) F S (G × Coll Pt (IrMat R)) P D O) {gen : GenFn Pt (IrMat R) G}
    {Q : List (String × String)} {P' : String → String → Option (IrMat R)} {infos : List ArrInfo}
    {gc gc1 : G × Coll Pt (IrMat R)} (hF : KFull gen Q P' gc gc1) {srcs : String → S} {proc : P} {f0 : F}
    {ds : List (Diag D)} {fin : SimSt R F S (G × Coll Pt (IrMat R)) P D O}
    (h : { base with arrays := infos, arrUpdate := Coll.update gen, arrPath := Coll.path }.run srcs gc proc f0 ds = .ok fin) :
    ∃ fin', { base with arrays := infos, arrUpdate := Coll.update gen, arrPath := Coll.path }.run srcs gc1 proc f0 ds = .ok fin' ∧
      fin'.eng.sig = fin.eng.sig ∧ fin'.eng.srcs = fin.eng.srcs ∧ fin'.eng.proc = fin.eng.proc ∧
      fin'.idx = fin.idx ∧ fin'.n = fin.n ∧ fin'.diags = fin.diags ∧ fin'.log = fin.log ∧
      fin'.eng.arr.2.arrays = fin.eng.arr.2.arrays ∧ fin'.eng.arr.2.paths = fin.eng.arr.2.paths ∧
      fin'.eng.arr.2.rirs = fin.eng.arr.2.rirs ∧
      ∀ p ∈ combosOf infos, fin'.eng.filts p.1.name p.2.name = fin.eng.filts p.1.name p.2.name := by
  have hN : Names ({ base with arrays := infos, arrUpdate := Coll.update gen, arrPath := Coll.path } :
      SimCfg R (IrMat R) F S (G × Coll Pt (IrMat R)) P D O) := by
    unfold SimCfg.run at h
    split at h
    · cases h
    · rename_i st hst
      exact names_of _ (init_nodup _ hst)
  obtain ⟨dyn, hd1, hd2⟩ := exists_dyn infos hN.inj
  have hpd : ∀ p ∈ combosOf infos, pairDyn dyn p = p := by
    intro p hp
    have hm := mem_combos_src hp
    have e : ∀ a ∈ infos, a.withDyn dyn = a := fun a ha => by
      unfold ArrInfo.withDyn
      rw [hd2 a ha]
    unfold pairDyn
    rw [e _ hm.1, e _ hm.2.2]
  have H := Alike.mk (hid := fun _ => false) (dyn := dyn)
    (cfg := { base with arrays := infos, arrUpdate := Coll.update gen, arrPath := Coll.path })
    (cfg' := { base with arrays := infos, arrUpdate := Coll.update gen, arrPath := Coll.path })
    (RA := KFull gen Q P') (RF := fun _ _ f f' => f = f')
    rfl rfl rfl rfl rfl rfl rfl rfl hd1.symm id (fun hc p hp => by dsimp only at hc ⊢; rw [hc]; rfl)
    (fun _ _ => rfl) (fun _ _ _ _ => rfl)
    (fun p hp x S S' i x1 S1 hS hx => ⟨S1, by rw [← hS.eq]; exact hx, fun _ _ => rfl⟩)
    (fun a a' a1 n ha hx => update_given ha hx)
    (fun a a' ha p hp ir hir => by
      have hm := mem_combos_src hp
      refine ⟨ir, ?_, ?_⟩
      · dsimp only at hir ⊢
        unfold Coll.path at hir ⊢
        rw [ha.all]
        exact hir
      · rw [hd2 _ hm.1, hd2 _ hm.2.2])
    (fun p hp f f' x g y hff hx => by
      subst hff
      exact ⟨g, hx, rfl⟩)
    (fun a a' ha p hp f f' g hff hx => by
      subst hff
      rw [hpd p hp]
      refine ⟨g, ?_, rfl⟩
      unfold SimCfg.updFilt at hx ⊢
      dsimp only at hx ⊢
      unfold Coll.path at hx ⊢
      rw [ha.all]
      exact hx)
  obtain ⟨fin', h1, h2⟩ := H.run (blind_false _) (arr' := gc1) hF (f0' := f0) (fun _ _ => trivial) h
  exact ⟨fin', h1, h2.eng.sig.eq.symm, h2.eng.srcs.symm, h2.eng.proc.symm, h2.idx.symm, h2.n.symm, h2.diags.symm, h2.log.symm,
    h2.eng.arr.arrays, funext fun s => funext fun m => h2.eng.arr.all s m, h2.eng.arr.rirs, fun p hp => (h2.eng.filts p hp).symm⟩

end
end Verif

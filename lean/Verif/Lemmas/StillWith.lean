/-
Runs with a processor that prepares itself, without trajectories that stay where they are.
-/
import Verif.Lemmas.OrderWith
import Verif.Props.Still
namespace Verif

section
variable {K R S P D O G : Type} [Field K] [LinearOrder K] [Field R]

theorem numOfArray_still {Pt H : Type} (f : Nat) (c : Coll Pt H) (nm : String) :
    numOfArray (c.still f).arrays nm = numOfArray c.arrays nm := by
  have := still_find f c nm
  unfold Coll.find at this
  unfold numOfArray
  rw [this]
  cases c.arrays.find? fun a => a.name == nm <;> rfl

theorem room_runWith_still {cfg : SimCfg R (IrMat R) (Fir R) S (G × Coll (K × K × K) (IrMat R)) P D O}
    (hf : cfg.filt = firOps R) {ext : RoomExt K R G} {i : RoomInfo K}
    (hrir : ∀ b g g' ss ms, (ext.rir b g ss ms).2 = (ext.rir b g' ss ms).2)
    {g : G} {c : Coll (K × K × K) (IrMat R)} {par : K × Nat} {gc : G × Coll (K × K × K) (IrMat R)}
    (hc : c.Consistent) (hT : ∀ s m, c.types s m ≠ some "random")
    (hnum : ∀ a ∈ c.arrays, 0 < a.num) (hstay : ∀ a ∈ c.arrays, ∀ q, a.traj = some q → ∀ n, q n = a.pos)
    {freq : Nat} (hfreq : 0 < freq) (hset : roomSetup ext i g c = .ok (par, gc))
    (ea : cfg.arrays = c.infos) (eu : cfg.arrUpdate = Coll.update (createPath (i.cfg ext par))) (ep : cfg.arrPath = Coll.path)
    {prep : P → Sigs R → Int → Except PyErr (P × Sigs R)} {srcs : String → S} {proc : P} {f0 : Fir R} {ds : List (Diag D)}
    {fin : SimSt R (Fir R) S (G × Coll (K × K × K) (IrMat R)) P D O} (h : cfg.runWith prep srcs gc proc f0 ds = .ok fin) :
    roomSetup ext i g (c.still freq) = .ok (par, (gc.1, gc.2.still freq)) ∧
      ∃ fin', { cfg with arrays := (c.still freq).infos }.runWith prep srcs (gc.1, gc.2.still freq) proc f0 ds = .ok fin' ∧
        fin'.eng.sig = fin.eng.sig ∧ fin'.eng.srcs = fin.eng.srcs ∧ fin'.eng.proc = fin.eng.proc ∧
        fin'.idx = fin.idx ∧ fin'.n = fin.n ∧ fin'.diags = fin.diags ∧ fin'.log = fin.log ∧
        fin'.eng.arr.2.paths = fin.eng.arr.2.paths ∧
        ∀ p ∈ combosOf c.infos, fin'.eng.filts p.1.name p.2.name = fin.eng.filts p.1.name p.2.name := by
  unfold roomSetup at hset ⊢
  cases hp : i.parameters ext with
  | error x => rw [hp] at hset; cases hset
  | ok par' =>
  rw [hp] at hset
  dsimp only at hset ⊢
  cases hs : c.setupIr (createPath (i.cfg ext par')) g with
  | error x => rw [hs] at hset; cases hset
  | ok gc' =>
  obtain ⟨g1, c1⟩ := gc'
  rw [hs] at hset
  cases hset
  rw [setupIr_still freq hs]
  refine ⟨rfl, ?_⟩
  obtain ⟨gen, hgen⟩ : ∃ gen, gen = createPath (i.cfg ext par) := ⟨_, rfl⟩
  have hmod : ∀ g a b x, gen g a b "modified" ≠ .ok x := by rw [hgen]; exact createPath_no_modified _
  have hst : Steady gen fun t => t ≠ "random" := by
    rw [hgen]
    exact createPath_steady fun g g' ss ms => hrir _ g g' _ _
  rw [← hgen] at hs eu
  have hT' : ∀ s m t, c.types s m = some t → t ≠ "random" := by
    rintro s m t ht rfl
    exact hT s m ht
  have hi : ∀ a ∈ c.arrays, a.Initial := fun a ha q hq => (hstay a ha q hq 0).symm
  obtain ⟨e1, -, hre⟩ := setupIr_spec hc.names hi hs
  have hs0 : Stays gen c c1.paths c1 := by
    refine ⟨?_, ?_, ?_, rfl, ?_⟩
    · rw [e1]
      exact hc.with _ _
    · rw [e1]
      intro a ha u
      unfold Arr.geoAt
      cases hq : a.traj with
      | none => rfl
      | some q =>
        dsimp only
        rw [hstay a ha q hq u, hstay a ha q hq 0]
    · rw [e1]; rfl
    · have ha1 : c1.arrays = c.arrays := by rw [e1]; rfl
      have hs1 : c1.srcs = c.srcs := by rw [e1]; rfl
      have hm1 : c1.mics = c.mics := by rw [e1]; rfl
      rw [ha1, hs1, hm1]
      intro a ha b hb has hbm t ht hne
      have hu : c.useType a.name b.name = some t := by
        unfold Coll.useType
        rw [if_neg, ht]
        rintro ⟨x, hx, -, h0⟩
        exact absurd h0 (Nat.pos_iff_ne_zero.1 (hnum x hx))
      obtain ⟨a', ha', b', hb', hna, hnb, t', g2, g3, v, ht', hg, hv⟩ := hre.new (s := a.name) (m := b.name)
        (List.mem_filter.2 ⟨Coll.mem_combos.2 ⟨has, hbm⟩, by
          rw [decide_eq_true_eq, hu]
          exact fun e => hne (Option.some.inj e)⟩)
      rw [hc.inj ha' ha hna, hc.inj hb' hb hnb] at hg
      rw [hu] at ht'
      cases ht'
      exact ⟨g2, g3, v, hg, hv⟩
  have hstill : ∀ a ∈ (c1.still freq).arrays, a.traj = none := by
    intro a ha
    obtain ⟨b, -, rfl⟩ := List.mem_map.1 (show a ∈ c1.arrays.map Arr.still from ha)
    rfl
  have H := Alike.mk (hid := fun _ => false) (dyn := fun _ => false)
    (cfg := cfg)
    (cfg' := { cfg with arrays := (c.still freq).infos })
    (RA := fun gc gc' => Stays gen c c1.paths gc.2 ∧ gc' = (g1, c1.still freq))
    (RF := fun s m f f' => f = f' ∧ c1.paths s m = some f.mat)
    rfl rfl rfl rfl rfl rfl rfl rfl (by rw [ea]; exact still_infos freq c) id (fun hc p hp => by dsimp only at hc ⊢; rw [hc]; rfl)
    (fun _ _ => rfl) (fun _ _ _ _ => rfl)
    (fun p hp x S S' i x1 S1 hS hx => ⟨S1, by rw [← hS.eq]; exact hx, fun _ _ => rfl⟩)
    (fun a a' a1 n ha hx => by
      obtain ⟨ha, rfl⟩ := ha
      obtain ⟨g2, c2⟩ := a
      obtain ⟨g3, c3⟩ := a1
      rw [eu] at hx
      refine ⟨_, ?_, update_stays hst hmod hT' ha hx, rfl⟩
      dsimp only
      rw [eu]
      exact update_still (gc := (g1, c1.still freq)) (Nat.pos_iff_ne_zero.1 hfreq) hstill n)
    (fun a a' ha p hp ir hir => by
      obtain ⟨ha, rfl⟩ := ha
      dsimp only at hir ⊢
      rw [ep] at hir ⊢
      unfold Coll.path at hir ⊢
      rw [ha.paths] at hir
      rw [hf]
      refine ⟨ir, hir, rfl, ?_⟩
      split at hir
      · cases hir
      · rename_i v hv
        cases hir
        exact hv)
    (fun p hp f f' x g y hff hx => by
      obtain ⟨rfl, hm⟩ := hff
      dsimp only at hx ⊢
      refine ⟨g, hx, rfl, ?_⟩
      rw [hf] at hx
      change f.process x = .ok (g, y) at hx
      unfold Fir.process at hx
      split at hx
      · cases hx
      · cases hx
        exact hm)
    (fun a a' ha p hp f f' g hff hx => by
      obtain ⟨ha, rfl⟩ := ha
      obtain ⟨rfl, hm⟩ := hff
      have hg : g = f := by
        unfold SimCfg.updFilt at hx
        split at hx
        · rw [ep] at hx
          unfold Coll.path at hx
          rw [ha.paths, hm] at hx
          dsimp only at hx
          rw [hf] at hx
          change f.updateIr f.mat = .ok g at hx
          unfold Fir.updateIr at hx
          rw [if_pos ⟨rfl, rfl⟩] at hx
          cases hx
          rfl
        · cases hx
          rfl
      rw [hg]
      exact ⟨f, rfl, rfl, hm⟩)
  obtain ⟨fin', h1, h2⟩ := H.runWith (prep := prep)
    (fun x S S' i x1 S1 hS hx => ⟨S1, by rw [← funext fun k => hS k rfl]; exact hx, fun _ _ => rfl⟩)
    (blind_false _) (arr' := (g1, c1.still freq)) ⟨hs0, rfl⟩ (f0' := f0) (fun _ _ => trivial) h
  refine ⟨fin', h1, h2.eng.sig.eq.symm, h2.eng.srcs.symm, h2.eng.proc.symm, h2.idx.symm, h2.n.symm, h2.diags.symm, h2.log.symm,
    ?_, fun p hp => (h2.eng.filts p (by rw [ea]; exact hp)).1.symm⟩
  rw [h2.eng.arr.2, h2.eng.arr.1.paths]
  rfl

end
end Verif

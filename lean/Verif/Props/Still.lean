/-
C125: arrays with a trajectory that stays where it is.
-/
import Verif.Lemmas.AlikeBase
import Verif.Lemmas.HideColl
import Verif.Lemmas.Setup
import Verif.Spec.Room
import Verif.Props.Room
namespace Verif

/-- The array without its trajectory. -/
def Arr.still {Pt : Type} (a : Arr Pt) : Arr Pt := { a with traj := none }

/-- The collection without trajectories and with another `array_update_freq`. -/
def Coll.still {Pt H : Type} (f : Nat) (c : Coll Pt H) : Coll Pt H := { c with arrays := c.arrays.map Arr.still, freq := f }

section
variable {Pt H G : Type} {gen : GenFn Pt H G}

theorem still_find (f : Nat) (c : Coll Pt H) (nm : String) : (c.still f).find nm = (c.find nm).map Arr.still :=
  find?_map_name Arr.still (fun _ => rfl) nm c.arrays

theorem still_infos (f : Nat) (c : Coll Pt H) : (c.still f).infos = c.infos.map (ArrInfo.withDyn fun _ => false) := by
  unfold Coll.infos Coll.still
  rw [List.filterMap_map, List.map_filterMap]
  congr 1
  funext a
  simp only [Function.comp, Arr.still, Option.map_map]
  rfl

theorem setupOne_still (f : Nat) {g g1 : G} {c c1 : Coll Pt H} {p : String × String}
    (hx : Coll.setupOne gen (g, c) p = .ok (g1, c1)) : Coll.setupOne gen (g, c.still f) p = .ok (g1, c1.still f) := by
  unfold Coll.setupOne at hx ⊢
  dsimp only at hx ⊢
  rw [still_find, still_find]
  cases hf1 : c.find p.1 with
  | none => rw [hf1] at hx; cases hx
  | some s =>
    cases hf2 : c.find p.2 with
    | none => rw [hf1, hf2] at hx; cases hx
    | some m =>
      rw [hf1, hf2] at hx
      dsimp only [Option.map] at hx ⊢
      change (match (if s.num = 0 ∨ m.num = 0 then some "none" else c.types p.1 p.2) with
        | none => Except.error PyErr.key
        | some t =>
          if t ≠ "modified" then
            match gen g s.geo m.geo t with
            | .error x => .error x
            | .ok (g, h) => .ok (g, { c.still f with paths := set2 c.paths p.1 p.2 h })
          else .ok (g, c.still f)) = _
      split at hx
      · cases hx
      · rename_i t ht
        rw [ht]
        dsimp only
        split at hx
        · rename_i hne
          rw [if_pos hne]
          split at hx
          · cases hx
          · rename_i g2 v hv
            rw [hv]
            cases hx
            rfl
        · rename_i hne
          rw [if_neg hne]
          cases hx
          rfl

theorem setupIr_still (f : Nat) {g g1 : G} {c c1 : Coll Pt H} (hx : c.setupIr gen g = .ok (g1, c1)) :
    (c.still f).setupIr gen g = .ok (g1, c1.still f) := by
  unfold Coll.setupIr at hx ⊢
  have hc' : (c.still f).calcRirParameters = c.calcRirParameters := by
    unfold Coll.calcRirParameters
    simp only [still_find]
    have : (c.still f).combos = c.combos := rfl
    rw [this]
    congr 3
    funext p
    cases c.find p.1 <;> cases c.find p.2 <;> rfl
  rw [hc']
  cases hc : c.calcRirParameters with
  | error x => rw [hc] at hx; cases hx
  | ok u =>
    rw [hc] at hx
    obtain ⟨b, hb, hr⟩ := foldlM_alike (f' := Coll.setupOne gen) (fun gc gc' : G × Coll Pt H => gc' = (gc.1, gc.2.still f))
      (b := (g, c.still f)) rfl (fun p _ a b a1 hab ha => ⟨_, by rw [hab]; exact setupOne_still f ha, rfl⟩) hx
    rw [hr] at hb
    exact hb

/-- The state of a collection whose arrays stay: positions and impulse responses are those of the beginning. -/
structure Stays (gen : GenFn Pt H G) (c : Coll Pt H) (P0 : String → String → Option H) (c1 : Coll Pt H) : Prop where
  cons : c1.Consistent
  geo : ∀ a ∈ c1.arrays, ∀ u, a.geoAt u = a.geoAt 0
  types : c1.types = c.types
  paths : c1.paths = P0
  made : ∀ a ∈ c1.arrays, ∀ b ∈ c1.arrays, a.name ∈ c1.srcs → b.name ∈ c1.mics → ∀ t, c.types a.name b.name = some t →
    t ≠ "modified" → ∃ g g' h, gen g (a.geoAt 0) (b.geoAt 0) t = .ok (g', h) ∧ P0 a.name b.name = some h

theorem update_stays {okT : String → Prop} (hst : Steady gen okT) (hmod : ∀ g a b x, gen g a b "modified" ≠ .ok x)
    {c : Coll Pt H} (hT : ∀ s m t, c.types s m = some t → okT t) {P0 : String → String → Option H} {g g' : G} {c1 c2 : Coll Pt H}
    {n : Nat} (h : Stays gen c P0 c1) (hx : Coll.update gen (g, c1) n = .ok (g', c2)) : Stays gen c P0 c2 := by
  by_cases hd : c1.freq ∣ n
  · obtain ⟨ps, r', -, hmem, hre, he⟩ := update_spec h.cons hd hx
    have hpaths : c2.paths = P0 := by
      funext s m
      by_cases hp : (s, m) ∈ ps
      · obtain ⟨a, ha, b, hb, rfl, rfl, t, g1, g2, v, ht, hg, hv⟩ := hre.new hp
        obtain ⟨h1, h2, -⟩ := (hmem _ _).1 hp
        rw [h.types] at ht
        have hne : t ≠ "modified" := by
          rintro rfl
          exact hmod _ _ _ _ hg
        obtain ⟨g3, g4, w, hw, hw2⟩ := h.made a ha b hb h1 h2 t ht hne
        rw [h.geo a ha, h.geo b hb] at hg
        obtain ⟨g5, hg5⟩ := hst _ g3 _ _ _ _ _ (hT _ _ _ ht) hg
        rw [hg5] at hw
        cases hw
        rw [hv, hw2]
      · rw [hre.old hp, h.paths]
    have harr : c2.arrays = c1.arrays.map (Arr.update n) := by rw [he]; rfl
    refine ⟨?_, ?_, ?_, hpaths, ?_⟩
    · rw [he]
      exact Coll.moved_consistent h.cons n _ _
    · intro a ha u
      rw [harr] at ha
      obtain ⟨b, hb, rfl⟩ := List.mem_map.1 ha
      rw [Arr.update_geoAt, Arr.update_geoAt]
      exact h.geo b hb u
    · rw [he]
      exact h.types
    · have hs : c2.srcs = c1.srcs := by rw [he]; rfl
      have hm : c2.mics = c1.mics := by rw [he]; rfl
      rw [harr, hs, hm]
      intro a ha b hb
      obtain ⟨a', ha', rfl⟩ := List.mem_map.1 ha
      obtain ⟨b', hb', rfl⟩ := List.mem_map.1 hb
      rw [Arr.update_geoAt, Arr.update_geoAt, Arr.update_name, Arr.update_name]
      exact h.made a' ha' b' hb'
  · unfold Coll.update at hx
    dsimp only at hx
    split at hx
    · cases hx
    · rw [if_pos fun e => hd (Nat.dvd_of_mod_eq_zero e)] at hx
      cases hx
      exact h

theorem update_still {gc : G × Coll Pt H} (hf : gc.2.freq ≠ 0) (ha : ∀ a ∈ gc.2.arrays, a.traj = none) (n : Nat) :
    Coll.update gen gc n = .ok gc := by
  unfold Coll.update
  rw [if_neg hf]
  split
  · rfl
  · rw [List.filter_eq_nil_iff.2 fun a h => by rw [Arr.dynamic, ha a h]; simp]
    have : gc.2.arrays.map (Arr.update n) = gc.2.arrays := by
      refine (List.map_congr_left fun a h => ?_).trans (List.map_id _)
      unfold Arr.update
      rw [ha a h]
      rfl
    rw [this]
    rfl

end

section
variable {K R S P D O G : Type} [Field K] [LinearOrder K] [Field R]

theorem createPath_no_modified {Pt : Type} (c : RirCfg R Pt G) (g : G) (a b : Geo Pt) (x : G × IrMat R) :
    createPath c g a b "modified" ≠ .ok x := by
  unfold createPath
  simp

/-- **C125** If a simulation in which every trajectory stays where it starts completes, then it completes as well with arrays
that have no trajectory, with any `array_update_freq`, and gives the same signals, filters, impulse responses,
processor, diagnostics and exported results.  The image-source method must be deterministic and no path may
be of type "random", as random responses are drawn anew in every update. -/
theorem C125_still (base : SimCfg R (IrMat R) (Fir R) S (G × Coll (K × K × K) (IrMat R)) P D O)
    (hf : base.filt = firOps R) (ext : RoomExt K R G) (i : RoomInfo K)
    (hrir : ∀ b g g' ss ms, (ext.rir b g ss ms).2 = (ext.rir b g' ss ms).2)
    {g : G} {c : Coll (K × K × K) (IrMat R)} (hc : c.Consistent) (hT : ∀ s m, c.types s m ≠ some "random")
    (hnum : ∀ a ∈ c.arrays, 0 < a.num) (hstay : ∀ a ∈ c.arrays, ∀ q, a.traj = some q → ∀ n, q n = a.pos)
    {freq : Nat} (hfreq : 0 < freq) {srcs : String → S} {proc : P} {f0 : Fir R}
    {ds : List (Diag D)} {fin : SimSt R (Fir R) S (G × Coll (K × K × K) (IrMat R)) P D O}
    (h : simulate base ext i g c srcs proc f0 ds = .ok fin) :
    ∃ fin', simulate base ext i g (c.still freq) srcs proc f0 ds = .ok fin' ∧
      fin'.eng.sig = fin.eng.sig ∧ fin'.eng.srcs = fin.eng.srcs ∧ fin'.eng.proc = fin.eng.proc ∧
      fin'.idx = fin.idx ∧ fin'.n = fin.n ∧ fin'.diags = fin.diags ∧ fin'.log = fin.log ∧
      fin'.eng.arr.2.paths = fin.eng.arr.2.paths ∧
      ∀ p ∈ combosOf c.infos, fin'.eng.filts p.1.name p.2.name = fin.eng.filts p.1.name p.2.name := by
  unfold simulate roomSetup at h ⊢
  cases hp : i.parameters ext with
  | error x => rw [hp] at h; cases h
  | ok par =>
  rw [hp] at h
  dsimp only at h ⊢
  obtain ⟨gen, hgen⟩ : ∃ gen, gen = createPath (i.cfg ext par) := ⟨_, rfl⟩
  have hmod : ∀ g a b x, gen g a b "modified" ≠ .ok x := by rw [hgen]; exact createPath_no_modified _
  have hst : Steady gen fun t => t ≠ "random" := by
    rw [hgen]
    exact createPath_steady fun g g' ss ms => hrir _ g g' _ _
  rw [← hgen] at h ⊢
  cases hs : c.setupIr gen g with
  | error x => rw [hs] at h; cases h
  | ok gc =>
  obtain ⟨g1, c1⟩ := gc
  rw [hs] at h
  dsimp only at h
  rw [setupIr_still freq hs]
  dsimp only
  rw [← hgen] at h ⊢
  have hT' : ∀ s m t, c.types s m = some t → t ≠ "random" := by
    rintro s m t ht rfl
    exact hT s m ht
  have hi : ∀ a ∈ c.arrays, a.Initial := fun a ha q hq => (hstay a ha q hq 0).symm
  obtain ⟨e1, -, hre⟩ := setupIr_spec hc.names hi hs
  have hs0 : Stays gen c c1.paths c1 := by
    refine ⟨?_, ?_, ?_, rfl, ?_⟩
    · rw [e1]
      exact hc.with _ _
    · rw [e1]
      intro a ha u
      unfold Arr.geoAt
      cases hq : a.traj with
      | none => rfl
      | some q =>
        dsimp only
        rw [hstay a ha q hq u, hstay a ha q hq 0]
    · rw [e1]; rfl
    · have ha1 : c1.arrays = c.arrays := by rw [e1]; rfl
      have hs1 : c1.srcs = c.srcs := by rw [e1]; rfl
      have hm1 : c1.mics = c.mics := by rw [e1]; rfl
      rw [ha1, hs1, hm1]
      intro a ha b hb has hbm t ht hne
      have hu : c.useType a.name b.name = some t := by
        unfold Coll.useType
        rw [if_neg, ht]
        rintro ⟨x, hx, -, h0⟩
        exact absurd h0 (Nat.pos_iff_ne_zero.1 (hnum x hx))
      obtain ⟨a', ha', b', hb', hna, hnb, t', g2, g3, v, ht', hg, hv⟩ := hre.new (s := a.name) (m := b.name)
        (List.mem_filter.2 ⟨Coll.mem_combos.2 ⟨has, hbm⟩, by
          rw [decide_eq_true_eq, hu]
          exact fun e => hne (Option.some.inj e)⟩)
      rw [hc.inj ha' ha hna, hc.inj hb' hb hnb] at hg
      rw [hu] at ht'
      cases ht'
      exact ⟨g2, g3, v, hg, hv⟩
  have hstill : ∀ a ∈ (c1.still freq).arrays, a.traj = none := by
    intro a ha
    obtain ⟨b, -, rfl⟩ := List.mem_map.1 (show a ∈ c1.arrays.map Arr.still from ha)
    rfl
  have H := Alike.mk (hid := fun _ => false) (dyn := fun _ => false)
    (cfg := { base with arrays := c.infos, arrUpdate := Coll.update gen, arrPath := Coll.path })
    (cfg' := { base with arrays := (c.still freq).infos, arrUpdate := Coll.update gen, arrPath := Coll.path })
    (RA := fun gc gc' => Stays gen c c1.paths gc.2 ∧ gc' = (g1, c1.still freq))
    (RF := fun s m f f' => f = f' ∧ c1.paths s m = some f.mat)
    rfl rfl rfl rfl rfl rfl rfl rfl (still_infos freq c) id (fun hc p hp => by dsimp only at hc ⊢; rw [hc]; rfl)
    (fun _ _ => rfl) (fun _ _ _ _ => rfl)
    (fun p hp x S S' i x1 S1 hS hx => ⟨S1, by rw [← hS.eq]; exact hx, fun _ _ => rfl⟩)
    (fun a a' a1 n ha hx => by
      obtain ⟨ha, rfl⟩ := ha
      obtain ⟨g2, c2⟩ := a
      obtain ⟨g3, c3⟩ := a1
      exact ⟨_, update_still (gc := (g1, c1.still freq)) (Nat.pos_iff_ne_zero.1 hfreq) hstill n,
        update_stays hst hmod hT' ha hx, rfl⟩)
    (fun a a' ha p hp ir hir => by
      obtain ⟨ha, rfl⟩ := ha
      dsimp only at hir ⊢
      unfold Coll.path at hir ⊢
      rw [ha.paths] at hir
      rw [hf]
      refine ⟨ir, hir, rfl, ?_⟩
      split at hir
      · cases hir
      · rename_i v hv
        cases hir
        exact hv)
    (fun p hp f f' x g y hff hx => by
      obtain ⟨rfl, hm⟩ := hff
      dsimp only at hx ⊢
      refine ⟨g, hx, rfl, ?_⟩
      rw [hf] at hx
      change f.process x = .ok (g, y) at hx
      unfold Fir.process at hx
      split at hx
      · cases hx
      · cases hx
        exact hm)
    (fun a a' ha p hp f f' g hff hx => by
      obtain ⟨ha, rfl⟩ := ha
      obtain ⟨rfl, hm⟩ := hff
      have hg : g = f := by
        unfold SimCfg.updFilt at hx
        dsimp only at hx
        split at hx
        · unfold Coll.path at hx
          rw [ha.paths, hm] at hx
          dsimp only at hx
          rw [hf] at hx
          change f.updateIr f.mat = .ok g at hx
          unfold Fir.updateIr at hx
          rw [if_pos ⟨rfl, rfl⟩] at hx
          cases hx
          rfl
        · cases hx
          rfl
      rw [hg]
      exact ⟨f, rfl, rfl, hm⟩)
  obtain ⟨fin', h1, h2⟩ := H.run (blind_false _) (arr' := (g1, c1.still freq)) ⟨hs0, rfl⟩ (f0' := f0) (fun _ _ => trivial) h
  refine ⟨fin', h1, h2.eng.sig.eq.symm, h2.eng.srcs.symm, h2.eng.proc.symm, h2.idx.symm, h2.n.symm, h2.diags.symm, h2.log.symm,
    ?_, fun p hp => (h2.eng.filts p hp).1.symm⟩
  rw [h2.eng.arr.2, h2.eng.arr.1.paths]
  rfl

end

/-- The box with a source that moves nowhere. -/
def standArrays : List (Arr (ℚ × ℚ × ℚ)) :=
  [⟨"src", some .free, 1, [(0, 1, 3)], none, 1, some fun _ => [(0, 1, 3)], true, []⟩,
   ⟨"mic", some .mic, 2, [(2, 1, 3), (2, 2, 5 / 2)], none, 1, none, true, []⟩]

/-- Their collection. -/
def standColl (t : String) : Coll (ℚ × ℚ × ℚ) (IrMat ℚ) := (((Coll.empty 2).addAll standArrays).setDefault t)

theorem standColl_consistent (t : String) : (standColl t).Consistent := by
  have := (Coll.addAll_spec standArrays (Coll.empty_consistent (H := IrMat ℚ) 2) (by simp [standArrays])).1
  exact ⟨this.names, this.kinds, this.mics, this.srcs, this.frees⟩

/-- The microphones receive the same as from a source that has no trajectory. -/
example : micBuffer ((boxSim boxInfo ((standColl "ism").still 5)).map observe) =
    micBuffer ((boxSim boxInfo (standColl "ism")).map observe) ∧
    micBuffer ((boxSim boxInfo (standColl "ism")).map observe) ≠ none := by
  have hne : micBuffer ((boxSim boxInfo (standColl "ism")).map observe) ≠ none := by decide +kernel
  refine ⟨?_, hne⟩
  have harr : (standColl "ism").arrays = standArrays := rfl
  cases h : boxSim boxInfo (standColl "ism") with
  | error x => rw [h] at hne; exact absurd rfl hne
  | ok fin =>
    obtain ⟨fin', h1, h2, -⟩ := C125_still boxBase rfl boxExt boxInfo (fun _ _ _ _ _ => rfl)
      (c := standColl "ism") (standColl_consistent _) (by
        intro s m hsm
        have e : (standColl "ism").types s m = if s = "src" ∧ m = "mic" then some "ism" else none := rfl
        rw [e] at hsm
        split at hsm <;> simp at hsm)
      (by rw [harr]; simp [standArrays])
      (by rw [harr]; simp only [standArrays]; intro a ha q hq n
          simp only [List.mem_cons, List.not_mem_nil, or_false] at ha
          rcases ha with rfl | rfl <;> cases hq
          rfl) (freq := 5) (by decide) h
    unfold boxSim
    rw [h1]
    simp only [Except.map, micBuffer, observe, h2]

/-- **C125** With random responses a trajectory makes a difference even if it stays. -/
theorem C125_random : micBuffer ((boxSim boxInfo ((standColl "random").still 2)).map observe) ≠
    micBuffer ((boxSim boxInfo (standColl "random")).map observe) := by decide +kernel

end Verif

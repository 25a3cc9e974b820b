/-
A whole simulation with the arrays in another order.
-/
import Verif.Lemmas.PermColl
namespace Verif

section
variable {F K R S P D O G : Type} [Field K] [LinearOrder K] [Zero R] [One R] [Add R]

omit [Add R] in
theorem createPath_modified {Pt : Type} {c : RirCfg R Pt G} (g : G) (a b : Geo Pt) (g1 : G) (h : IrMat R) :
    createPath c g a b "modified" ≠ .ok (g1, h) := by
  intro hx
  unfold createPath at hx
  dsimp only at hx
  rw [if_neg (by decide), if_neg (by decide), if_neg (by decide), if_neg (by decide)] at hx
  cases hx

theorem simulate_perm (hcomm : ∀ a b c : R, a + b + c = a + c + b)
    {base : SimCfg R (IrMat R) F S (G × Coll (K × K × K) (IrMat R)) P D O} {ext : RoomExt K R G}
    {i : RoomInfo K} {g : G} {c c' : Coll (K × K × K) (IrMat R)} {srcs : String → S} {proc : P} {f0 : F} {ds : List (Diag D)}
    (hc : c.Consistent) (hc' : c'.Consistent) (harr : c.arrays.Perm c'.arrays) (hfreq : c.freq = c'.freq)
    (hty : c.types = c'.types) (hpa : c.paths = c'.paths)
    (hrir : ∀ b g g' ss ms, (ext.rir b g ss ms).2 = (ext.rir b g' ss ms).2)
    (hrand : ∀ s m, c.types s m ≠ some "random")
    {fin : SimSt R F S (G × Coll (K × K × K) (IrMat R)) P D O} (hx : simulate base ext i g c srcs proc f0 ds = .ok fin) :
    ∃ fin', simulate base ext i g c' srcs proc f0 ds = .ok fin' ∧
      StRel (fun _ => false) (CFull fun t => t ≠ "random") (fun _ => True) fin fin' := by
  unfold simulate roomSetup at hx ⊢
  cases hpar : i.parameters ext with
  | error x => rw [hpar] at hx; cases hx
  | ok par =>
    rw [hpar] at hx
    dsimp only at hx ⊢
    cases hset : c.setupIr (createPath (i.cfg ext par)) g with
    | error x => rw [hset] at hx; cases hx
    | ok gc =>
      rw [hset] at hx
      dsimp only at hx
      have hst : Steady (createPath (i.cfg ext par)) fun t => t ≠ "random" :=
        createPath_steady fun g g' ss ms => hrir _ g g' _ _
      have hrel : CPerm (fun t => t ≠ "random") (g, c) (g, c') :=
        ⟨hc, hc', harr, hfreq, hty, hpa, fun s m t ht e => hrand s m (by rw [ht, e])⟩
      obtain ⟨gc', hset', hrel'⟩ := setupIr_perm (gc := (g, c)) (gc' := (g, c')) hst (by decide) hrel hset
      dsimp only at hset'
      rw [hset']
      dsimp only
      obtain ⟨cfg, hcfg⟩ : ∃ cfg : SimCfg R (IrMat R) F S (G × Coll (K × K × K) (IrMat R)) P D O,
        cfg = { base with
          arrays := c.infos, arrUpdate := Coll.update (createPath (i.cfg ext par)), arrPath := Coll.path } := ⟨_, rfl⟩
      rw [← hcfg] at hx
      have ea : cfg.arrays = c.infos := by rw [hcfg]
      have hlists : gc.2.srcs = c.srcs ∧ gc.2.mics = c.mics := by
        have hs : ∀ (l : List (String × String)) {x y : G × Coll (K × K × K) (IrMat R)},
            l.foldlM (Coll.setupOne (createPath (i.cfg ext par))) x = .ok y → y.2.srcs = x.2.srcs ∧ y.2.mics = x.2.mics := by
          intro l
          induction l with
          | nil => intro x y h; cases h; exact ⟨rfl, rfl⟩
          | cons p l ih =>
            intro x y h
            rw [List.foldlM_cons] at h
            cases hp : Coll.setupOne (createPath (i.cfg ext par)) x p with
            | error e => rw [hp] at h; cases h
            | ok z =>
              rw [hp] at h
              obtain ⟨k1, k2⟩ := ih h
              obtain ⟨_, _, _, _, _, _, k3⟩ := setupOne_ok.1 hp
              rcases k3 with ⟨_, rfl⟩ | ⟨_, _, _, _, rfl⟩
              · exact ⟨k1, k2⟩
              · exact ⟨k1, k2⟩
        unfold Coll.setupIr at hset
        split at hset
        · cases hset
        · exact hs _ hset
      have hfull : ∀ s ∈ gc.2.srcs, ∀ m ∈ gc.2.mics, (gc.2.paths s m).isSome := by
        rw [hlists.1, hlists.2]
        intro s hs m hm
        have hrun := hx
        unfold SimCfg.run at hrun
        cases hi : cfg.init srcs gc proc f0 ds with
        | error x => rw [hi] at hrun; cases hrun
        | ok st =>
          unfold SimCfg.init at hi
          cases h1 : cfg.createSignals with
          | error x => rw [h1] at hi; cases hi
          | ok sig =>
            rw [h1] at hi
            dsimp only at hi
            cases h2 : cfg.createFilters gc (fun _ _ => f0) with
            | error x => rw [h2] at hi; cases hi
            | ok fs =>
              obtain ⟨a, ha, hka, rfl⟩ := hc.mem_srcs.1 hs
              obtain ⟨b, hb, hkb, rfl⟩ := hc.mem_mics.1 hm
              obtain ⟨k, hk, hkm⟩ : ∃ k, a.kind = some k ∧ k ≠ .mic := by
                rcases hka with hka | hka
                · exact ⟨_, hka, by decide⟩
                · exact ⟨_, hka, by decide⟩
              have hin : ((⟨a.name, a.num, k, a.dynamic⟩, ⟨b.name, b.num, .mic, b.dynamic⟩) : ArrInfo × ArrInfo) ∈
                  combosOf cfg.arrays := by
                rw [ea, mem_combosOf]
                constructor
                · exact List.mem_filter.2 ⟨List.mem_filterMap.2 ⟨a, ha, by rw [hk]; rfl⟩, by simpa using hkm⟩
                · exact List.mem_filter.2 ⟨List.mem_filterMap.2 ⟨b, hb, by rw [hkb]; rfl⟩, by simp⟩
              unfold SimCfg.createFilters at h2
              obtain ⟨f1, f2, hff⟩ := foldlM_each _ h2 _ hin
              dsimp only at hff
              split at hff
              · cases hff
              · rename_i ir hir
                have hir : Coll.path gc a.name b.name = .ok ir := by rw [← hir, hcfg]
                unfold Coll.path at hir
                split at hir
                · cases hir
                · rename_i v hv
                  rw [hv]; rfl
      have hH : Hidden (fun _ => false) cfg := by
        refine ⟨fun a _ h => (by cases h), fun _ _ _ => rfl, fun _ _ _ _ => rfl, fun p _ x S S' i x1 S1 hS hp => ?_⟩
        have : S = S' := funext fun k => hS k rfl
        subst this
        exact ⟨S1, hp, fun _ _ => rfl⟩
      have hCR : CollRel (fun _ => false) cfg (Coll.update (createPath (i.cfg ext par))) Coll.path
          (CFull fun t => t ≠ "random") := by
        refine ⟨fun a a' a1 n hr hu => ?_, fun a a' s m v hr hm hv => ?_⟩
        · exact update_perm hst createPath_modified hr (by rw [← hu, hcfg])
        · rw [← hv, hcfg]
          show Coll.path a' s m = Coll.path a s m
          unfold Coll.path
          rw [hr.perm.paths]
      have hb : Blind (fun _ => false) cfg.diag fun _ => True := by
        intro d p S S' iv gv d1 _ hS hs
        have : S = S' := funext fun k => hS k rfl
        subst this
        exact ⟨hs, trivial⟩
      obtain ⟨fin', hf, hs⟩ := run_hide hH hCR hb ⟨hrel', hfull⟩ (fun _ _ => trivial) hx
      have hk : (cfg.without (fun _ => false) (Coll.update (createPath (i.cfg ext par))) Coll.path).arrays = cfg.arrays := by
        unfold SimCfg.without keptArrays
        simp
      refine ⟨fin', ?_, hs⟩
      have hp := run_perm (as' := c'.infos) hcomm (by rw [hk, ea]; exact infos_perm harr) hf
      rw [← hp, hcfg]
      rfl

end

section
variable {Pt H : Type}

theorem addAll_fresh : ∀ (as : List (Arr Pt)) (c : Coll Pt H), ((c.arrays ++ as).map Arr.name).Nodup →
    (c.addAll as).arrays = c.arrays ++ as
  | [], c, _ => by simp [Coll.addAll]
  | a :: as, c, h => by
    have e : c.addAll (a :: as) = (c.addArray a).1.addAll as := rfl
    have hnone : c.find a.name = none := by
      cases hf : c.find a.name with
      | none => rfl
      | some b =>
        obtain ⟨h1, h2⟩ := Coll.find_some hf
        rw [List.map_append, List.nodup_append] at h
        exact absurd h2 (h.2.2 b.name (List.mem_map.2 ⟨b, h1, rfl⟩) a.name (by simp))
    have harr : (c.addArray a).1.arrays = c.arrays ++ [a] := by
      unfold Coll.addArray
      rw [hnone]
      simp only [Option.isSome_none, Bool.false_eq_true, if_false]
      split <;> rfl
    rw [e, addAll_fresh as _ (by rw [harr]; simpa using h), harr]
    simp

theorem addAll_frame : ∀ (as : List (Arr Pt)) (c : Coll Pt H),
    (c.addAll as).paths = c.paths ∧ (c.addAll as).types = c.types ∧ (c.addAll as).freq = c.freq
  | [], c => ⟨rfl, rfl, rfl⟩
  | a :: as, c => by
    have e : c.addAll (a :: as) = (c.addArray a).1.addAll as := rfl
    have h : (c.addArray a).1.paths = c.paths ∧ (c.addArray a).1.types = c.types ∧ (c.addArray a).1.freq = c.freq := by
      unfold Coll.addArray
      split
      · exact ⟨rfl, rfl, rfl⟩
      · dsimp only
        split <;> exact ⟨rfl, rfl, rfl⟩
    obtain ⟨h1, h2, h3⟩ := addAll_frame as (c.addArray a).1
    rw [e]
    exact ⟨h1.trans h.1, h2.trans h.2.1, h3.trans h.2.2⟩

theorem setDefault_perm {c c' : Coll Pt H} (hc : c.Consistent) (hc' : c'.Consistent) (h : c.arrays.Perm c'.arrays)
    (hty : c.types = c'.types) (hpa : c.paths = c'.paths) (t : String) :
    (c.setDefault t).types = (c'.setDefault t).types := by
  have h1 := (setDefault_types t c.combos c).2
  have h2 := (setDefault_types t c'.combos c').2
  funext s m
  refine (h1 s m).trans (Eq.trans ?_ (h2 s m).symm)
  have hm : (s, m) ∈ c.combos ↔ (s, m) ∈ c'.combos := by
    rw [Coll.mem_combos, Coll.mem_combos, hc.mem_srcs, hc'.mem_srcs, hc.mem_mics, hc'.mem_mics]
    simp only [h.mem_iff]
  rw [hty, hpa]
  by_cases hx : (s, m) ∈ c.combos
  · rw [if_pos hx, if_pos (hm.1 hx)]
  · rw [if_neg hx, if_neg fun e => hx (hm.2 e)]

end
end Verif

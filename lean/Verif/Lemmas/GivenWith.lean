/-
Runs with a processor that prepares itself, of two collections of which the second one has been given some
impulse responses of the first one.
-/
import Verif.Lemmas.HideWith
import Verif.Props.Given
namespace Verif

section
variable {K R G : Type} [Field K] [LinearOrder K] [Field R]

/-- Setting up a room with given responses of the same room. -/
theorem roomSetup_given (ext : RoomExt K R G) (i : RoomInfo K) {g g' : G} {c c' : Coll (K × K × K) (IrMat R)} (hc : c.Consistent) {t : String}
    (hnum : ∀ a ∈ c.arrays, 0 < a.num) {Q : List (String × String)}
    (hQ : ∀ q ∈ Q, ∀ a ∈ c.arrays, a.traj.isSome = true → a.name ≠ q.1 ∧ a.name ≠ q.2)
    (hdet : (∀ s ∈ c.srcs, ∀ m ∈ c.mics, (s, m) ∈ Q) ∨
      (∀ b g g' ss ms, (ext.rir b g ss ms).2 = (ext.rir b g' ss ms).2) ∧
        ∀ s ∈ c.srcs, ∀ m ∈ c.mics, (s, m) ∉ Q → (c.setDefault t).types s m ≠ some "random")
    {par : K × Nat} {gc : G × Coll (K × K × K) (IrMat R)} (hprep : roomSetup ext i g (c.setDefault t) = .ok (par, gc))
    (hgive : Coll.give gc.2.paths Q c = .ok c') :
    ∃ gc1, roomSetup ext i g' (c'.setDefault t) = .ok (par, gc1) ∧
      KFull (createPath (i.cfg ext par)) Q gc.2.paths gc gc1 ∧
      (c'.setDefault t).infos = c.infos ∧ (c.setDefault t).infos = c.infos := by
  unfold roomSetup at hprep ⊢
  cases hp : i.parameters ext with
  | error x => rw [hp] at hprep; cases hprep
  | ok par0 =>
  rw [hp] at hprep
  dsimp only at hprep ⊢
  cases hs : (c.setDefault t).setupIr (createPath (i.cfg ext par0)) g with
  | error x => rw [hs] at hprep; cases hprep
  | ok gc0 =>
  rw [hs] at hprep
  cases hprep
  obtain ⟨gen, hgen⟩ : ∃ gen, gen = createPath (i.cfg ext par) := ⟨_, rfl⟩
  rw [← hgen] at hs ⊢
  obtain ⟨hg1, hg2⟩ := give_spec Q hgive
  obtain ⟨⟨ty, hty⟩, hty2⟩ := setDefault_spec t c
  obtain ⟨⟨ty', hty'⟩, hty2'⟩ := setDefault_spec t c'
  have hsr : c'.srcs = c.srcs := by rw [hg1]
  have hmi : c'.mics = c.mics := by rw [hg1]
  have hpa : ∀ s m, c'.paths s m = if (s, m) ∈ Q then gc.2.paths s m else c.paths s m := by rw [hg1]; exact fun _ _ => rfl
  have htypes : c'.types = c.types := by rw [hg1]
  have hK : KRel gen Q gc.2.paths (g, c.setDefault t) (g', c'.setDefault t) := by
    constructor
    · rw [hty, hty', hg1]
    · rw [hty, hty', hg1]
    · rw [hty, hty', hg1]
    · rw [hty, hty', hg1]
    · rw [hty, hty', hg1]
    · intro s h1 m h2 hq
      have h1' : s ∈ c.srcs := by rw [hty] at h1; exact h1
      have h2' : m ∈ c.mics := by rw [hty] at h2; exact h2
      dsimp only
      rw [hty2' s (by rw [hsr]; exact h1') m (by rw [hmi]; exact h2'), hty2 s h1' m h2', hpa, if_neg hq, htypes]
    · intro s m hq
      obtain ⟨h1, h2, h3⟩ := hg2 _ hq
      dsimp only at h1 h2 h3 ⊢
      rw [hty2' s (by rw [hsr]; exact h1) m (by rw [hmi]; exact h2), hpa, if_pos hq, if_pos h3]
    · intro s h1 m h2 hq u hu
      have h1' : s ∈ c.srcs := by rw [hty] at h1; exact h1
      have h2' : m ∈ c.mics := by rw [hty] at h2; exact h2
      rcases hdet with hd | ⟨hd1, hd2⟩
      · exact absurd (hd s h1' m h2') hq
      · have hne : u ≠ "random" := by
          rintro rfl
          exact hd2 s h1' m h2' hq hu
        have hst : Steady gen fun t => t ≠ "random" := by
          rw [hgen]
          exact createPath_steady fun g g' ss ms => hd1 _ g g' _ _
        intro x x' a b x1 y hy
        exact hst x x' a b u x1 y hne hy
    · intro s m hq
      rw [hty, hty']
      dsimp only
      rw [hpa, if_neg hq]
    · intro s m hq
      rw [hty']
      dsimp only
      rw [hpa, if_pos hq]
  obtain ⟨gc1, hs', hK1, harr, hsr1, hmi1⟩ := setupIr_given hK (by rw [hty]; exact hnum) hs
  rw [hs']
  have harr' : gc.2.arrays = c.arrays := by rw [harr, hty]
  have hi1 : (c'.setDefault t).infos = (c.setDefault t).infos := by unfold Coll.infos; rw [hK.arrays]
  have hi2 : (c.setDefault t).infos = c.infos := by unfold Coll.infos; rw [hty]
  have hlists : gc.2.srcs = c.srcs ∧ gc.2.mics = c.mics := by
    rw [hsr1, hmi1, hty]
    exact ⟨rfl, rfl⟩
  refine ⟨gc1, rfl, ⟨hK1, fun _ _ _ => rfl, ?_, ?_, ?_⟩, hi1.trans hi2, hi2⟩
  · rw [harr']
    intro a ha hd s m hq
    have := hQ _ hq a ha hd
    exact ⟨fun e => this.1 e.symm, fun e => this.2 e.symm⟩
  · rw [harr']
    exact hc.names
  · rw [harr', hlists.1, hlists.2]
    intro a ha
    refine ⟨fun hk => hc.mem_mics.2 ⟨a, ha, hk, rfl⟩, fun k hk hne => hc.mem_srcs.2 ⟨a, ha, ?_, rfl⟩⟩
    rw [hk]
    cases k
    · exact absurd rfl hne
    · exact .inl rfl
    · exact .inr rfl

end

section
variable {Pt R F S P D O G : Type} [Zero R] [Add R]

/-- Related collections give the same run. -/
theorem runWith_given {cfg : SimCfg R (IrMat R) F S (G × Coll Pt (IrMat R)) P D O} {gen : GenFn Pt (IrMat R) G}
    {Q : List (String × String)} {P' : String → String → Option (IrMat R)} (eu : cfg.arrUpdate = Coll.update gen) (ep : cfg.arrPath = Coll.path)
    {gc gc1 : G × Coll Pt (IrMat R)} (hF : KFull gen Q P' gc gc1) {prep : P → Sigs R → Int → Except PyErr (P × Sigs R)}
    {srcs : String → S} {proc : P} {f0 : F}
    {ds : List (Diag D)} {fin : SimSt R F S (G × Coll Pt (IrMat R)) P D O} (h : cfg.runWith prep srcs gc proc f0 ds = .ok fin) :
    ∃ fin', cfg.runWith prep srcs gc1 proc f0 ds = .ok fin' ∧ StRel (fun _ => false) (KFull gen Q P') (fun _ => True) fin fin' := by
  have hH : Hidden (fun _ => false) cfg := by
    refine ⟨fun a _ h => (by cases h), fun _ _ _ => rfl, fun _ _ _ _ => rfl, fun p _ x S S' i x1 S1 hS hp => ?_⟩
    have : S = S' := funext fun k => hS k rfl
    subst this
    exact ⟨S1, hp, fun _ _ => rfl⟩
  have hCR : CollRel (fun _ => false) cfg (Coll.update gen) Coll.path (KFull gen Q P') := by
    refine ⟨fun a a' a1 n hr hu => update_given hr (by rw [← hu, eu]), fun a a' s m v hr hm hv => ?_⟩
    rw [← hv, ep]
    show Coll.path a' s m = Coll.path a s m
    unfold Coll.path
    rw [hr.all]
  have hb : Blind (fun _ => false) cfg.diag fun _ => True := by
    intro d p S S' iv gv d1 _ hS hs
    have : S = S' := funext fun k => hS k rfl
    subst this
    exact ⟨hs, trivial⟩
  have hprep : PrepIgnores (fun _ => false) prep := by
    intro x S S' i x1 S1 hS hp
    have : S = S' := funext fun k => hS k rfl
    subst this
    exact ⟨S1, hp, fun _ _ => rfl⟩
  obtain ⟨fin', hf, hs⟩ := runWith_hide hH hCR hprep hb hF (fun _ _ => trivial) h
  refine ⟨fin', ?_, hs⟩
  rw [← hf]
  congr 1
  unfold SimCfg.without keptArrays
  rw [← eu, ← ep]
  simp

end
end Verif

/-
C128: a simulation can be given the impulse responses of another one.
-/
import Verif.Lemmas.GivenRun
import Verif.Spec.Room
import Verif.Props.Still
import Verif.Props.Mute
namespace Verif

section
variable {Pt R : Type}

theorem setPropPath_ok {c c' : Coll Pt (IrMat R)} {h : IrMat R} {s m : String} (hx : c.setPropPath h s m = .ok c') :
    s ∈ c.srcs ∧ m ∈ c.mics ∧ c' = { c with paths := set2 c.paths s m h } := by
  unfold Coll.setPropPath at hx
  split at hx
  · cases hx
  · rename_i h1
    split at hx
    · cases hx
    · rename_i h2
      split at hx
      · split at hx
        · cases hx
        · split at hx
          · cases hx
          · cases hx
            exact ⟨not_not.1 h1, not_not.1 h2, rfl⟩
      · cases hx

theorem give_spec {P : String → String → Option (IrMat R)} : ∀ (Q : List (String × String)) {c c' : Coll Pt (IrMat R)},
    Coll.give P Q c = .ok c' →
    c' = { c with paths := fun s m => if (s, m) ∈ Q then P s m else c.paths s m } ∧
    ∀ q ∈ Q, q.1 ∈ c.srcs ∧ q.2 ∈ c.mics ∧ (P q.1 q.2).isSome
  | [], c, c', h => by
    cases h
    exact ⟨by simp, by simp⟩
  | q :: Q, c, c', h => by
    rw [Coll.give] at h
    split at h
    · cases h
    · rename_i v hv
      split at h
      · cases h
      · rename_i c1 hc1
        obtain ⟨h1, h2, rfl⟩ := setPropPath_ok hc1
        obtain ⟨h3, h4⟩ := give_spec Q h
        constructor
        · rw [h3]
          congr 1
          funext s m
          dsimp only
          by_cases hin : (s, m) ∈ Q
          · rw [if_pos hin, if_pos (List.mem_cons_of_mem _ hin)]
          · rw [if_neg hin]
            unfold set2
            by_cases he : s = q.1 ∧ m = q.2
            · obtain ⟨rfl, rfl⟩ := he
              rw [if_pos ⟨rfl, rfl⟩, if_pos List.mem_cons_self, hv]
            · rw [if_neg he, if_neg]
              rw [List.mem_cons]
              rintro (e | e)
              · exact he ⟨congrArg Prod.fst e, congrArg Prod.snd e⟩
              · exact hin e
        · intro p hp
          rcases List.mem_cons.1 hp with rfl | hp
          · exact ⟨h1, h2, by rw [hv]; rfl⟩
          · exact h4 p hp

end

section
variable {K R F S P D O G : Type} [Field K] [LinearOrder K] [Field R]

/-- **C128** Take the impulse responses of the pairs `Q` from a prepared simulation and set them as propagation paths of
a new setup with the same arrays.  If the first simulation completes, then so does the new one, in any state
`g'` of the random generators, and everything that can be seen is the same.  The arrays of these pairs must not move;
if other pairs remain, their responses must not depend on random numbers. -/
theorem C128_given (base : SimCfg R (IrMat R) F S (G × Coll (K × K × K) (IrMat R)) P D O)
    (ext : RoomExt K R G) (i : RoomInfo K) {g g' : G} {c c' : Coll (K × K × K) (IrMat R)} (hc : c.Consistent) {t : String}
    (hnum : ∀ a ∈ c.arrays, 0 < a.num) {Q : List (String × String)}
    (hQ : ∀ q ∈ Q, ∀ a ∈ c.arrays, a.traj.isSome = true → a.name ≠ q.1 ∧ a.name ≠ q.2)
    (hdet : (∀ s ∈ c.srcs, ∀ m ∈ c.mics, (s, m) ∈ Q) ∨
      (∀ b g g' ss ms, (ext.rir b g ss ms).2 = (ext.rir b g' ss ms).2) ∧
        ∀ s ∈ c.srcs, ∀ m ∈ c.mics, (s, m) ∉ Q → (c.setDefault t).types s m ≠ some "random")
    {par : K × Nat} {gc : G × Coll (K × K × K) (IrMat R)} (hprep : roomSetup ext i g (c.setDefault t) = .ok (par, gc))
    (hgive : Coll.give gc.2.paths Q c = .ok c')
    {srcs : String → S} {proc : P} {f0 : F}
    {ds : List (Diag D)} {fin : SimSt R F S (G × Coll (K × K × K) (IrMat R)) P D O}
    (h : simulate base ext i g (c.setDefault t) srcs proc f0 ds = .ok fin) :
    ∃ fin', simulate base ext i g' (c'.setDefault t) srcs proc f0 ds = .ok fin' ∧
      fin'.eng.sig = fin.eng.sig ∧ fin'.eng.srcs = fin.eng.srcs ∧ fin'.eng.proc = fin.eng.proc ∧
      fin'.idx = fin.idx ∧ fin'.n = fin.n ∧ fin'.diags = fin.diags ∧ fin'.log = fin.log ∧
      fin'.eng.arr.2.arrays = fin.eng.arr.2.arrays ∧ fin'.eng.arr.2.paths = fin.eng.arr.2.paths ∧
      fin'.eng.arr.2.rirs = fin.eng.arr.2.rirs ∧
      ∀ p ∈ combosOf c.infos, fin'.eng.filts p.1.name p.2.name = fin.eng.filts p.1.name p.2.name := by
  unfold simulate at h ⊢
  rw [hprep] at h
  dsimp only at h
  unfold roomSetup at hprep ⊢
  cases hp : i.parameters ext with
  | error x => rw [hp] at hprep; cases hprep
  | ok par0 =>
  rw [hp] at hprep
  dsimp only at hprep ⊢
  cases hs : (c.setDefault t).setupIr (createPath (i.cfg ext par0)) g with
  | error x => rw [hs] at hprep; cases hprep
  | ok gc0 =>
  rw [hs] at hprep
  cases hprep
  obtain ⟨gen, hgen⟩ : ∃ gen, gen = createPath (i.cfg ext par) := ⟨_, rfl⟩
  rw [← hgen] at hs h ⊢
  obtain ⟨hg1, hg2⟩ := give_spec Q hgive
  obtain ⟨⟨ty, hty⟩, hty2⟩ := setDefault_spec t c
  obtain ⟨⟨ty', hty'⟩, hty2'⟩ := setDefault_spec t c'
  have hsr : c'.srcs = c.srcs := by rw [hg1]
  have hmi : c'.mics = c.mics := by rw [hg1]
  have hpa : ∀ s m, c'.paths s m = if (s, m) ∈ Q then gc.2.paths s m else c.paths s m := by rw [hg1]; exact fun _ _ => rfl
  have htypes : c'.types = c.types := by rw [hg1]
  have hK : KRel gen Q gc.2.paths (g, c.setDefault t) (g', c'.setDefault t) := by
    constructor
    · rw [hty, hty', hg1]
    · rw [hty, hty', hg1]
    · rw [hty, hty', hg1]
    · rw [hty, hty', hg1]
    · rw [hty, hty', hg1]
    · intro s h1 m h2 hq
      have h1' : s ∈ c.srcs := by rw [hty] at h1; exact h1
      have h2' : m ∈ c.mics := by rw [hty] at h2; exact h2
      dsimp only
      rw [hty2' s (by rw [hsr]; exact h1') m (by rw [hmi]; exact h2'), hty2 s h1' m h2', hpa, if_neg hq, htypes]
    · intro s m hq
      obtain ⟨h1, h2, h3⟩ := hg2 _ hq
      dsimp only at h1 h2 h3 ⊢
      rw [hty2' s (by rw [hsr]; exact h1) m (by rw [hmi]; exact h2), hpa, if_pos hq, if_pos h3]
    · intro s h1 m h2 hq u hu
      have h1' : s ∈ c.srcs := by rw [hty] at h1; exact h1
      have h2' : m ∈ c.mics := by rw [hty] at h2; exact h2
      rcases hdet with hd | ⟨hd1, hd2⟩
      · exact absurd (hd s h1' m h2') hq
      · have hne : u ≠ "random" := by
          rintro rfl
          exact hd2 s h1' m h2' hq hu
        have hst : Steady gen fun t => t ≠ "random" := by
          rw [hgen]
          exact createPath_steady fun g g' ss ms => hd1 _ g g' _ _
        intro x x' a b x1 y hy
        exact hst x x' a b u x1 y hne hy
    · intro s m hq
      rw [hty, hty']
      dsimp only
      rw [hpa, if_neg hq]
    · intro s m hq
      rw [hty']
      dsimp only
      rw [hpa, if_pos hq]
  obtain ⟨gc1, hs', hK1, harr, hsr1, hmi1⟩ := setupIr_given hK (by rw [hty]; exact hnum) hs
  rw [hs']
  dsimp only
  rw [← hgen]
  have harr' : gc.2.arrays = c.arrays := by rw [harr, hty]
  have hi1 : (c'.setDefault t).infos = (c.setDefault t).infos := by unfold Coll.infos; rw [hK.arrays]
  have hi2 : (c.setDefault t).infos = c.infos := by unfold Coll.infos; rw [hty]
  rw [hi1, hi2]
  rw [hi2] at h
  have hlists : gc.2.srcs = c.srcs ∧ gc.2.mics = c.mics := by
    rw [hsr1, hmi1, hty]
    exact ⟨rfl, rfl⟩
  have hF : KFull gen Q gc.2.paths gc gc1 := by
    refine ⟨hK1, fun _ _ _ => rfl, ?_, ?_, ?_⟩
    · rw [harr']
      intro a ha hd s m hq
      have := hQ _ hq a ha hd
      exact ⟨fun e => this.1 e.symm, fun e => this.2 e.symm⟩
    · rw [harr']
      exact hc.names
    · rw [harr', hlists.1, hlists.2]
      intro a ha
      refine ⟨fun hk => hc.mem_mics.2 ⟨a, ha, hk, rfl⟩, fun k hk hne => hc.mem_srcs.2 ⟨a, ha, ?_, rfl⟩⟩
      rw [hk]
      cases k
      · exact absurd rfl hne
      · exact .inl rfl
      · exact .inr rfl
  exact run_given base hF h

end

/-- A source and microphones at rest, whose path is random, and a moving microphone. -/
def giveColl : Coll (ℚ × ℚ × ℚ) (IrMat ℚ) :=
  let c := (Coll.empty 2).addAll [⟨"src", some .free, 1, [(0, 1, 3)], none, 1, none, true, []⟩,
    ⟨"mic", some .mic, 2, [(2, 1, 3), (2, 2, 5 / 2)], none, 1, none, true, []⟩, walkMic]
  { c with types := set2 c.types "src" "mic" "random" }

/-- Its simulation with the random generators in state `g`. -/
def giveSim (g : Nat) (c : Coll (ℚ × ℚ × ℚ) (IrMat ℚ)) :=
  simulate boxBase boxExt boxInfo g c (fun _ => 0) () demoFilt []

/-- The collection with the responses of a simulation prepared in state `g`. -/
def giveFrom (g : Nat) (Q : List (String × String)) (t : String) (c : Coll (ℚ × ℚ × ℚ) (IrMat ℚ)) :
    Except PyErr (Coll (ℚ × ℚ × ℚ) (IrMat ℚ)) :=
  match roomSetup boxExt boxInfo g (c.setDefault t) with
  | .error x => .error x
  | .ok r => Coll.give r.2.2.paths Q c

theorem giveColl_consistent : giveColl.Consistent := by
  have := (Coll.addAll_spec [⟨"src", some .free, 1, [(0, 1, 3)], none, 1, none, true, []⟩,
    ⟨"mic", some .mic, 2, [(2, 1, 3), (2, 2, 5 / 2)], none, 1, none, true, []⟩, walkMic]
    (Coll.empty_consistent (H := IrMat ℚ) 2) (by simp [walkMic])).1
  exact ⟨this.names, this.kinds, this.mics, this.srcs, this.frees⟩

/-- The microphones record the same with the response given and another state of the generators,
and something else with another state only. -/
example : ∃ c', giveFrom 0 [("src", "mic")] "ism" giveColl = .ok c' ∧
    micBuffer ((giveSim 5 (c'.setDefault "ism")).map observe) = micBuffer ((giveSim 0 (giveColl.setDefault "ism")).map observe) ∧
    micBuffer ((giveSim 0 (giveColl.setDefault "ism")).map observe) ≠ none ∧
    micBuffer ((giveSim 5 (giveColl.setDefault "ism")).map observe) ≠
      micBuffer ((giveSim 0 (giveColl.setDefault "ism")).map observe) := by
  have hne : micBuffer ((giveSim 0 (giveColl.setDefault "ism")).map observe) ≠ none := by decide +kernel
  have hne5 : micBuffer ((giveSim 5 (giveColl.setDefault "ism")).map observe) ≠
      micBuffer ((giveSim 0 (giveColl.setDefault "ism")).map observe) := by decide +kernel
  have hg : (giveFrom 0 [("src", "mic")] "ism" giveColl).toOption.isSome = true := by decide +kernel
  cases hc : giveFrom 0 [("src", "mic")] "ism" giveColl with
  | error x => rw [hc] at hg; cases hg
  | ok c' =>
    refine ⟨c', rfl, ?_, hne, hne5⟩
    unfold giveFrom at hc
    split at hc
    · cases hc
    · rename_i r hr
      cases h : giveSim 0 (giveColl.setDefault "ism") with
      | error x => rw [h] at hne; exact absurd rfl hne
      | ok fin =>
        obtain ⟨fin', h1, h2, -⟩ := C128_given boxBase boxExt boxInfo (g' := 5) giveColl_consistent (t := "ism")
          (by decide) (Q := [("src", "mic")]) (by
            intro q hq a ha hd
            cases List.mem_singleton.1 hq
            have ha : a ∈ [(⟨"src", some .free, 1, [(0, 1, 3)], none, 1, none, true, []⟩ : Arr (ℚ × ℚ × ℚ)),
              ⟨"mic", some .mic, 2, [(2, 1, 3), (2, 2, 5 / 2)], none, 1, none, true, []⟩, walkMic] := ha
            simp only [List.mem_cons, List.not_mem_nil, or_false] at ha
            rcases ha with rfl | rfl | rfl
            · cases hd
            · cases hd
            · decide)
          (.inr ⟨fun _ _ _ _ _ => rfl, by decide⟩) (par := r.1) (gc := r.2) hr hc h
        unfold giveSim
        rw [h1]
        simp only [Except.map, micBuffer, observe, h2]

/-- **C128** A given response for an array that moves ends the simulation with a failed assertion
at the first update. -/
theorem C128_moving : ∃ c', giveFrom 0 [("src", "mic")] "ism" ((Coll.empty 2).addAll boxArrays) = .ok c' ∧
    (boxSim boxInfo (c'.setDefault "ism")).map observe = .error .assertion ∧
    micBuffer ((boxSim boxInfo (((Coll.empty 2).addAll boxArrays).setDefault "ism")).map observe) ≠ none := by
  have hne : micBuffer ((boxSim boxInfo (boxColl "ism")).map observe) ≠ none := by decide +kernel
  have hg : (match giveFrom 0 [("src", "mic")] "ism" ((Coll.empty 2).addAll boxArrays) with
    | .error _ => none
    | .ok c' => match boxSim boxInfo (c'.setDefault "ism") with
      | .error x => some x
      | .ok _ => none) = some .assertion := by decide +kernel
  cases hc : giveFrom 0 [("src", "mic")] "ism" ((Coll.empty 2).addAll boxArrays) with
  | error x => rw [hc] at hg; cases hg
  | ok c' =>
    refine ⟨c', rfl, ?_, hne⟩
    rw [hc] at hg
    dsimp only at hg
    cases hb : boxSim boxInfo (c'.setDefault "ism") with
    | ok fin => rw [hb] at hg; cases hg
    | error x =>
      rw [hb] at hg
      cases hg
      rfl

end Verif

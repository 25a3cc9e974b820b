/-
C191: adaptive noise control with the impulse responses of another simulation.
-/
import Verif.Lemmas.GivenWith
import Verif.Lemmas.RoomTotal
import Verif.Model.AncReal
import Verif.Props.CoordsWith
import Verif.Props.RoomTotal
namespace Verif

section
variable {F K R S D O G : Type} [Field K] [LinearOrder K] [Field R]
  {ext : RoomExt K R G} {i : RoomInfo K} {g g' : G} {c c' : Coll (K × K × K) (IrMat R)} {srcs : String → S}
  {bs ub L : Nat} {mu beta : R} {norm : FxNorm} {f0 : F}

/-- The simulations that end in `fin` and `fin'` differ in the types of their paths and in the states of the random generators only. -/
structure SameGiven {P : Type} (fin fin' : SimSt R F S (G × Coll (K × K × K) (IrMat R)) P D O) : Prop where
  sig : fin'.eng.sig = fin.eng.sig
  srcs : fin'.eng.srcs = fin.eng.srcs
  filts : fin'.eng.filts = fin.eng.filts
  proc : fin'.eng.proc = fin.eng.proc
  arrays : fin'.eng.arr.2.arrays = fin.eng.arr.2.arrays
  paths : fin'.eng.arr.2.paths = fin.eng.arr.2.paths
  rirs : fin'.eng.arr.2.rirs = fin.eng.arr.2.rirs
  idx : fin'.idx = fin.idx
  n : fin'.n = fin.n
  diags : fin'.diags = fin.diags
  log : fin'.log = fin.log

omit [Field K] [LinearOrder K] [Field R] in
theorem SameGiven.of {P : Type} {fin fin' : SimSt R F S (G × Coll (K × K × K) (IrMat R)) P D O} {gen : GenFn (K × K × K) (IrMat R) G}
    {Q : List (String × String)} {P' : String → String → Option (IrMat R)} {Pd : D → Prop}
    (hr : StRel (fun _ => false) (KFull gen Q P') Pd fin fin') : SameGiven fin fin' :=
  ⟨funext fun k => (hr.eng.sig k rfl).symm, hr.eng.srcs.symm,
    funext fun s => funext fun m => (hr.eng.filts s m rfl).symm, hr.eng.proc.symm, hr.eng.arr.arrays,
    funext fun s => funext fun m => hr.eng.arr.all s m, hr.eng.arr.rirs, hr.idx.symm, hr.n.symm, hr.diags.symm, hr.log.symm⟩

/-- C191, FxLMS: take the impulse responses of the pairs `Q` from a prepared simulation and set them as propagation paths of
a new setup with the same arrays.  If the first simulation completes, then so does the new one, in any state
`g'` of the random generators, and everything that can be seen is the same, the control filter included.  The arrays of these
pairs must not move; if other pairs remain, their responses must not depend on random numbers.  The
diagnostics must depend on the arrays only. -/
theorem C191_fxlms (base : SimCfg R (IrMat R) F S (G × Coll (K × K × K) (IrMat R)) (FxSt R) D O) (hc : c.Consistent) {t : String}
    (hnum : ∀ a ∈ c.arrays, 0 < a.num) {Q : List (String × String)}
    (hQ : ∀ q ∈ Q, ∀ a ∈ c.arrays, a.traj.isSome = true → a.name ≠ q.1 ∧ a.name ≠ q.2)
    (hdet : (∀ s ∈ c.srcs, ∀ m ∈ c.mics, (s, m) ∈ Q) ∨
      (∀ b g g' ss ms, (ext.rir b g ss ms).2 = (ext.rir b g' ss ms).2) ∧
        ∀ s ∈ c.srcs, ∀ m ∈ c.mics, (s, m) ∉ Q → (c.setDefault t).types s m ≠ some "random")
    {par : K × Nat} {gc : G × Coll (K × K × K) (IrMat R)} (hprep : roomSetup ext i g (c.setDefault t) = .ok (par, gc))
    (hgive : Coll.give gc.2.paths Q c = .ok c')
    {diags : Coll (K × K × K) (IrMat R) → Except PyErr (List (Diag D))}
    (hdiags : ∀ c1 c2 : Coll (K × K × K) (IrMat R), c1.arrays = c2.arrays → diags c1 = diags c2)
    {fin : SimSt R F S (G × Coll (K × K × K) (IrMat R)) (FxSt R) D O}
    (h : ancSimulate base ext i g (c.setDefault t) srcs bs ub L mu beta norm f0 diags = .ok fin) :
    ∃ fin', ancSimulate base ext i g' (c'.setDefault t) srcs bs ub L mu beta norm f0 diags = .ok fin' ∧ SameGiven fin fin' := by
  obtain ⟨gc1, k1, k2, k3, k4⟩ := roomSetup_given (g' := g') ext i hc hnum hQ hdet hprep hgive
  unfold ancSimulate at h ⊢
  rw [hprep, k4] at h
  rw [k1, k3]
  dsimp only at h ⊢
  have hp : Coll.path gc1 "loudspeaker" "error" = Coll.path gc "loudspeaker" "error" := by
    unfold Coll.path
    rw [k2.all]
  rw [hp, k2.arrays, hdiags gc1.2 gc.2 k2.arrays]
  cases hp : Coll.path gc "loudspeaker" "error" with
  | error x => rw [hp] at h; cases h
  | ok sp =>
    rw [hp] at h
    dsimp only at h ⊢
    cases hq : fxCreate gc.2.arrays bs ub L mu beta norm with
    | error x => rw [hq] at h; cases h
    | ok q =>
      rw [hq] at h
      dsimp only at h ⊢
      cases hd : diags gc.2 with
      | error x => rw [hd] at h; cases h
      | ok ds =>
        rw [hd] at h
        dsimp only at h ⊢
        obtain ⟨fin', f1, f2⟩ := runWith_given (cfg := { base with
          arrays := c.infos, arrUpdate := Coll.update (createPath (i.cfg ext par)), arrPath := Coll.path
          proc := some (fxProc q) }) rfl rfl k2 h
        exact ⟨fin', f1, .of f2⟩

/-- C191, FastBlockFxLMS: the same. -/
theorem C191_fast (base : SimCfg R (IrMat R) F S (G × Coll (K × K × K) (IrMat R)) (FastSt R) D O) (hc : c.Consistent) {t : String}
    (hnum : ∀ a ∈ c.arrays, 0 < a.num) {Q : List (String × String)}
    (hQ : ∀ q ∈ Q, ∀ a ∈ c.arrays, a.traj.isSome = true → a.name ≠ q.1 ∧ a.name ≠ q.2)
    (hdet : (∀ s ∈ c.srcs, ∀ m ∈ c.mics, (s, m) ∈ Q) ∨
      (∀ b g g' ss ms, (ext.rir b g ss ms).2 = (ext.rir b g' ss ms).2) ∧
        ∀ s ∈ c.srcs, ∀ m ∈ c.mics, (s, m) ∉ Q → (c.setDefault t).types s m ≠ some "random")
    {par : K × Nat} {gc : G × Coll (K × K × K) (IrMat R)} (hprep : roomSetup ext i g (c.setDefault t) = .ok (par, gc))
    (hgive : Coll.give gc.2.paths Q c = .ok c')
    {diags : Coll (K × K × K) (IrMat R) → Except PyErr (List (Diag D))}
    (hdiags : ∀ c1 c2 : Coll (K × K × K) (IrMat R), c1.arrays = c2.arrays → diags c1 = diags c2)
    {fin : SimSt R F S (G × Coll (K × K × K) (IrMat R)) (FastSt R) D O}
    (h : realSimulate base ext i g (c.setDefault t) srcs bs L mu beta f0 diags = .ok fin) :
    ∃ fin', realSimulate base ext i g' (c'.setDefault t) srcs bs L mu beta f0 diags = .ok fin' ∧ SameGiven fin fin' := by
  obtain ⟨gc1, k1, k2, k3, k4⟩ := roomSetup_given (g' := g') ext i hc hnum hQ hdet hprep hgive
  unfold realSimulate at h ⊢
  rw [hprep, k4] at h
  rw [k1, k3]
  dsimp only at h ⊢
  have hp : Coll.path gc1 "loudspeaker" "error" = Coll.path gc "loudspeaker" "error" := by
    unfold Coll.path
    rw [k2.all]
  rw [hp, k2.arrays, hdiags gc1.2 gc.2 k2.arrays]
  cases hp : Coll.path gc "loudspeaker" "error" with
  | error x => rw [hp] at h; cases h
  | ok sp =>
    rw [hp] at h
    dsimp only at h ⊢
    cases hq : fastCreate gc.2.arrays bs L mu beta with
    | error x => rw [hq] at h; cases h
    | ok q =>
      rw [hq] at h
      dsimp only at h ⊢
      cases hd : diags gc.2 with
      | error x => rw [hd] at h; cases h
      | ok ds =>
        rw [hd] at h
        dsimp only at h ⊢
        obtain ⟨fin', f1, f2⟩ := runWith_given (cfg := { base with
          arrays := c.infos, arrUpdate := Coll.update (createPath (i.cfg ext par)), arrPath := Coll.path
          proc := some (fastProc q) }) rfl rfl k2 h
        exact ⟨fin', f1, .of f2⟩

omit [Field K] [LinearOrder K] [Field R] in
theorem give_ok {P : String → String → Option (IrMat R)} : ∀ (Q : List (String × String)) {c : Coll (K × K × K) (IrMat R)}, c.Consistent →
    (∀ q ∈ Q, ∃ a ∈ c.arrays, ∃ b ∈ c.arrays, q = (a.name, b.name) ∧ (a.kind = some .free ∨ a.kind = some .ctrl) ∧ b.kind = some .mic ∧
      ∃ h, P a.name b.name = some h ∧ h.numIn = a.num ∧ h.numOut = b.num) → ∃ c', Coll.give P Q c = .ok c'
  | [], c, _, _ => ⟨c, rfl⟩
  | q :: Q, c, hc, hQ => by
    obtain ⟨a, ha, b, hb, rfl, hak, hbk, h, h1, h2, h3⟩ := hQ q (by simp)
    have hs : c.setPropPath h a.name b.name = .ok { c with paths := set2 c.paths a.name b.name h } := by
      unfold Coll.setPropPath
      rw [if_neg (not_not.2 (hc.mem_srcs.2 ⟨a, ha, hak, rfl⟩)), if_neg (not_not.2 (hc.mem_mics.2 ⟨b, hb, hbk, rfl⟩)),
        Coll.find_eq hc.names ha, Coll.find_eq hc.names hb]
      dsimp only
      rw [if_neg (not_not.2 h2), if_neg (not_not.2 h3)]
    rw [Coll.give]
    dsimp only
    rw [h1]
    dsimp only
    rw [hs]
    exact give_ok Q ⟨hc.names, hc.kinds, hc.mics, hc.srcs, hc.frees⟩ fun q hq => hQ q (by simp [hq])

/-- All pairs of a source and a microphone among the arrays. -/
def pairsOf (as : List (Arr (K × K × K))) : List (String × String) :=
  (as.filter fun a => a.kind == some .free || a.kind == some .ctrl).flatMap fun a =>
    (as.filter fun b => b.kind == some .mic).map fun b => (a.name, b.name)

omit [Field K] [LinearOrder K] in
theorem mem_pairsOf {as : List (Arr (K × K × K))} {q : String × String} : q ∈ pairsOf as ↔
    ∃ a ∈ as, ∃ b ∈ as, q = (a.name, b.name) ∧ (a.kind = some .free ∨ a.kind = some .ctrl) ∧ b.kind = some .mic := by
  unfold pairsOf
  rw [List.mem_flatMap]
  constructor
  · rintro ⟨a, ha, h⟩
    rw [List.mem_filter] at ha
    obtain ⟨b, hb, rfl⟩ := List.mem_map.1 h
    rw [List.mem_filter] at hb
    exact ⟨a, ha.1, b, hb.1, rfl, by simpa using ha.2, by simpa using hb.2⟩
  · rintro ⟨a, ha, b, hb, rfl, h1, h2⟩
    exact ⟨a, List.mem_filter.2 ⟨ha, by simpa using h1⟩, List.mem_map.2 ⟨b, List.mem_filter.2 ⟨hb, by simpa using h2⟩, rfl⟩⟩

/-- The arrays with the paths and types that the user has set, before the default type is filled in. -/
def written (freq : Nat) (as : List (Arr (K × K × K))) (os : List (PathOp R)) : Coll (K × K × K) (IrMat R) :=
  os.foldl Coll.op ((Coll.empty freq).addAll as)

omit [Field K] [LinearOrder K] [Field R] in
theorem written_spec (freq : Nat) {as : List (Arr (K × K × K))} (hn : (as.map Arr.name).Nodup) (hk : ∀ a ∈ as, a.kind ≠ none)
    (os : List (PathOp R)) : (written freq as os).Consistent ∧ (written freq as os).arrays = as := by
  obtain ⟨c1, c2, c3, c4⟩ := addAll_arrays as (Coll.empty_consistent (Pt := K × K × K) (H := IrMat R) freq) hk
    (by simpa [Coll.empty] using hn)
  have hc := (Coll.addAll_spec as (Coll.empty_consistent (Pt := K × K × K) (H := IrMat R) freq) hk).1
  obtain ⟨p1, ty1, k0⟩ := ops_frame os ((Coll.empty freq).addAll as : Coll (K × K × K) (IrMat R))
  unfold written
  rw [k0]
  exact ⟨⟨hc.names, hc.kinds, hc.mics, hc.srcs, hc.frees⟩, c1⟩

/-- C191: in a correctly described room the generated responses of any pairs of sources and microphones can be given to a new setup with
the same arrays: no call of `set_prop_path` raises. -/
theorem C191_give {freq : Nat} {as : List (Arr (K × K × K))} {os : List (PathOp R)} {t : String} (h : RoomPlan ext i freq as os t)
    {par : K × Nat} {gc : G × Coll (K × K × K) (IrMat R)} (hprep : roomSetup ext i g (planned freq as os t) = .ok (par, gc))
    {Q : List (String × String)} (hQ : ∀ q ∈ Q, q ∈ pairsOf as) :
    ∃ c', Coll.give gc.2.paths Q (written freq as os) = .ok c' := by
  obtain ⟨_, par', gc', h1, h2⟩ := h.setup g
  rw [hprep] at h1
  cases h1
  obtain ⟨hc, ha⟩ := written_spec (R := R) freq h.names h.kinds os
  refine give_ok Q hc fun q hq => ?_
  obtain ⟨a, ha1, b, hb1, rfl, hak, hbk⟩ := mem_pairsOf.1 (hQ q hq)
  rw [ha]
  have hg : gc.2.arrays = as := by
    obtain ⟨_, d1⟩ := written_spec (R := R) freq h.names h.kinds os
    unfold roomSetup at hprep
    cases hp : i.parameters ext with
    | error x => rw [hp] at hprep; cases hprep
    | ok par0 =>
    rw [hp] at hprep
    dsimp only at hprep
    cases hs : (planned freq as os t).setupIr (createPath (i.cfg ext par0)) g with
    | error x => rw [hs] at hprep; cases hprep
    | ok gc0 =>
    rw [hs] at hprep
    cases hprep
    obtain ⟨⟨ty2, d0⟩, _⟩ := setDefault_spec t (written freq as os)
    have hpl : planned freq as os t = (written freq as os).setDefault t := rfl
    have harr : (planned freq as os t).arrays = as := by rw [hpl, d0]; exact d1
    have e0 := (setupIr_spec (by rw [harr]; exact h.names) (by rw [harr]; exact h.initial) hs).1
    rw [show gc.2.arrays = (planned freq as os t).arrays by rw [e0]; rfl, harr]
  exact ⟨a, ha1, b, hb1, rfl, hak, hbk, h2.paths a (by rw [hg]; exact ha1) b (by rw [hg]; exact hb1) hak hbk⟩

/-- C191, FxLMS: a completed simulation of a correctly described room with standing arrays can be repeated exactly with its
impulse responses, whatever the types of the paths are and in any state of the random generators. -/
theorem C191_repeat_fxlms (base : SimCfg R (IrMat R) F S (G × Coll (K × K × K) (IrMat R)) (FxSt R) D O)
    {freq : Nat} {as : List (Arr (K × K × K))} {os : List (PathOp R)} {t : String} (hplan : RoomPlan ext i freq as os t)
    (hstill : ∀ a ∈ as, a.traj = none)
    {diags : Coll (K × K × K) (IrMat R) → Except PyErr (List (Diag D))}
    (hdiags : ∀ c1 c2 : Coll (K × K × K) (IrMat R), c1.arrays = c2.arrays → diags c1 = diags c2)
    {fin : SimSt R F S (G × Coll (K × K × K) (IrMat R)) (FxSt R) D O}
    (h : ancSimulate base ext i g (planned freq as os t) srcs bs ub L mu beta norm f0 diags = .ok fin) :
    ∃ par gc c', roomSetup ext i g (planned freq as os t) = .ok (par, gc) ∧
      Coll.give gc.2.paths (pairsOf as) (written freq as os) = .ok c' ∧
      ∀ g', ∃ fin', ancSimulate base ext i g' (c'.setDefault t) srcs bs ub L mu beta norm f0 diags = .ok fin' ∧ SameGiven fin fin' := by
  obtain ⟨_, par, gc, h1, _⟩ := hplan.setup g
  obtain ⟨c', h2⟩ := C191_give hplan h1 (Q := pairsOf as) fun _ h => h
  obtain ⟨hc, ha⟩ := written_spec (R := R) freq hplan.names hplan.kinds os
  refine ⟨par, gc, c', h1, h2, fun g' => C191_fxlms (t := t) base hc (by rw [ha]; exact hplan.channels) (Q := pairsOf as) ?_ (.inl ?_) h1 h2 hdiags h⟩
  · intro q _ a hm hd
    rw [ha] at hm
    rw [hstill a hm] at hd
    cases hd
  · intro s hs m hm
    obtain ⟨a, a1, a2, rfl⟩ := hc.mem_srcs.1 hs
    obtain ⟨b, b1, b2, rfl⟩ := hc.mem_mics.1 hm
    rw [ha] at a1 b1
    exact mem_pairsOf.2 ⟨a, a1, b, b1, rfl, a2, b2⟩

/-- C191, FastBlockFxLMS: the same. -/
theorem C191_repeat_fast (base : SimCfg R (IrMat R) F S (G × Coll (K × K × K) (IrMat R)) (FastSt R) D O)
    {freq : Nat} {as : List (Arr (K × K × K))} {os : List (PathOp R)} {t : String} (hplan : RoomPlan ext i freq as os t)
    (hstill : ∀ a ∈ as, a.traj = none)
    {diags : Coll (K × K × K) (IrMat R) → Except PyErr (List (Diag D))}
    (hdiags : ∀ c1 c2 : Coll (K × K × K) (IrMat R), c1.arrays = c2.arrays → diags c1 = diags c2)
    {fin : SimSt R F S (G × Coll (K × K × K) (IrMat R)) (FastSt R) D O}
    (h : realSimulate base ext i g (planned freq as os t) srcs bs L mu beta f0 diags = .ok fin) :
    ∃ par gc c', roomSetup ext i g (planned freq as os t) = .ok (par, gc) ∧
      Coll.give gc.2.paths (pairsOf as) (written freq as os) = .ok c' ∧
      ∀ g', ∃ fin', realSimulate base ext i g' (c'.setDefault t) srcs bs L mu beta f0 diags = .ok fin' ∧ SameGiven fin fin' := by
  obtain ⟨_, par, gc, h1, _⟩ := hplan.setup g
  obtain ⟨c', h2⟩ := C191_give hplan h1 (Q := pairsOf as) fun _ h => h
  obtain ⟨hc, ha⟩ := written_spec (R := R) freq hplan.names hplan.kinds os
  refine ⟨par, gc, c', h1, h2, fun g' => C191_fast (t := t) base hc (by rw [ha]; exact hplan.channels) (Q := pairsOf as) ?_ (.inl ?_) h1 h2 hdiags h⟩
  · intro q _ a hm hd
    rw [ha] at hm
    rw [hstill a hm] at hd
    cases hd
  · intro s hs m hm
    obtain ⟨a, a1, a2, rfl⟩ := hc.mem_srcs.1 hs
    obtain ⟨b, b1, b2, rfl⟩ := hc.mem_mics.1 hm
    rw [ha] at a1 b1
    exact mem_pairsOf.2 ⟨a, a1, b, b1, rfl, a2, b2⟩

end

/-! ### examples -/

/-- The path types of the example, with random responses from the noise to the error microphone. -/
def diceTypes : List (PathOp ℚ) := exampleTypes ++ [.type "noise" "error" "random"]

def diceArrays : List (Arr (ℚ × ℚ × ℚ)) := exampleArrays [(0, 1, 3)] [(3, 1, 3)] [(1, 1, 3)] [(3, 1, 3)]

theorem dice_plan : RoomPlan boxExt boxInfo 2 diceArrays diceTypes "ism" where
  names := by decide
  kinds := by decide
  channels := by decide
  sized := by
    intro a ha u
    simp only [diceArrays, exampleArrays, List.mem_cons, List.not_mem_nil, or_false] at ha
    rcases ha with rfl | rfl | rfl | rfl <;> rfl
  initial := by
    intro a ha f hf
    simp only [diceArrays, exampleArrays, List.mem_cons, List.not_mem_nil, or_false] at ha
    rcases ha with rfl | rfl | rfl | rfl <;> cases hf
  types := by
    intro a ha b hb hak hbk _
    simp only [diceArrays, exampleArrays, List.mem_cons, List.not_mem_nil, or_false] at ha hb
    rcases hb with rfl | rfl | rfl | rfl
    · rcases ha with rfl | rfl | rfl | rfl
      · rcases hak with h | h <;> cases h
      · rcases hak with h | h <;> cases h
      · exact .inr (.inr (.inr ⟨rfl, rfl, rfl⟩))
      · exact .inr (.inl rfl)
    · rcases ha with rfl | rfl | rfl | rfl
      · rcases hak with h | h <;> cases h
      · rcases hak with h | h <;> cases h
      · exact .inl rfl
      · exact .inr (.inr (.inl ⟨rfl, rfl⟩))
    · cases hbk
    · cases hbk
  moving := by
    intro a ha b hb hak hbk hmv
    simp only [diceArrays, exampleArrays, List.mem_cons, List.not_mem_nil, or_false] at ha hb
    rcases ha with rfl | rfl | rfl | rfl <;> rcases hb with rfl | rfl | rfl | rfl <;> rfl
  sources := fun b _ _ _ => ⟨stillArr "noise" .free [(3, 1, 3)], by simp [diceArrays, exampleArrays], .inl rfl⟩
  interval := by decide
  reverberation := plan_demo.reverberation
  external := box_lawful

theorem dice_still : ∀ a ∈ diceArrays, a.traj = none := by
  intro a ha
  simp only [diceArrays, exampleArrays, List.mem_cons, List.not_mem_nil, or_false] at ha
  rcases ha with rfl | rfl | rfl | rfl <;> rfl

def diceFx (g : Nat) (c : Coll (ℚ × ℚ × ℚ) (IrMat ℚ)) :=
  ancSimulate { ancBase with B := 6, C := 4, tot := 5 } boxExt boxInfo g c (fun _ => 0) 1 2 2 (1 / 100) (1 / 1000) .none demoFilt
    (fun c => ancDiagnostics ⟨5, 2, 4⟩ c.arrays fun _ => .ok 0)

def diceFast (g : Nat) (c : Coll (ℚ × ℚ × ℚ) (IrMat ℚ)) :=
  realSimulate { realBase 5 with B := 6, C := 4 } boxExt boxInfo g c (fun _ => 0) 1 2 (1 / 100) (1 / 1000) demoFilt
    (fun c => ancDiagnostics ⟨5, 2, 4⟩ c.arrays fun _ => .ok 0)

/-- The run completes, other random numbers give something else, and with the responses of the first run any random numbers
give the same. -/
example : errBuffer ((diceFx 0 (planned 2 diceArrays diceTypes "ism")).map observe) ≠
      errBuffer ((diceFx 7 (planned 2 diceArrays diceTypes "ism")).map observe) ∧
    ∃ (fin : _) (c' : Coll (ℚ × ℚ × ℚ) (IrMat ℚ)), diceFx 0 (planned 2 diceArrays diceTypes "ism") = .ok fin ∧
      ∀ g', ∃ fin', diceFx g' (c'.setDefault "ism") = .ok fin' ∧ fin'.eng.sig "error" = fin.eng.sig "error" := by
  refine ⟨by decide +kernel, ?_⟩
  have hne : errBuffer ((diceFx 0 (planned 2 diceArrays diceTypes "ism")).map observe) ≠ none := by decide +kernel
  cases h : diceFx 0 (planned 2 diceArrays diceTypes "ism") with
  | error x => rw [h] at hne; exact absurd rfl hne
  | ok fin =>
    obtain ⟨_, _, c', _, _, h3⟩ := C191_repeat_fxlms _ dice_plan dice_still (fun c1 c2 e => by rw [e]) h
    refine ⟨fin, c', rfl, fun g' => ?_⟩
    obtain ⟨fin', h4, h5⟩ := h3 g'
    exact ⟨fin', h4, by rw [h5.sig]⟩

example : errBuffer ((diceFast 0 (planned 2 diceArrays diceTypes "ism")).map observe) ≠
      errBuffer ((diceFast 7 (planned 2 diceArrays diceTypes "ism")).map observe) ∧
    ∃ (fin : _) (c' : Coll (ℚ × ℚ × ℚ) (IrMat ℚ)), diceFast 0 (planned 2 diceArrays diceTypes "ism") = .ok fin ∧
      ∀ g', ∃ fin', diceFast g' (c'.setDefault "ism") = .ok fin' ∧ fin'.eng.sig "error" = fin.eng.sig "error" := by
  refine ⟨by decide +kernel, ?_⟩
  have hne : errBuffer ((diceFast 0 (planned 2 diceArrays diceTypes "ism")).map observe) ≠ none := by decide +kernel
  cases h : diceFast 0 (planned 2 diceArrays diceTypes "ism") with
  | error x => rw [h] at hne; exact absurd rfl hne
  | ok fin =>
    obtain ⟨_, _, c', _, _, h3⟩ := C191_repeat_fast _ dice_plan dice_still (fun c1 c2 e => by rw [e]) h
    refine ⟨fin, c', rfl, fun g' => ?_⟩
    obtain ⟨fin', h4, h5⟩ := h3 g'
    exact ⟨fin', h4, by rw [h5.sig]⟩

end Verif

/-
C195: adaptive noise control with arrays loaded from a session.
-/
import Verif.Props.Reload
import Verif.Props.GivenWith
import Verif.Props.SamePlaceWith
namespace Verif

section
variable {R IR F S A P D O : Type} [Zero R] [Add R] {cfg : SimCfg R IR F S A P D O}

/-- If the arrays cannot be updated in the first step, the simulation ends there. -/
theorem runWith_stuck {prep : P → Sigs R → Int → Except PyErr (P × Sigs R)} {φ : A → A}
    (hp : ∀ a s m, cfg.arrPath (φ a) s m = cfg.arrPath a s m) {srcs : String → S} {arr : A} {proc : P} {f0 : F} {ds : List (Diag D)}
    {fin : SimSt R F S A P D O} (h : cfg.runWith prep srcs arr proc f0 ds = .ok fin) (htot : 0 < cfg.tot) {x : PyErr}
    (hx : (∃ arr1, cfg.arrUpdate arr 0 = .ok arr1) → cfg.arrUpdate (φ arr) 0 = .error x) :
    cfg.runWith prep srcs (φ arr) proc f0 ds = .error x := by
  unfold SimCfg.runWith SimCfg.initWith at h ⊢
  obtain ⟨e1, e2⟩ := init_arr (cfg := cfg) (upd := cfg.arrUpdate) (path := cfg.arrPath) hp srcs arr proc f0 ds
  rw [show cfg.setArr cfg.arrUpdate cfg.arrPath = cfg from rfl] at e1
  rw [e1]
  cases hi : cfg.init srcs arr proc f0 ds with
  | error y => rw [hi] at h; cases h
  | ok st =>
    rw [hi] at h
    simp only [Except.map]
    dsimp only [SimSt.onArr, Eng.onArr] at h ⊢
    have hn0 : st.n = 0 := by
      unfold SimCfg.init at hi
      split at hi
      · cases hi
      · split at hi
        · cases hi
        · split at hi
          · cases hi
          · cases hi; rfl
    have harr := e2 st hi
    cases hpr : prep st.eng.proc st.eng.sig st.idx with
    | error y => rw [hpr] at h; cases h
    | ok r =>
      obtain ⟨p, sig⟩ := r
      rw [hpr] at h
      dsimp only at h ⊢
      obtain ⟨k, hk⟩ : ∃ k, cfg.tot + cfg.mbs = k + 1 := ⟨cfg.tot + cfg.mbs - 1, by omega⟩
      rw [hk] at h ⊢
      have first : ∀ k, (cfg.steps (k + 1) { st with eng := { st.eng with proc := p, sig := sig } }).isOk = true →
          ∃ arr1, cfg.arrUpdate arr 0 = .ok arr1 := by
        intro k
        induction k with
        | zero =>
          intro hk
          cases hu : cfg.arrUpdate arr 0 with
          | error y =>
            have : cfg.steps 1 { st with eng := { st.eng with proc := p, sig := sig } } = .error y := by
              simp only [SimCfg.steps, SimCfg.step, SimCfg.engine, hn0, harr, hu]
            rw [this] at hk
            cases hk
          | ok a => exact ⟨a, rfl⟩
        | succ k ih =>
          intro hk
          refine ih ?_
          rw [SimCfg.steps] at hk
          cases hx : cfg.steps (k + 1) { st with eng := { st.eng with proc := p, sig := sig } } with
          | error x => rw [hx] at hk; cases hk
          | ok y => rfl
      have hbad := hx (first k (by
        cases hx : cfg.steps (k + 1) { st with eng := { st.eng with proc := p, sig := sig } } with
        | error x => rw [hx] at h; cases h
        | ok y => rfl))
      have hall : ∀ (k : Nat) (st' : SimSt R F S A P D O), st'.n = 0 → st'.eng.arr = φ arr → cfg.steps (k + 1) st' = .error x := by
        intro k
        induction k with
        | zero =>
          intro st' h1 h2
          simp only [SimCfg.steps, SimCfg.step, SimCfg.engine, h1, h2, hbad]
        | succ k ih =>
          intro st' h1 h2
          rw [SimCfg.steps, ih st' h1 h2]
      rw [hall k]
      · exact hn0
      · dsimp only
        rw [harr]

end

section
variable {F K R S D O G : Type} [Field K] [LinearOrder K] [Field R]
  {ext : RoomExt K R G} {i : RoomInfo K} {g g' : G} {c : Coll (K × K × K) (IrMat R)} {srcs : String → S}
  {bs ub L : Nat} {mu beta : R} {norm : FxNorm} {f0 : F} {par : K × Nat} {gc : G × Coll (K × K × K) (IrMat R)}

/-- Preparing prepared arrays changes nothing. -/
theorem roomSetup_again (hnum : ∀ a ∈ c.arrays, 0 < a.num) (hprep : roomSetup ext i g c = .ok (par, gc)) (t : String) :
    roomSetup ext i g' (gc.2.setDefault t) = .ok (par, g', gc.2.setDefault t) ∧ gc.2 = { c with paths := gc.2.paths } ∧
      (∃ ty, gc.2.setDefault t = { gc.2 with types := ty }) ∧
      ∀ s ∈ c.srcs, ∀ m ∈ c.mics, (gc.2.setDefault t).types s m = some "modified" := by
  unfold roomSetup at hprep ⊢
  cases hp : i.parameters ext with
  | error x => rw [hp] at hprep; cases hprep
  | ok par0 =>
  rw [hp] at hprep
  dsimp only at hprep ⊢
  cases hs : c.setupIr (createPath (i.cfg ext par0)) g with
  | error x => rw [hs] at hprep; cases hprep
  | ok gc0 =>
  rw [hs] at hprep
  cases hprep
  obtain ⟨k1, k2, k3, k4⟩ := setupIr_again hnum hs t
  rw [k4]
  exact ⟨rfl, k1, k2, k3⟩

/-- If nothing moves, the prepared arrays and the same arrays with other path types stay the same. -/
theorem still_again (hc : c.Consistent) (hnum : ∀ a ∈ c.arrays, 0 < a.num) (hstill : ∀ a ∈ c.arrays, a.traj = none)
    (hprep : roomSetup ext i g c = .ok (par, gc)) (t : String) (gen : GenFn (K × K × K) (IrMat R) G) :
    KFull gen gc.2.combos gc.2.paths gc (g', gc.2.setDefault t) := by
  obtain ⟨-, k1, ⟨ty, k2⟩, k3⟩ := roomSetup_again (g' := g') hnum hprep t
  have harr' : gc.2.arrays = c.arrays := by rw [k1]
  have hsr : gc.2.srcs = c.srcs := by rw [k1]
  have hmi : gc.2.mics = c.mics := by rw [k1]
  refine ⟨⟨by rw [k2], by rw [k2], by rw [k2], by rw [k2], by rw [k2], ?_, ?_, ?_, ?_, ?_⟩, fun _ _ _ => rfl, ?_, ?_, ?_⟩
  · exact fun s hs m hm hq => absurd (Coll.mem_combos.2 ⟨hs, hm⟩) hq
  · intro s m hq
    obtain ⟨h1, h2⟩ := Coll.mem_combos.1 hq
    exact k3 s (hsr ▸ h1) m (hmi ▸ h2)
  · exact fun s hs m hm hq => absurd (Coll.mem_combos.2 ⟨hs, hm⟩) hq
  · intro s m _
    rw [k2]
  · intro s m _
    rw [k2]
  · intro a ha hd
    rw [harr'] at ha
    unfold Arr.dynamic at hd
    rw [hstill a ha] at hd
    cases hd
  · rw [harr']
    exact hc.names
  · rw [harr', hsr, hmi]
    intro a ha
    refine ⟨fun hk => hc.mem_mics.2 ⟨a, ha, hk, rfl⟩, fun k hk hne => hc.mem_srcs.2 ⟨a, ha, ?_, rfl⟩⟩
    rw [hk]
    cases k
    · exact absurd rfl hne
    · exact .inl rfl
    · exact .inr rfl

/-- **C195, FxLMS**: if nothing moves, a simulation of prepared arrays repeats the simulation that prepared them, in
any state of the random generators and with any type of propagation.  The diagnostics must depend on the
arrays only. -/
theorem C195_fxlms_partial (base : SimCfg R (IrMat R) F S (G × Coll (K × K × K) (IrMat R)) (FxSt R) D O) (hc : c.Consistent)
    (hnum : ∀ a ∈ c.arrays, 0 < a.num) (hstill : ∀ a ∈ c.arrays, a.traj = none) (hprep : roomSetup ext i g c = .ok (par, gc))
    {diags : Coll (K × K × K) (IrMat R) → Except PyErr (List (Diag D))}
    (hdiags : ∀ c1 c2 : Coll (K × K × K) (IrMat R), c1.arrays = c2.arrays → diags c1 = diags c2)
    {fin : SimSt R F S (G × Coll (K × K × K) (IrMat R)) (FxSt R) D O}
    (h : ancSimulate base ext i g c srcs bs ub L mu beta norm f0 diags = .ok fin) (t : String) :
    ∃ fin', ancSimulate base ext i g' (gc.2.setDefault t) srcs bs ub L mu beta norm f0 diags = .ok fin' ∧ SameGiven fin fin' := by
  obtain ⟨k4, k1, ⟨ty, k2⟩, -⟩ := roomSetup_again (g' := g') hnum hprep t
  have hF := fun gen => still_again (g' := g') hc hnum hstill hprep t gen
  have ha : (gc.2.setDefault t).arrays = gc.2.arrays := by rw [k2]
  have hi : (gc.2.setDefault t).infos = c.infos := by unfold Coll.infos; rw [k2, k1]
  unfold ancSimulate at h ⊢
  rw [hprep] at h
  rw [k4, hi]
  dsimp only at h ⊢
  rw [show Coll.path (g', gc.2.setDefault t) "loudspeaker" "error" = Coll.path gc "loudspeaker" "error" by unfold Coll.path; rw [k2], ha,
    hdiags _ gc.2 ha]
  cases hp : Coll.path gc "loudspeaker" "error" with
  | error x => rw [hp] at h; cases h
  | ok sp =>
    rw [hp] at h
    dsimp only at h ⊢
    cases hq : fxCreate gc.2.arrays bs ub L mu beta norm with
    | error x => rw [hq] at h; cases h
    | ok q =>
      rw [hq] at h
      dsimp only at h ⊢
      cases hd : diags gc.2 with
      | error x => rw [hd] at h; cases h
      | ok ds =>
        rw [hd] at h
        dsimp only at h ⊢
        obtain ⟨fin', f1, f2⟩ := runWith_given (cfg := { base with
          arrays := c.infos, arrUpdate := Coll.update (createPath (i.cfg ext par)), arrPath := Coll.path
          proc := some (fxProc q) }) rfl rfl (hF _) h
        exact ⟨fin', f1, .of f2⟩

/-- C195, FastBlockFxLMS: the same. -/
theorem C195_fast_partial (base : SimCfg R (IrMat R) F S (G × Coll (K × K × K) (IrMat R)) (FastSt R) D O) (hc : c.Consistent)
    (hnum : ∀ a ∈ c.arrays, 0 < a.num) (hstill : ∀ a ∈ c.arrays, a.traj = none) (hprep : roomSetup ext i g c = .ok (par, gc))
    {diags : Coll (K × K × K) (IrMat R) → Except PyErr (List (Diag D))}
    (hdiags : ∀ c1 c2 : Coll (K × K × K) (IrMat R), c1.arrays = c2.arrays → diags c1 = diags c2)
    {fin : SimSt R F S (G × Coll (K × K × K) (IrMat R)) (FastSt R) D O}
    (h : realSimulate base ext i g c srcs bs L mu beta f0 diags = .ok fin) (t : String) :
    ∃ fin', realSimulate base ext i g' (gc.2.setDefault t) srcs bs L mu beta f0 diags = .ok fin' ∧ SameGiven fin fin' := by
  obtain ⟨k4, k1, ⟨ty, k2⟩, -⟩ := roomSetup_again (g' := g') hnum hprep t
  have hF := fun gen => still_again (g' := g') hc hnum hstill hprep t gen
  have ha : (gc.2.setDefault t).arrays = gc.2.arrays := by rw [k2]
  have hi : (gc.2.setDefault t).infos = c.infos := by unfold Coll.infos; rw [k2, k1]
  unfold realSimulate at h ⊢
  rw [hprep] at h
  rw [k4, hi]
  dsimp only at h ⊢
  rw [show Coll.path (g', gc.2.setDefault t) "loudspeaker" "error" = Coll.path gc "loudspeaker" "error" by unfold Coll.path; rw [k2], ha,
    hdiags _ gc.2 ha]
  cases hp : Coll.path gc "loudspeaker" "error" with
  | error x => rw [hp] at h; cases h
  | ok sp =>
    rw [hp] at h
    dsimp only at h ⊢
    cases hq : fastCreate gc.2.arrays bs L mu beta with
    | error x => rw [hq] at h; cases h
    | ok q =>
      rw [hq] at h
      dsimp only at h ⊢
      cases hd : diags gc.2 with
      | error x => rw [hd] at h; cases h
      | ok ds =>
        rw [hd] at h
        dsimp only at h ⊢
        obtain ⟨fin', f1, f2⟩ := runWith_given (cfg := { base with
          arrays := c.infos, arrUpdate := Coll.update (createPath (i.cfg ext par)), arrPath := Coll.path
          proc := some (fastProc q) }) rfl rfl (hF _) h
        exact ⟨fin', f1, .of f2⟩

/-- **C195** does not hold if anything moves: every simulation with `FxLMS` that completes, created again from its own
prepared arrays, ends with a failed assertion. -/
theorem C195_fxlms_violated (base : SimCfg R (IrMat R) F S (G × Coll (K × K × K) (IrMat R)) (FxSt R) D O) (htot : 0 < base.tot)
    (hc : c.Consistent) (hnum : ∀ a ∈ c.arrays, 0 < a.num) (hsrcs : c.srcs ≠ []) (hmics : c.mics ≠ [])
    {a : Arr (K × K × K)} (ha : a ∈ c.arrays) (hmove : a.traj.isSome = true) (hprep : roomSetup ext i g c = .ok (par, gc))
    {diags : Coll (K × K × K) (IrMat R) → Except PyErr (List (Diag D))}
    (hdiags : ∀ c1 c2 : Coll (K × K × K) (IrMat R), c1.arrays = c2.arrays → diags c1 = diags c2)
    {fin : SimSt R F S (G × Coll (K × K × K) (IrMat R)) (FxSt R) D O}
    (h : ancSimulate base ext i g c srcs bs ub L mu beta norm f0 diags = .ok fin) (t : String) :
    ancSimulate base ext i g' (gc.2.setDefault t) srcs bs ub L mu beta norm f0 diags = .error .assertion := by
  obtain ⟨k4, k1, ⟨ty, k2⟩, k3⟩ := roomSetup_again (g' := g') hnum hprep t
  have harr : (gc.2.setDefault t).arrays = gc.2.arrays := by rw [k2]
  have hi : (gc.2.setDefault t).infos = c.infos := by unfold Coll.infos; rw [k2, k1]
  have hcc : (gc.2.setDefault t).Consistent := by
    rw [k2, k1]
    exact ⟨hc.names, hc.kinds, hc.mics, hc.srcs, hc.frees⟩
  unfold ancSimulate at h ⊢
  rw [hprep] at h
  rw [k4, hi]
  dsimp only at h ⊢
  rw [show Coll.path (g', gc.2.setDefault t) "loudspeaker" "error" = Coll.path gc "loudspeaker" "error" by unfold Coll.path; rw [k2], harr,
    hdiags _ gc.2 harr]
  cases hp : Coll.path gc "loudspeaker" "error" with
  | error x => rw [hp] at h; cases h
  | ok sp =>
    rw [hp] at h
    dsimp only at h ⊢
    cases hq : fxCreate gc.2.arrays bs ub L mu beta norm with
    | error x => rw [hq] at h; cases h
    | ok q =>
      rw [hq] at h
      dsimp only at h ⊢
      cases hd : diags gc.2 with
      | error x => rw [hd] at h; cases h
      | ok ds =>
        rw [hd] at h
        dsimp only at h ⊢
        have := runWith_stuck (cfg := { base with
          arrays := c.infos, arrUpdate := Coll.update (createPath (i.cfg ext par)), arrPath := Coll.path
          proc := some (fxProc q) }) (φ := fun x : G × Coll (K × K × K) (IrMat R) => (g', { x.2 with types := ty }))
          (fun _ _ _ => rfl) h htot (x := .assertion) (fun hok => by
            obtain ⟨arr1, hok⟩ := hok
            have hfreq : gc.2.freq ≠ 0 := by
              intro hf
              dsimp only at hok
              unfold Coll.update at hok
              rw [if_pos hf] at hok
              cases hok
            dsimp only
            rw [← k2]
            refine update_modified hcc (by rw [k2, k1]; exact hsrcs) (by rw [k2, k1]; exact hmics) ?_ (a := a)
              (by rw [k2, k1]; exact ha) hmove (by rw [k2]; exact hfreq) (Nat.zero_mod _) g'
            intro s hs m hm
            exact k3 s (by rw [k2, k1] at hs; exact hs) m (by rw [k2, k1] at hm; exact hm))
        dsimp only at this
        rw [← k2] at this
        exact this

/-- C195, FastBlockFxLMS: the same. -/
theorem C195_fast_violated (base : SimCfg R (IrMat R) F S (G × Coll (K × K × K) (IrMat R)) (FastSt R) D O) (htot : 0 < base.tot)
    (hc : c.Consistent) (hnum : ∀ a ∈ c.arrays, 0 < a.num) (hsrcs : c.srcs ≠ []) (hmics : c.mics ≠ [])
    {a : Arr (K × K × K)} (ha : a ∈ c.arrays) (hmove : a.traj.isSome = true) (hprep : roomSetup ext i g c = .ok (par, gc))
    {diags : Coll (K × K × K) (IrMat R) → Except PyErr (List (Diag D))}
    (hdiags : ∀ c1 c2 : Coll (K × K × K) (IrMat R), c1.arrays = c2.arrays → diags c1 = diags c2)
    {fin : SimSt R F S (G × Coll (K × K × K) (IrMat R)) (FastSt R) D O}
    (h : realSimulate base ext i g c srcs bs L mu beta f0 diags = .ok fin) (t : String) :
    realSimulate base ext i g' (gc.2.setDefault t) srcs bs L mu beta f0 diags = .error .assertion := by
  obtain ⟨k4, k1, ⟨ty, k2⟩, k3⟩ := roomSetup_again (g' := g') hnum hprep t
  have harr : (gc.2.setDefault t).arrays = gc.2.arrays := by rw [k2]
  have hi : (gc.2.setDefault t).infos = c.infos := by unfold Coll.infos; rw [k2, k1]
  have hcc : (gc.2.setDefault t).Consistent := by
    rw [k2, k1]
    exact ⟨hc.names, hc.kinds, hc.mics, hc.srcs, hc.frees⟩
  unfold realSimulate at h ⊢
  rw [hprep] at h
  rw [k4, hi]
  dsimp only at h ⊢
  rw [show Coll.path (g', gc.2.setDefault t) "loudspeaker" "error" = Coll.path gc "loudspeaker" "error" by unfold Coll.path; rw [k2], harr,
    hdiags _ gc.2 harr]
  cases hp : Coll.path gc "loudspeaker" "error" with
  | error x => rw [hp] at h; cases h
  | ok sp =>
    rw [hp] at h
    dsimp only at h ⊢
    cases hq : fastCreate gc.2.arrays bs L mu beta with
    | error x => rw [hq] at h; cases h
    | ok q =>
      rw [hq] at h
      dsimp only at h ⊢
      cases hd : diags gc.2 with
      | error x => rw [hd] at h; cases h
      | ok ds =>
        rw [hd] at h
        dsimp only at h ⊢
        have := runWith_stuck (cfg := { base with
          arrays := c.infos, arrUpdate := Coll.update (createPath (i.cfg ext par)), arrPath := Coll.path
          proc := some (fastProc q) }) (φ := fun x : G × Coll (K × K × K) (IrMat R) => (g', { x.2 with types := ty }))
          (fun _ _ _ => rfl) h htot (x := .assertion) (fun hok => by
            obtain ⟨arr1, hok⟩ := hok
            have hfreq : gc.2.freq ≠ 0 := by
              intro hf
              dsimp only at hok
              unfold Coll.update at hok
              rw [if_pos hf] at hok
              cases hok
            dsimp only
            rw [← k2]
            refine update_modified hcc (by rw [k2, k1]; exact hsrcs) (by rw [k2, k1]; exact hmics) ?_ (a := a)
              (by rw [k2, k1]; exact ha) hmove (by rw [k2]; exact hfreq) (Nat.zero_mod _) g'
            intro s hs m hm
            exact k3 s (by rw [k2, k1] at hs; exact hs) m (by rw [k2, k1] at hm; exact hm))
        dsimp only at this
        rw [← k2] at this
        exact this

end

theorem planned_consistent {K R : Type} [Field K] [LinearOrder K] [Field R] (freq : Nat) {as : List (Arr (K × K × K))}
    (hn : (as.map Arr.name).Nodup) (hk : ∀ a ∈ as, a.kind ≠ none) (os : List (PathOp R)) (t : String) :
    (planned freq as os t).Consistent ∧ (planned freq as os t).arrays = as := by
  obtain ⟨h1, h2⟩ := written_spec (R := R) freq hn hk os
  obtain ⟨⟨ty, d⟩, _⟩ := setDefault_spec t (written freq as os)
  refine ⟨Coll.setDefault_consistent h1 t, ?_⟩
  rw [show planned freq as os t = (written freq as os).setDefault t from rfl, d]
  exact h2

/-! ### examples -/

/-- The prepared arrays of a simulation. -/
def ready (c : Coll (ℚ × ℚ × ℚ) (IrMat ℚ)) : Coll (ℚ × ℚ × ℚ) (IrMat ℚ) :=
  match roomSetup boxExt boxInfo 0 c with
  | .ok r => r.2.2
  | .error _ => c

/-- The run completes, other random numbers give something else, and with the arrays loaded from the session any random numbers
give the same. -/
example : errBuffer ((diceFx 0 (planned 2 diceArrays diceTypes "ism")).map observe) ≠
      errBuffer ((diceFx 7 (planned 2 diceArrays diceTypes "ism")).map observe) ∧
    ∃ fin, diceFx 0 (planned 2 diceArrays diceTypes "ism") = .ok fin ∧
      ∀ g', ∃ fin', diceFx g' ((ready (planned 2 diceArrays diceTypes "ism")).setDefault "ism") = .ok fin' ∧
        fin'.eng.sig "error" = fin.eng.sig "error" := by
  refine ⟨by decide +kernel, ?_⟩
  have hne : errBuffer ((diceFx 0 (planned 2 diceArrays diceTypes "ism")).map observe) ≠ none := by decide +kernel
  cases h : diceFx 0 (planned 2 diceArrays diceTypes "ism") with
  | error x => rw [h] at hne; exact absurd rfl hne
  | ok fin =>
    refine ⟨fin, rfl, fun g' => ?_⟩
    obtain ⟨_, par, gc, h1, _⟩ := dice_plan.setup 0
    obtain ⟨hc, ha⟩ := planned_consistent (R := ℚ) 2 dice_plan.names dice_plan.kinds diceTypes "ism"
    obtain ⟨fin', h4, h5⟩ := C195_fxlms_partial (g' := g') _ hc (by rw [ha]; exact dice_plan.channels) (by rw [ha]; exact dice_still) h1
      (fun c1 c2 e => by rw [e]) h "ism"
    refine ⟨fin', ?_, by rw [h5.sig]⟩
    unfold ready
    rw [h1]
    exact h4

example : errBuffer ((diceFast 0 (planned 2 diceArrays diceTypes "ism")).map observe) ≠
      errBuffer ((diceFast 7 (planned 2 diceArrays diceTypes "ism")).map observe) ∧
    ∃ fin, diceFast 0 (planned 2 diceArrays diceTypes "ism") = .ok fin ∧
      ∀ g', ∃ fin', diceFast g' ((ready (planned 2 diceArrays diceTypes "ism")).setDefault "ism") = .ok fin' ∧
        fin'.eng.sig "error" = fin.eng.sig "error" := by
  refine ⟨by decide +kernel, ?_⟩
  have hne : errBuffer ((diceFast 0 (planned 2 diceArrays diceTypes "ism")).map observe) ≠ none := by decide +kernel
  cases h : diceFast 0 (planned 2 diceArrays diceTypes "ism") with
  | error x => rw [h] at hne; exact absurd rfl hne
  | ok fin =>
    refine ⟨fin, rfl, fun g' => ?_⟩
    obtain ⟨_, par, gc, h1, _⟩ := dice_plan.setup 0
    obtain ⟨hc, ha⟩ := planned_consistent (R := ℚ) 2 dice_plan.names dice_plan.kinds diceTypes "ism"
    obtain ⟨fin', h4, h5⟩ := C195_fast_partial (g' := g') _ hc (by rw [ha]; exact dice_plan.channels) (by rw [ha]; exact dice_still) h1
      (fun c1 c2 e => by rw [e]) h "ism"
    refine ⟨fin', ?_, by rw [h5.sig]⟩
    unfold ready
    rw [h1]
    exact h4

/-- The simulation with the moving microphone completes, and fails with its arrays loaded from the session. -/
example : twinFx.isOk = true ∧ ancSimulate { ancBase with B := 6, C := 4, tot := 5 } boxExt boxInfo 3
    ((ready (planned 2 twinArrays exampleTypes "ism")).setDefault "ism")
    (fun _ => 0) 1 2 2 (1 / 100) (1 / 1000) .block demoFilt (fun _ => twinDiags) = .error .assertion := by
  have hok : twinFx.isOk = true := by decide +kernel
  refine ⟨hok, ?_⟩
  cases h : twinFx with
  | error x => rw [h] at hok; cases hok
  | ok fin =>
    obtain ⟨_, par, gc, h1, _⟩ := twin_plan.setup 0
    obtain ⟨hc, ha⟩ := planned_consistent (R := ℚ) 2 twin_plan.names twin_plan.kinds exampleTypes "ism"
    have := C195_fxlms_violated (g' := 3) _ (by decide) hc (by rw [ha]; exact twin_plan.channels) (by decide) (by decide)
      (a := twinBoom) (by rw [ha]; simp [twinArrays, twinBoom]) rfl h1 (fun c1 c2 _ => rfl) h "ism"
    unfold ready
    rw [h1]
    exact this

example : twinFast.isOk = true ∧ realSimulate { realBase 5 with B := 6, C := 4 } boxExt boxInfo 3
    ((ready (planned 2 twinArrays exampleTypes "ism")).setDefault "ism")
    (fun _ => 0) 1 2 (1 / 100) (1 / 1000) demoFilt (fun _ => twinDiags) = .error .assertion := by
  have hok : twinFast.isOk = true := by decide +kernel
  refine ⟨hok, ?_⟩
  cases h : twinFast with
  | error x => rw [h] at hok; cases hok
  | ok fin =>
    obtain ⟨_, par, gc, h1, _⟩ := twin_plan.setup 0
    obtain ⟨hc, ha⟩ := planned_consistent (R := ℚ) 2 twin_plan.names twin_plan.kinds exampleTypes "ism"
    have := C195_fast_violated (g' := 3) _ (by decide) hc (by rw [ha]; exact twin_plan.channels) (by decide) (by decide)
      (a := twinBoom) (by rw [ha]; simp [twinArrays, twinBoom]) rfl h1 (fun c1 c2 _ => rfl) h "ism"
    unfold ready
    rw [h1]
    exact this

end Verif

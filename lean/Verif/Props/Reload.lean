/-
C129: simulations that are created from a saved session.
-/
import Verif.Lemmas.Reload
import Verif.Lemmas.GivenRun
import Verif.Props.SessionDemo
import Verif.Props.Given
namespace Verif

section
variable {F S G : Type} [Field F] [LinearOrder F]

/-- **C129**, the arrays: `create_simulator` writes a session.  Loading it by path and creating the
simulator again, in any state of the random generators, gives the same arrays, impulse responses and sources; only
the types of the paths are now "modified". -/
theorem C129_create_partial {sys : GenSys F G} {g0 g1 : G} {info : SimInfo F} (hv : info.Valid)
    {c : Coll (List F) (IrMat F)} (hnum : ∀ a ∈ c.arrays, 0 < a.num)
    {source : String → Option S} {st st' : Store F S} {time : Name} {b : Built F S}
    (h : createArrays sys g0 info c source (some st) time = .ok (g1, b, some st')) (hst : st' ≠ st) :
    ∃ nm f, st' = st ++ [(nm, some f)] ∧ ∃ j b1, loadFromPath f false = .ok (j, b1) ∧
      ∀ g time', ∃ b2, createArrays sys g j b1.coll b1.source none time' = .ok (sys.init j g, b2, none) ∧
        b2.coll = { b.coll with types := b2.coll.types } ∧ b2.source = b.source ∧ b2.info = info ∧
        ∀ s ∈ c.srcs, ∀ m ∈ c.mics, b2.coll.types s m = some "modified" := by
  have h0 := h
  rcases C49_load_partial h with h1 | ⟨nm, f, h1, -, h2⟩
  · exact absurd h1 hst
  · refine ⟨nm, f, h1, info, b, h2 hv, fun g time' => ?_⟩
    unfold createArrays at h
    split at h
    · cases h
    rename_i hne
    dsimp only at h
    split at h
    · rename_i st0 _ hst0
      cases Option.some.inj hst0
      split at h
      · cases h
      · have := Except.ok.inj h
        simp only [Prod.mk.injEq, Option.some.injEq] at this
        exact absurd this.2.2.symm hst
      · split at h
        · cases h
        · rename_i g2 b0 hset
          split at h
          · cases h
          · have := Except.ok.inj h
            simp only [Prod.mk.injEq, Option.some.injEq] at this
            obtain ⟨rfl, rfl, -⟩ := this
            obtain ⟨⟨ty, hty⟩, -⟩ := setDefault_spec info.reverb c
            unfold setupArrays at hset
            split at hset
            · cases hset
            · rename_i g3 c3 hc3
              have := Except.ok.inj hset
              simp only [Prod.mk.injEq] at this
              obtain ⟨rfl, rfl⟩ := this
              obtain ⟨k1, ⟨ty', k2⟩, k3, k4⟩ := setupIr_again (by rw [hty]; exact hnum) hc3 info.reverb
              dsimp only at k1 k2 k3 k4 ⊢
              refine ⟨⟨c3.setDefault info.reverb, source, info⟩, ?_, ?_, rfl, rfl, ?_⟩
              · unfold createArrays
                rw [if_neg (by rw [k1, hty]; exact hne)]
                have hfreq : ({ c3.setDefault info.reverb with freq := info.updateFreq } : Coll (List F) (IrMat F)) =
                    c3.setDefault info.reverb := by
                  rw [k2]
                  rw [k1]
                dsimp only
                cases info.autoSaveLoad with
                | true =>
                  dsimp only
                  unfold setupArrays
                  rw [hfreq, k4]
                | false =>
                  dsimp only
                  unfold setupArrays
                  rw [hfreq, k4]
              · dsimp only
                rw [k2]
              · rw [hty] at k3
                exact k3
    · split at h
      · cases h
      · have := Except.ok.inj h
        simp only [Prod.mk.injEq, Option.some.injEq] at this
        exact absurd this.2.2.symm hst

end

/-- The simulator of the demonstration writes a session, and creating it again from this session succeeds
with the same response. -/
example : ∃ nm f, sessionsOf demoSys 0 demoInfo (demoColl 3 true none) = [(nm, some f)] ∧
    ∃ j b1, loadFromPath f false = .ok (j, b1) ∧ without demoSys 0 demoInfo (demoColl 3 true none) 2 = .ok [3, 343] ∧
      observed demoSys (createArrays demoSys 5 j b1.coll b1.source none "now".toList) 2 = .ok [3, 343] := by
  refine ⟨_, _, rfl, _, _, rfl, ?_, ?_⟩ <;> decide +kernel

section
variable {K R F S P D O G : Type} [Field K] [LinearOrder K] [Field R]

/-- **C129**, the run: if nothing moves, a simulation of prepared arrays repeats the simulation that prepared them, in
any state of the random generators and with any type of propagation. -/
theorem C129_run_partial (base : SimCfg R (IrMat R) F S (G × Coll (K × K × K) (IrMat R)) P D O)
    (ext : RoomExt K R G) (i : RoomInfo K) {g g' : G} {c : Coll (K × K × K) (IrMat R)} (hc : c.Consistent)
    (hnum : ∀ a ∈ c.arrays, 0 < a.num) (hstill : ∀ a ∈ c.arrays, a.traj = none)
    {par : K × Nat} {gc : G × Coll (K × K × K) (IrMat R)} (hprep : roomSetup ext i g c = .ok (par, gc))
    {srcs : String → S} {proc : P} {f0 : F}
    {ds : List (Diag D)} {fin : SimSt R F S (G × Coll (K × K × K) (IrMat R)) P D O}
    (h : simulate base ext i g c srcs proc f0 ds = .ok fin) (t : String) :
    ∃ fin', simulate base ext i g' (gc.2.setDefault t) srcs proc f0 ds = .ok fin' ∧
      fin'.eng.sig = fin.eng.sig ∧ fin'.eng.srcs = fin.eng.srcs ∧ fin'.eng.proc = fin.eng.proc ∧
      fin'.idx = fin.idx ∧ fin'.n = fin.n ∧ fin'.diags = fin.diags ∧ fin'.log = fin.log ∧
      fin'.eng.arr.2.arrays = fin.eng.arr.2.arrays ∧ fin'.eng.arr.2.paths = fin.eng.arr.2.paths ∧
      fin'.eng.arr.2.rirs = fin.eng.arr.2.rirs ∧
      ∀ p ∈ combosOf c.infos, fin'.eng.filts p.1.name p.2.name = fin.eng.filts p.1.name p.2.name := by
  unfold simulate at h ⊢
  rw [hprep] at h
  dsimp only at h
  unfold roomSetup at hprep ⊢
  cases hp : i.parameters ext with
  | error x => rw [hp] at hprep; cases hprep
  | ok par0 =>
  rw [hp] at hprep
  dsimp only at hprep ⊢
  cases hs : c.setupIr (createPath (i.cfg ext par0)) g with
  | error x => rw [hs] at hprep; cases hprep
  | ok gc0 =>
  rw [hs] at hprep
  cases hprep
  obtain ⟨k1, ⟨ty, k2⟩, k3, k4⟩ := setupIr_again hnum hs t
  rw [k4]
  dsimp only
  have harr : (gc.2.setDefault t).arrays = c.arrays := by rw [k2, k1]
  have harr' : gc.2.arrays = c.arrays := by rw [k1]
  have hsr : gc.2.srcs = c.srcs := by rw [k1]
  have hmi : gc.2.mics = c.mics := by rw [k1]
  have hi : (gc.2.setDefault t).infos = c.infos := by unfold Coll.infos; rw [harr]
  rw [hi]
  refine run_given base (Q := gc.2.combos) (P' := gc.2.paths) (gc1 := (g', gc.2.setDefault t)) ?_ h
  refine ⟨⟨by rw [k2], by rw [k2], by rw [k2], by rw [k2], by rw [k2], ?_, ?_, ?_, ?_, ?_⟩, fun _ _ _ => rfl, ?_, ?_, ?_⟩
  · exact fun s hs m hm hq => absurd (Coll.mem_combos.2 ⟨hs, hm⟩) hq
  · intro s m hq
    obtain ⟨h1, h2⟩ := Coll.mem_combos.1 hq
    exact k3 s (hsr ▸ h1) m (hmi ▸ h2)
  · exact fun s hs m hm hq => absurd (Coll.mem_combos.2 ⟨hs, hm⟩) hq
  · intro s m _
    rw [k2]
  · intro s m _
    rw [k2]
  · intro a ha hd
    rw [harr'] at ha
    unfold Arr.dynamic at hd
    rw [hstill a ha] at hd
    cases hd
  · rw [harr']
    exact hc.names
  · rw [harr', hsr, hmi]
    intro a ha
    refine ⟨fun hk => hc.mem_mics.2 ⟨a, ha, hk, rfl⟩, fun k hk hne => hc.mem_srcs.2 ⟨a, ha, ?_, rfl⟩⟩
    rw [hk]
    cases k
    · exact absurd rfl hne
    · exact .inl rfl
    · exact .inr rfl

/-- **C129** does not hold if anything moves: every such simulation that completes, created again from its own
prepared arrays, ends with a failed assertion. -/
theorem C129_violated (base : SimCfg R (IrMat R) F S (G × Coll (K × K × K) (IrMat R)) P D O) (htot : 0 < base.tot)
    (ext : RoomExt K R G) (i : RoomInfo K) {g g' : G} {c : Coll (K × K × K) (IrMat R)} (hc : c.Consistent)
    (hnum : ∀ a ∈ c.arrays, 0 < a.num) (hsrcs : c.srcs ≠ []) (hmics : c.mics ≠ [])
    {a : Arr (K × K × K)} (ha : a ∈ c.arrays) (hmove : a.traj.isSome = true)
    {par : K × Nat} {gc : G × Coll (K × K × K) (IrMat R)} (hprep : roomSetup ext i g c = .ok (par, gc))
    {srcs : String → S} {proc : P} {f0 : F}
    {ds : List (Diag D)} {fin : SimSt R F S (G × Coll (K × K × K) (IrMat R)) P D O}
    (h : simulate base ext i g c srcs proc f0 ds = .ok fin) (t : String) :
    simulate base ext i g' (gc.2.setDefault t) srcs proc f0 ds = .error .assertion := by
  unfold simulate at h ⊢
  rw [hprep] at h
  dsimp only at h
  unfold roomSetup at hprep ⊢
  cases hp : i.parameters ext with
  | error x => rw [hp] at hprep; cases hprep
  | ok par0 =>
  rw [hp] at hprep
  dsimp only at hprep ⊢
  cases hs : c.setupIr (createPath (i.cfg ext par0)) g with
  | error x => rw [hs] at hprep; cases hprep
  | ok gc0 =>
  rw [hs] at hprep
  cases hprep
  obtain ⟨k1, ⟨ty, k2⟩, k3, k4⟩ := setupIr_again hnum hs t
  rw [k4]
  dsimp only
  have hi : (gc.2.setDefault t).infos = c.infos := by unfold Coll.infos; rw [k2, k1]
  rw [hi]
  obtain ⟨gen, hgen⟩ : ∃ gen, gen = createPath (i.cfg ext par) := ⟨_, rfl⟩
  rw [← hgen] at h ⊢
  obtain ⟨cfg, hcfg⟩ : ∃ cfg : SimCfg R (IrMat R) F S (G × Coll (K × K × K) (IrMat R)) P D O,
    cfg = { base with arrays := c.infos, arrUpdate := Coll.update gen, arrPath := Coll.path } := ⟨_, rfl⟩
  rw [← hcfg] at h ⊢
  have hupd : cfg.arrUpdate = Coll.update gen := by rw [hcfg]
  have hpath : cfg.arrPath = Coll.path := by rw [hcfg]
  have htot' : cfg.tot = base.tot := by rw [hcfg]
  unfold SimCfg.run at h ⊢
  obtain ⟨e1, e2⟩ := init_arr (cfg := cfg) (upd := cfg.arrUpdate) (path := cfg.arrPath)
    (φ := fun x : G × Coll (K × K × K) (IrMat R) => (g', { x.2 with types := ty }))
    (fun _ _ _ => by rw [hpath]; rfl) srcs gc proc f0 ds
  have e0 : cfg.setArr cfg.arrUpdate cfg.arrPath = cfg := rfl
  rw [e0] at e1
  dsimp only at e1
  rw [← k2] at e1
  rw [e1]
  cases hinit : cfg.init srcs gc proc f0 ds with
  | error x => rw [hinit] at h; cases h
  | ok st =>
    rw [hinit] at h
    simp only [Except.map]
    dsimp only at h
    have hn0 : st.n = 0 := by
      unfold SimCfg.init at hinit
      split at hinit
      · cases hinit
      · split at hinit
        · cases hinit
        · split at hinit
          · cases hinit
          · cases hinit; rfl
    have harr0 : st.eng.arr = gc := e2 st hinit
    have key : ∀ k, (cfg.steps (k + 1) st).isOk = true → gc.2.freq ≠ 0 := by
      intro k
      induction k with
      | zero =>
        intro hk hf
        have : cfg.steps 1 st = .error .zeroDivision := by
          simp only [SimCfg.steps, SimCfg.step, SimCfg.engine, hupd, hn0, harr0, Coll.update, if_pos hf]
        rw [this] at hk
        cases hk
      | succ k ih =>
        intro hk
        refine ih ?_
        rw [SimCfg.steps] at hk
        cases hx : cfg.steps (k + 1) st with
        | error x => rw [hx] at hk; cases hk
        | ok y => rfl
    obtain ⟨k, hk⟩ : ∃ k, cfg.tot + cfg.mbs = k + 1 := ⟨cfg.tot + cfg.mbs - 1, by omega⟩
    rw [hk] at h ⊢
    have hfreq : gc.2.freq ≠ 0 := by
      refine key k ?_
      cases hx : cfg.steps (k + 1) st with
      | error x => rw [hx] at h; cases h
      | ok y => rfl
    have hbad : Coll.update gen (g', gc.2.setDefault t) 0 = .error .assertion := by
      have hcc : (gc.2.setDefault t).Consistent := by
        rw [k2, k1]
        exact ⟨hc.names, hc.kinds, hc.mics, hc.srcs, hc.frees⟩
      refine update_modified hcc (by rw [k2, k1]; exact hsrcs) (by rw [k2, k1]; exact hmics) ?_ (a := a)
        (by rw [k2, k1]; exact ha) hmove (by rw [k2]; exact hfreq) (Nat.zero_mod _) g'
      intro s hs m hm
      exact k3 s (by rw [k2, k1] at hs; exact hs) m (by rw [k2, k1] at hm; exact hm)
    have hall : ∀ k, cfg.steps (k + 1) (SimSt.onArr (fun x : G × Coll (K × K × K) (IrMat R) =>
        (g', { x.2 with types := ty })) st) = .error .assertion := by
      intro k
      induction k with
      | zero =>
        have ea : (SimSt.onArr (fun x : G × Coll (K × K × K) (IrMat R) => (g', { x.2 with types := ty })) st).eng.arr =
            (g', gc.2.setDefault t) := by
          rw [k2]
          show (g', ({ st.eng.arr.2 with types := ty } : Coll (K × K × K) (IrMat R))) = _
          rw [harr0]
        have en : (SimSt.onArr (fun x : G × Coll (K × K × K) (IrMat R) => (g', { x.2 with types := ty })) st).n = 0 := hn0
        simp only [SimCfg.steps, SimCfg.step, SimCfg.engine]
        rw [ea, en, hupd, hbad]
      | succ k ih =>
        rw [SimCfg.steps, ih]
    rw [hall]

end

/-- A source and microphones at rest, whose path is random. -/
def restColl : Coll (ℚ × ℚ × ℚ) (IrMat ℚ) :=
  let c := (Coll.empty 2).addAll [⟨"src", some .free, 1, [(0, 1, 3)], none, 1, none, true, []⟩,
    ⟨"mic", some .mic, 2, [(2, 1, 3), (2, 2, 5 / 2)], none, 1, none, true, []⟩]
  { c with types := set2 c.types "src" "mic" "random" }

theorem restColl_consistent : restColl.Consistent := by
  have := (Coll.addAll_spec [(⟨"src", some .free, 1, [(0, 1, 3)], none, 1, none, true, []⟩ : Arr (ℚ × ℚ × ℚ)),
    ⟨"mic", some .mic, 2, [(2, 1, 3), (2, 2, 5 / 2)], none, 1, none, true, []⟩]
    (Coll.empty_consistent (H := IrMat ℚ) 2) (by simp)).1
  exact ⟨this.names, this.kinds, this.mics, this.srcs, this.frees⟩

/-- Created again from the prepared arrays in another state of the generators, the microphones record the same;
created again from the setup they do not. -/
example : ∃ r, roomSetup boxExt boxInfo 0 restColl = .ok r ∧
    micBuffer ((giveSim 5 (r.2.2.setDefault "ism")).map observe) = micBuffer ((giveSim 0 restColl).map observe) ∧
    micBuffer ((giveSim 0 restColl).map observe) ≠ none ∧
    micBuffer ((giveSim 5 restColl).map observe) ≠ micBuffer ((giveSim 0 restColl).map observe) := by
  have hne : micBuffer ((giveSim 0 restColl).map observe) ≠ none := by decide +kernel
  have hne5 : micBuffer ((giveSim 5 restColl).map observe) ≠ micBuffer ((giveSim 0 restColl).map observe) := by decide +kernel
  cases h : giveSim 0 restColl with
  | error x => rw [h] at hne; exact absurd rfl hne
  | ok fin =>
    rw [h] at hne hne5
    cases hr : roomSetup boxExt boxInfo 0 restColl with
    | error x =>
      unfold giveSim simulate at h
      rw [hr] at h
      cases h
    | ok r =>
      obtain ⟨fin', h1, h2, -⟩ := C129_run_partial boxBase boxExt boxInfo (g' := 5) restColl_consistent
        (by decide) (by
          intro a ha
          have ha : a ∈ [(⟨"src", some .free, 1, [(0, 1, 3)], none, 1, none, true, []⟩ : Arr (ℚ × ℚ × ℚ)),
            ⟨"mic", some .mic, 2, [(2, 1, 3), (2, 2, 5 / 2)], none, 1, none, true, []⟩] := ha
          simp only [List.mem_cons, List.not_mem_nil, or_false] at ha
          rcases ha with rfl | rfl <;> rfl) (par := r.1) (gc := r.2) hr h "ism"
      refine ⟨r, rfl, ?_, hne, hne5⟩
      unfold giveSim
      rw [h1]
      simp only [Except.map, micBuffer, observe, h2]

/-- The simulation with the moving source cannot be repeated from its prepared arrays. -/
example : ∃ r, roomSetup boxExt boxInfo 0 (boxColl "ism") = .ok r ∧
    micBuffer ((giveSim 0 (boxColl "ism")).map observe) ≠ none ∧
    giveSim 5 (r.2.2.setDefault "ism") = .error .assertion := by
  have hne : micBuffer ((giveSim 0 (boxColl "ism")).map observe) ≠ none := by decide +kernel
  cases h : giveSim 0 (boxColl "ism") with
  | error x => rw [h] at hne; exact absurd rfl hne
  | ok fin =>
    rw [h] at hne
    cases hr : roomSetup boxExt boxInfo 0 (boxColl "ism") with
    | error x =>
      unfold giveSim simulate at h
      rw [hr] at h
      cases h
    | ok r =>
      exact ⟨r, rfl, hne, C129_violated boxBase (by decide) boxExt boxInfo (g' := 5) (c := boxColl "ism")
        (Coll.setDefault_consistent (Coll.addAll_spec _ (Coll.empty_consistent 2) (by
          intro a ha
          simp only [boxArrays, List.mem_cons, List.not_mem_nil, or_false] at ha
          rcases ha with rfl | rfl <;> simp)).1 "ism") (by decide) (by decide) (by decide)
        (a := ⟨"src", some .free, 1, [(0, 1, 3)], none, 1, some fun n => [((n : ℚ) / 8, 1, 3)], true, []⟩)
        List.mem_cons_self rfl (par := r.1) (gc := r.2) hr h "ism"⟩

end Verif

import Verif.Lemmas.Total

namespace Verif

theorem broadcastMat_col {R : Type} (ch n : Nat) (f : Nat → Nat → R) :
    ∃ w, broadcastMat (matOf ch 1 f) ch n = some w := by
  unfold broadcastMat broadcastChan
  rw [if_pos (by simp [matOf])]
  simp only [Option.bind_some]
  have : ∀ l : List (List R), (∀ r ∈ l, r.length = 1) →
      ∃ w, l.mapM (fun r => broadcastRow r n) = some w := by
    intro l
    induction l with
    | nil => intro _; exact ⟨[], rfl⟩
    | cons r l ih =>
      intro h
      obtain ⟨w, hw⟩ := ih fun r hr => h r (by simp [hr])
      obtain ⟨x, rfl⟩ := List.length_eq_one_iff.1 (h r (by simp))
      have : ∃ u, broadcastRow [x] n = some u := by
        unfold broadcastRow
        split
        · exact ⟨_, rfl⟩
        · exact ⟨_, rfl⟩
      obtain ⟨u, hu⟩ := this
      exact ⟨u :: w, by rw [List.mapM_cons, hu, hw]; rfl⟩
  apply this
  intro r hr
  obtain ⟨c, _, rfl⟩ := List.mem_map.1 hr
  simp

theorem numCols_matOf {R : Type} {ch n : Nat} (f : Nat → Nat → R) (h : 1 ≤ ch) :
    numCols (matOf ch n f) = n := by
  obtain ⟨k, rfl⟩ := Nat.exists_eq_add_of_le' h
  unfold matOf
  rw [List.range_succ_eq_map]
  simp [numCols]

section
variable {R S A P V : Type} [Field R] [DecidableEq R]
  {cfg : SimCfg R (IrMat R) (Fir R) S A P (DData R P V) (DOut R V)} {lp : ProcView R P}
  {srcs : String → S} {arr : A} {proc : P} {J : A → Prop} {K : P → Prop}

/-- What holds of the tape engine of a valid setup at all times. -/
structure Sound (cfg : SimCfg R (IrMat R) (Fir R) S A P (DData R P V) (DOut R V)) (J : A → Prop)
    (K : P → Prop) (e : Eng (Tape R) (Fir R) S A P) : Prop where
  streams : ∀ a ∈ freeOf cfg.arrays, ∃ off x, StreamAt cfg.srcGet (e.srcs a.name) a.num off x
  filts : ∀ p ∈ combosOf cfg.arrays, (e.filts p.1.name p.2.name).mat.numIn = p.1.num ∧
    (e.filts p.1.name p.2.name).mat.numOut = p.2.num
  arr : J e.arr
  proc : K e.proc

theorem Sound.source (hN : Names cfg) {e : Eng (Tape R) (Fir R) S A P} (h : Sound cfg J K e)
    {a : ArrInfo} (ha : a ∈ freeOf cfg.arrays) (t : Int) (num : Nat) :
    ∃ s' v sig, cfg.srcGet (e.srcs a.name) num = .ok (s', v) ∧
      tAssign cfg.dims e.sig a.name t num v = .ok sig ∧
      Sound cfg J K { e with sig := sig, srcs := fun k => if k = a.name then s' else e.srcs k } := by
  obtain ⟨off, x, hx⟩ := h.streams a ha
  obtain ⟨s', h1, h2⟩ := hx.next num
  refine ⟨s', _, e.sig.write a.name t num (blockOf x a.num off num), h1, ?_, ?_, h.filts, h.arr, h.proc⟩
  · unfold tAssign
    rw [hN.freeDims a ha]
    show (match broadcastMat (matOf a.num num fun c j => x c (off + j)) a.num num with
      | none => Except.error PyErr.value
      | some w => Except.ok (e.sig.write a.name t num w)) = _
    rw [broadcastMat_self]
    rfl
  · intro b hb
    by_cases hba : b.name = a.name
    · have := hN.inj b (mem_freeOf hb).1 a (mem_freeOf ha).1 hba
      subst this
      exact ⟨off + num, x, by simpa using h2⟩
    · obtain ⟨o, y, hy⟩ := h.streams b hb
      exact ⟨o, y, by simpa [hba] using hy⟩

/-- One source-microphone pair: `x` are the source samples, the result is added
to the microphone over `m` samples. -/
theorem Sound.pair (hv : ValidScene cfg srcs arr J) (hN : Names cfg)
    {e : Eng (Tape R) (Fir R) S A P} (h : Sound cfg J K e) {p : ArrInfo × ArrInfo}
    (hp : p ∈ combosOf cfg.arrays) (t u : Int) (num m : Nat) (hm : num = m ∨ num = 1) :
    ∃ x f' y sig sig', tGet cfg.dims e.sig p.1.name t num = .ok x ∧
      cfg.filt.process (e.filts p.1.name p.2.name) x = .ok (f', y) ∧
      tAdd cfg.dims e.sig p.2.name u m y = .ok sig ∧
      (if cfg.contrib then tAssign cfg.dims sig (contribName p.1 p.2) t num y else .ok sig) = .ok sig' ∧
      Sound cfg J K { e with
        sig := sig'
        filts := fun s m => if s = p.1.name ∧ m = p.2.name then f' else e.filts s m } := by
  have hs := mem_sourcesOf (mem_combosOf.1 hp).1
  have hmic := mem_micsOf (mem_combosOf.1 hp).2
  obtain ⟨f1, f2⟩ := h.filts p hp
  have hget : tGet cfg.dims e.sig p.1.name t num =
      .ok (matOf p.1.num num fun c q => e.sig p.1.name c (t + q)) := by
    unfold tGet
    rw [hN.arr _ hs.1]
  generalize hx : (matOf p.1.num num fun c q => e.sig p.1.name c (t + q)) = x at hget
  have hxl : x.length = (e.filts p.1.name p.2.name).mat.numIn := by
    rw [f1, ← hx]; simp [matOf]
  have hxc : numCols x = num := by rw [← hx, numCols_matOf _ (hv.channels _ hs.1)]
  have hproc : ∃ f' g, cfg.filt.process (e.filts p.1.name p.2.name) x = .ok (f', matOf p.2.num num g) ∧
      f'.mat = (e.filts p.1.name p.2.name).mat := by
    rw [hv.filt]
    simp only [firOps, Fir.process]
    rw [if_neg (by simp [hxl]), hxc, f2]
    exact ⟨_, _, rfl, rfl⟩
  obtain ⟨f', g, hpr, hf'⟩ := hproc
  have hadd : ∃ sig, tAdd cfg.dims e.sig p.2.name u m (matOf p.2.num num g) = .ok sig := by
    unfold tAdd
    rw [hN.arr _ hmic.1]
    rcases hm with rfl | rfl
    · simp only [broadcastMat_self]
      exact ⟨_, rfl⟩
    · obtain ⟨w, hw⟩ := broadcastMat_col p.2.num m g
      simp only [hw]
      exact ⟨_, rfl⟩
  obtain ⟨sig, hsig⟩ := hadd
  have hcon : ∃ sig', (if cfg.contrib then tAssign cfg.dims sig (contribName p.1 p.2) t num
      (matOf p.2.num num g) else .ok sig) = .ok sig' := by
    by_cases hc : cfg.contrib = true
    · rw [if_pos hc]
      unfold tAssign
      rw [hN.con hc p hp]
      simp only [broadcastMat_self]
      exact ⟨_, rfl⟩
    · rw [if_neg hc]
      exact ⟨_, rfl⟩
  obtain ⟨sig', hsig'⟩ := hcon
  refine ⟨x, f', _, sig, sig', hget, hpr, hsig, hsig', h.streams, ?_, h.arr, h.proc⟩
  intro q hq
  simp only
  split
  · rename_i heq
    have h1 := hN.inj _ (mem_sourcesOf (mem_combosOf.1 hq).1).1 _ hs.1 heq.1
    have h2 := hN.inj _ (mem_micsOf (mem_combosOf.1 hq).2).1 _ hmic.1 heq.2
    rw [hf', h1, h2]
    exact ⟨f1, f2⟩
  · exact h.filts q hq

theorem Sound.propagate (hv : ValidScene cfg srcs arr J) (hN : Names cfg)
    {e1 : Eng (Tape R) (Fir R) S A P} (s1 : Sound cfg J K e1) (n : Nat) :
    ∃ e', cfg.tPropagate n e1 = .ok e' ∧ Sound cfg J K e' := by
  unfold SimCfg.tPropagate
  obtain ⟨e2, he2, s2⟩ := foldlM_ok (Sound cfg J K) (cfg.tSource n) (freeOf cfg.arrays) e1 (by
    intro t x hx ht
    obtain ⟨s', v, sig, g1, g2, g3⟩ := ht.source hN hx n 1
    refine ⟨_, ?_, g3⟩
    simp only [SimCfg.tSource, g1, g2]) s1
  rw [he2]
  simp only
  obtain ⟨e3, he3, s3⟩ := foldlM_ok (Sound cfg J K) cfg.stepUpdate (combosOf cfg.arrays) e2 (by
    intro t p hp ht
    unfold SimCfg.stepUpdate
    split
    · obtain ⟨ir, i1, i2, i3⟩ := hv.paths t.arr ht.arr p hp
      obtain ⟨f1, f2⟩ := ht.filts p hp
      simp only [i1]
      have hu : cfg.filt.updateIr (t.filts p.1.name p.2.name) ir =
          .ok { t.filts p.1.name p.2.name with mat := ir } := by
        rw [hv.filt]
        simp only [firOps, Fir.updateIr]
        rw [if_pos ⟨i2.trans f1.symm, i3.trans f2.symm⟩]
      rw [hu]
      refine ⟨_, rfl, ht.streams, ?_, ht.arr, ht.proc⟩
      intro q hq
      simp only
      split
      · rename_i heq
        have h1 := hN.inj _ (mem_sourcesOf (mem_combosOf.1 hq).1).1 _
          (mem_sourcesOf (mem_combosOf.1 hp).1).1 heq.1
        have h2 := hN.inj _ (mem_micsOf (mem_combosOf.1 hq).2).1 _
          (mem_micsOf (mem_combosOf.1 hp).2).1 heq.2
        rw [h1, h2]
        exact ⟨i2, i3⟩
      · exact ht.filts q hq
    · exact ⟨_, rfl, ht⟩) s2
  rw [he3]
  simp only
  exact foldlM_ok (Sound cfg J K) (cfg.tPair n) (combosOf cfg.arrays) e3 (by
    intro t p hp ht
    obtain ⟨x, f', y, sig, sig', g1, g2, g3, g4, g5⟩ := ht.pair hv hN hp n n 1 1 (.inl rfl)
    refine ⟨_, ?_, g5⟩
    simp only [SimCfg.tPair, g1, g2, g3, g4]) s3

theorem Sound.engine (had : Admissible cfg lp) (hv : ValidSetup cfg lp srcs arr proc J K) (hN : Names cfg)
    {e : Eng (Tape R) (Fir R) S A P} (h : Sound cfg J K e) (n : Nat) :
    ∃ e', cfg.tEngine lp n e = .ok e' ∧ Sound cfg J K e' := by
  unfold SimCfg.tEngine
  obtain ⟨arr', ha, hJ⟩ := hv.moves e.arr n h.arr
  rw [ha]
  simp only
  have h1 : ∃ e1, cfg.tProc lp n { e with arr := arr' } = .ok e1 ∧ Sound cfg J K e1 := by
    unfold SimCfg.tProc
    cases hp : cfg.proc with
    | none => exact ⟨_, rfl, h.streams, h.filts, hJ, h.proc⟩
    | some p =>
      have hm : cfg.mbs = p.bs := by unfold SimCfg.mbs; rw [hp]
      have hb := had.block
      simp only
      rw [if_neg (by omega)]
      split
      · obtain ⟨q', out, hact, hK⟩ := hv.acts p hp e.proc e.sig ((n : Int) - lp.H) h.proc
        simp only [hact]
        exact ⟨_, rfl, h.streams, h.filts, hJ, hK⟩
      · exact ⟨_, rfl, h.streams, h.filts, hJ, h.proc⟩
  obtain ⟨e1, he1, s1⟩ := h1
  rw [he1]
  exact s1.propagate hv.toValidScene hN n

theorem Sound.init (hv : ValidScene cfg srcs arr J) (hproc : K proc) (hN : Names cfg) (f0 : Fir R) :
    ∃ e0, cfg.tInit srcs arr proc f0 = .ok e0 ∧ Sound cfg J K e0 := by
  have hfs : ∃ fs, cfg.createFilters arr (fun _ _ => f0) = .ok fs := by
    unfold SimCfg.createFilters
    suffices ∃ fs, _ ∧ True by
      obtain ⟨fs, h, _⟩ := this
      exact ⟨fs, h⟩
    refine foldlM_ok (fun _ => True) _ (combosOf cfg.arrays) (fun _ _ => f0) ?_ trivial
    intro t p hp _
    obtain ⟨ir, i1, _⟩ := hv.paths arr hv.arr0 p hp
    simp only [i1]
    exact ⟨_, rfl, trivial⟩
  obtain ⟨fs, hfs⟩ := hfs
  have hspec := createFilters_spec cfg hN hfs
  unfold SimCfg.tInit
  rw [hfs]
  simp only [SimCfg.tPrepare]
  have s0 : Sound cfg J K { sig := fun _ _ _ => 0, srcs := srcs, filts := fs, arr := arr, proc := proc } := by
    refine ⟨?_, ?_, hv.arr0, hproc⟩
    · intro a ha
      obtain ⟨x, hx⟩ := hv.streams a ha
      exact ⟨0, x, hx⟩
    · intro p hp
      obtain ⟨ir, i1, i2⟩ := hspec p hp
      obtain ⟨h, j1, j2, j3⟩ := hv.paths arr hv.arr0 p hp
      rw [i1] at j1
      cases j1
      show (fs p.1.name p.2.name).mat.numIn = _ ∧ (fs p.1.name p.2.name).mat.numOut = _
      rw [i2, hv.filt]
      exact ⟨j2, j3⟩
  obtain ⟨e1, he1, s1⟩ := foldlM_ok (Sound cfg J K) (cfg.tPrepSource cfg.prepNum) (freeOf cfg.arrays)
    _ (by
      intro t x hx ht
      obtain ⟨s', v, sig, g1, g2, g3⟩ := ht.source hN hx (-(cfg.prepNum : Int)) cfg.prepNum
      refine ⟨_, ?_, g3⟩
      simp only [SimCfg.tPrepSource, g1, g2]) s0
  rw [he1]
  simp only
  exact foldlM_ok (Sound cfg J K) (cfg.tPrepPair cfg.prepNum) (combosOf cfg.arrays) e1 (by
    intro t p hp ht
    obtain ⟨x, f', y, sig, sig', g1, g2, g3, g4, g5⟩ := ht.pair hv hN hp (-(cfg.prepNum : Int))
      (-(cfg.B : Int)) cfg.prepNum cfg.B (by unfold SimCfg.prepNum; split <;> simp)
    refine ⟨_, ?_, g5⟩
    simp only [SimCfg.tPrepPair, g1, g2, g3, g4]) s1

theorem Sound.steps (had : Admissible cfg lp) (hv : ValidSetup cfg lp srcs arr proc J K) (hN : Names cfg)
    {e0 : Eng (Tape R) (Fir R) S A P} (h : Sound cfg J K e0) :
    ∀ (k : Nat), ∃ te, cfg.tSteps lp k e0 = .ok te ∧ Sound cfg J K te
  | 0 => ⟨e0, rfl, h⟩
  | k + 1 => by
    obtain ⟨te, h1, h2⟩ := Sound.steps had hv hN h k
    obtain ⟨te', h3, h4⟩ := h2.engine had hv hN k
    exact ⟨te', by simp only [SimCfg.tSteps, h1]; exact h3, h4⟩

theorem getUpTo_no_div {α : Type} (m : Mat (Option α)) (x : Int) :
    getUpTo m x ≠ .error .diverges := by
  unfold getUpTo
  dsimp only
  split
  · simp
  · split
    · simp
    · split <;> simp

theorem getSelection_no_div {α : Type} (m : Mat (Option α)) (ts : List Int) (x : Int) :
    getSelection m ts x ≠ .error .diverges := by
  unfold getSelection
  split
  · simp
  · dsimp only
    split
    · simp
    · split
      · simp
      · split <;> simp

theorem output_no_div (d : DData R P V) (x : Int) : DData.output d x ≠ .error .diverges := by
  have hmap : ∀ {α β : Type} (f : α → β) (y : Except PyErr α), y ≠ .error .diverges →
      y.map f ≠ .error .diverges := by
    intro α β f y hy
    cases y with
    | error e => simpa [Except.map] using hy
    | ok a => simp [Except.map]
  unfold DData.output
  split
  · exact hmap _ _ (getUpTo_no_div _ _)
  · exact hmap _ _ (getSelection_no_div _ _ _)
  · exact hmap _ _ (getUpTo_no_div _ _)
  · exact hmap _ _ (getUpTo_no_div _ _)
  · simp
  · simp
  · simp
  · simp

end
end Verif

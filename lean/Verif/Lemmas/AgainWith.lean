/-
Several runs with an adaptive processor: a run from any state of the processor that has the
right shapes.
-/
import Verif.Spec.AgainWith
import Verif.Lemmas.Again
import Verif.Lemmas.FastTotal
import Verif.Lemmas.TapeMic
import Verif.Props.AdaptiveRecording
namespace Verif

section
variable {R IR F S A P D O : Type} [Field R] {cfg : SimCfg R IR F S A P D O}

/-- A counter that has counted `k / bs` blocks. -/
def CntAt (q : FxPar R) (k : Nat) (c : EventSt) : Prop :=
  c.idx = ((k / q.bs * q.bs : Nat) : Int) ∧ ("update_filter" ∈ c.event ↔ 0 < k / q.bs ∧ q.ub ∣ k / q.bs * q.bs)

/-- What `FxLMS` and `FastBlockFxLMS` have in common: when they look back how far, when the taps
change, what `prepare` does. -/
structure AncTape (cfg : SimCfg R IR F S A P D O) {p : Proc R P} (tp : TapeProc cfg.dims p)
    (prep : P → Sigs R → Int → Except PyErr (P × Sigs R)) (q : FxPar R) (look : Nat) (cnt : P → EventSt)
    (taps : P → IrMat R) : Prop where
  bs : p.bs = q.bs
  ub : 0 < q.ub ∧ q.bs ∣ q.ub
  least : q.bs ≤ look
  back : ∀ s, tp.H s = if "update_filter" ∈ (cnt s).event then look else q.bs
  count : ∀ s T n, cnt (tp.act s T n).1 = fxCount q (cnt s) q.bs
  still : ∀ s T n, "update_filter" ∉ (cnt s).event → taps (tp.act s T n).1 = taps s
  past : ∀ name, name ≠ "xf" → tp.Past name
  prepares : ∀ s T, tp.good s → ∃ s' T', prep s (cut cfg.dims T (-(cfg.B : Int)) (cfg.B + cfg.C)) cfg.B =
      .ok (s', cut cfg.dims T' (-(cfg.B : Int)) (cfg.B + cfg.C)) ∧
    tp.good s' ∧ cnt s' = cnt s ∧ taps s' = taps s ∧ ∀ nm c t, (nm = "xf" → 0 ≤ t) → T' nm c t = T nm c t

theorem CntAt.call {q : FxPar R} {k : Nat} {c : EventSt} (hbs : 0 < q.bs) (h : CntAt q k c) (hk : k % q.bs = q.bs - 1) :
    CntAt q (k + 1) (fxCount q c q.bs) :=
  CntInv.call (p := ⟨⟨⟨0, 0, fun _ _ => []⟩, []⟩, ⟨⟨0, 0, fun _ _ => []⟩, []⟩, c⟩) hbs h (fun _ _ _ => 0) hk

theorem CntAt.wait {q : FxPar R} {k : Nat} {c : EventSt} (hbs : 0 < q.bs) (h : CntAt q k c) (hk : k % q.bs ≠ q.bs - 1) :
    CntAt q (k + 1) c := by
  have hnext : (k + 1) / q.bs = k / q.bs := by
    rw [Nat.succ_div, if_neg, Nat.add_zero]
    intro hdvd
    have h1 : k % q.bs < q.bs := Nat.mod_lt _ (by omega)
    have h3 : (k % q.bs + 1) % q.bs = 0 := by
      rw [Nat.mod_add_mod]
      exact Nat.mod_eq_zero_of_dvd hdvd
    rw [Nat.mod_eq_of_lt (by omega)] at h3
    omega
  unfold CntAt
  rw [hnext]
  exact h

/-- The rest of a block that was not completed is forgotten. -/
theorem CntAt.whole {q : FxPar R} {k : Nat} {c : EventSt} (hbs : 0 < q.bs) (h : CntAt q k c) : CntAt q (k / q.bs * q.bs) c := by
  unfold CntAt
  rw [Nat.mul_div_cancel _ hbs]
  exact h

theorem CntAt.looks {q : FxPar R} {look k : Nat} {c : EventSt} (hbs : 0 < q.bs) (h : CntAt q k c) (hm : k % q.bs = q.bs - 1) :
    (if "update_filter" ∈ c.event then look else q.bs) = looksBack q look k := by
  have e : k / q.bs * q.bs = k + 1 - q.bs := by
    have h1 := Nat.div_add_mod k q.bs
    rw [Nat.mul_comm] at h1
    omega
  have e2 : 0 < k / q.bs ↔ 0 < k + 1 - q.bs := by
    rw [← e]
    exact ⟨fun h => Nat.mul_pos h hbs, fun h => Nat.pos_of_mul_pos_right h⟩
  unfold looksBack
  simp only [h.2, e, e2]

variable {p : Proc R P} {tp : TapeProc cfg.dims p} {prep : P → Sigs R → Int → Except PyErr (P × Sigs R)} {q : FxPar R}
  {look : Nat} {cnt : P → EventSt} {taps : P → IrMat R}

/-- The prepared simulation is the tape seen through the buffer. -/
theorem AncTape.begin (ha : AncTape cfg tp prep q look cnt taps) (hsz : GSizes cfg tp) {srcs : String → S} {arr : A} {proc : P}
    (hg : tp.good proc) {f0 : F} {ds : List (Diag D)} {st0 : SimSt R F S A P D O}
    (hi : cfg.initWith prep srcs arr proc f0 ds = .ok st0) :
    Names cfg ∧ ∃ e e0, cfg.tInit srcs arr proc f0 = .ok e ∧ GInv tp e0 0 st0 e0 (-(cfg.B : Int)) 0 ∧
      cnt e0.proc = cnt proc ∧ taps e0.proc = taps proc ∧ e0.srcs = e.srcs ∧ e0.filts = e.filts ∧ e0.arr = e.arr ∧
      ∀ nm, nm ≠ "xf" → ∀ c t, e0.sig nm c t = e.sig nm c t := by
  unfold SimCfg.initWith at hi
  split at hi
  · cases hi
  · rename_i st hst
    have hB := hsz.buffer
    have hbs := hsz.block
    have hnd := init_nodup cfg hst
    have hN := names_of cfg hnd
    refine ⟨hN, ?_⟩
    rw [init_conc cfg (by omega) hnd] at hst
    cases he : cfg.tInit srcs arr proc f0 with
    | error x => rw [he] at hst; cases hst
    | ok e =>
      rw [he] at hst
      simp only [Except.map, Except.ok.injEq] at hst
      subst hst
      have hp := tInit_proc hN he
      obtain ⟨s', T', g1, g2, g3, g4, g5⟩ := ha.prepares e.proc e.sig (by rw [hp]; exact hg)
      simp only [conc] at hi
      rw [g1] at hi
      simp only [Except.ok.injEq] at hi
      subst hi
      refine ⟨e, { e with sig := T', proc := s' }, rfl, ⟨rfl, rfl, rfl, PosInv.start (by rw [hsz.mbs]; exact hbs)
        (by rw [hsz.mbs]; exact hB), ?_, g2⟩, by rw [g3, hp], by rw [g4, hp], rfl, rfl, rfl, fun nm hn c t => g5 nm c t (fun h => absurd h hn)⟩
      intro nm c t ht
      show T' nm c t = 0
      rw [g5 nm c t (fun _ => by omega)]
      exact tInit_zero cfg he nm c t (by omega)

/-- The counter during a run. -/
theorem AncTape.counts (ha : AncTape cfg tp prep q look cnt taps) (hbs : 0 < q.bs) {K : Nat} (hK : q.bs ∣ K)
    {e0 : Eng (Tape R) F S A P} (h0 : CntAt q K (cnt e0.proc)) :
    ∀ (k : Nat) {te}, cfg.gSteps tp k e0 = .ok te → CntAt q (K + k) (cnt te.proc)
  | 0, te, hs => by cases hs; exact h0
  | k + 1, te, hs => by
    simp only [SimCfg.gSteps] at hs
    split at hs
    · cases hs
    · rename_i e1 h1
      have hI := ha.counts hbs hK h0 k h1
      obtain ⟨j, rfl⟩ := hK
      have hmod : (q.bs * j + k) % q.bs = k % q.bs := by rw [Nat.mul_add_mod]
      unfold SimCfg.gEngine at hs
      split at hs
      · cases hs
      · rename_i arr _
        rw [tPropagate_proc hs]
        unfold SimCfg.gProc
        rw [ha.bs]
        split
        · rename_i hm
          show CntAt q _ (cnt (tp.act e1.proc e1.sig k).1)
          rw [ha.count]
          exact hI.call hbs (hmod.trans hm)
        · rename_i hm
          exact hI.wait hbs fun h => hm (hmod.symm.trans h)

/-- The taps stay as they are until the next update. -/
theorem AncTape.stills (ha : AncTape cfg tp prep q look cnt taps) (hbs : 0 < q.bs) {K : Nat} (hK : q.bs ∣ K)
    {e0 : Eng (Tape R) F S A P} (h0 : CntAt q K (cnt e0.proc)) :
    ∀ (k : Nat) {te}, cfg.gSteps tp k e0 = .ok te →
      (∀ j < k, j % q.bs = q.bs - 1 → ¬ (0 < K + j + 1 - q.bs ∧ q.ub ∣ K + j + 1 - q.bs)) → taps te.proc = taps e0.proc
  | 0, te, hs, _ => by cases hs; rfl
  | k + 1, te, hs, hno => by
    simp only [SimCfg.gSteps] at hs
    split at hs
    · cases hs
    · rename_i e1 h1
      have hc := ha.counts hbs hK h0 k h1
      have ih := ha.stills hbs hK h0 k h1 (fun j hj => hno j (by omega))
      obtain ⟨i, rfl⟩ := hK
      have hmod : (q.bs * i + k) % q.bs = k % q.bs := by rw [Nat.mul_add_mod]
      unfold SimCfg.gEngine at hs
      split at hs
      · cases hs
      · rename_i arr _
        rw [tPropagate_proc hs]
        unfold SimCfg.gProc
        rw [ha.bs]
        split
        · rename_i hm
          show taps (tp.act e1.proc e1.sig k).1 = _
          rw [ha.still, ih]
          intro hev
          have hl := hc.looks (look := q.bs + 1) hbs (by rw [hmod]; exact hm)
          rw [if_pos hev] at hl
          unfold looksBack at hl
          rw [if_neg (hno k (by omega) hm)] at hl
          omega
        · exact ih

/-- What the processor looks at is in the buffer. -/
theorem AncTape.index (ha : AncTape cfg tp prep q look cnt taps) (hsz : GSizes cfg tp) {K N : Nat}
    (hb : look + q.bs ≤ cfg.B + 1 ∨ q.bs ≤ cfg.C ∧ ∀ k < N, k % q.bs = q.bs - 1 → looksBack q look (K + k) ≤ cfg.indexAt k)
    {e0 : Eng (Tape R) F S A P} {st0 st : SimSt R F S A P D O} {r0 : Int}
    (hI : GInv tp e0 0 st0 e0 (-(cfg.B : Int)) r0) {k : Nat} (hs : cfg.steps k st0 = .ok st)
    (hm : k % q.bs = q.bs - 1) (hk : k < N) : ((looksBack q look (K + k) : Nat) : Int) ≤ st.idx := by
  have hmbs : cfg.mbs = q.bs := hsz.mbs.trans ha.bs
  have hbs : 0 < q.bs := by have := hsz.block; rw [ha.bs] at this; omega
  have hBB := hsz.buffer
  rw [ha.bs] at hBB
  have hlk := ha.least
  rcases hb with hb | ⟨hC, hb⟩
  · obtain ⟨te, off, r, hT⟩ := GInv.steps hsz hI k hs
    have hlow := hT.pos.low
    rw [hmbs] at hlow
    unfold looksBack
    split <;> omega
  · have h0 : st0.idx = cfg.B := by have := hI.pos.sync; omega
    rw [steps_index h0 (by omega) (by omega) (by omega) k hs]
    exact_mod_cast hb k hk hm

end

section
variable {R IR F S A P D O : Type} [Zero R] [Add R] {cfg : SimCfg R IR F S A P D O}

/-- The state with other diagnostics. -/
def SimSt.watched (ds : List (Diag D)) (st : SimSt R F S A P D O) : SimSt R F S A P D O := { st with diags := ds }

theorem steps_watched {ds : List (Diag D)} (h1 : ∀ d ∈ ds, d.saveAt.start = none)
    (h2 : cfg.plotNone = false → ∀ d ∈ ds, d.ready = false) (st : SimSt R F S A P D O) :
    ∀ k, cfg.steps k (st.watched ds) = (cfg.steps k (st.watched [])).map (SimSt.watched ds)
  | 0 => rfl
  | k + 1 => by
    simp only [SimCfg.steps]
    rw [steps_watched h1 h2 st k]
    cases hs : cfg.steps k (st.watched []) with
    | error x => rfl
    | ok s =>
      have hd : s.diags = [] := (steps_idle (st0 := st.watched []) (by simp [SimSt.watched]) (by simp [SimSt.watched]) k hs).1
      simp only [Except.map]
      unfold SimCfg.step SimSt.watched
      dsimp only
      cases cfg.engine s.n s.idx s.eng with
      | error x => rfl
      | ok e =>
        dsimp only
        rw [saveData_done h1, hd, saveData_done (ds := []) (by simp)]
        dsimp only
        rw [dispatch_idle h2, dispatch_idle (ds := []) (by simp)]

theorem init_watched {srcs : String → S} {arr : A} {proc : P} {f0 : F} (ds : List (Diag D)) :
    cfg.init srcs arr proc f0 ds = (cfg.init srcs arr proc f0 []).map (SimSt.watched ds) := by
  unfold SimCfg.init
  repeat' split
  all_goals first | rfl | simp_all [SimSt.watched, Except.map]

end

section
variable {R IR F S A P D O : Type} [Field R] [DecidableEq R] {cfg : SimCfg R IR F S A P D O}

theorem runWith_unwatched {prep : P → Sigs R → Int → Except PyErr (P × Sigs R)} {srcs : String → S} {arr : A} {proc : P} {f0 : F}
    {fin : SimSt R F S A P D O} (h : cfg.runWith prep srcs arr proc f0 [] = .ok fin) : fin.log = [] := by
  unfold SimCfg.runWith at h
  split at h
  · cases h
  rename_i st hst
  obtain ⟨hd0, hl0⟩ := initWith_diags hst
  split at h
  · cases h
  rename_i s hs
  obtain ⟨i1, i2⟩ := steps_idle (by simp [hd0]) (by simp [hd0]) _ hs
  rw [i1, hd0, dispatch_idle (ds := []) (by simp)] at h
  cases h
  exact i2.trans hl0

theorem runWith_watched {prep : P → Sigs R → Int → Except PyErr (P × Sigs R)} {srcs : String → S} {arr : A} {proc : P} {f0 : F}
    {ds : List (Diag D)} (h1 : ∀ d ∈ ds, d.saveAt.start = none) (h2 : cfg.plotNone = false → ∀ d ∈ ds, d.ready = false) :
    cfg.runWith prep srcs arr proc f0 ds = (cfg.runWith prep srcs arr proc f0 []).map (SimSt.watched ds) := by
  have hi : cfg.initWith prep srcs arr proc f0 ds = (cfg.initWith prep srcs arr proc f0 []).map (SimSt.watched ds) := by
    unfold SimCfg.initWith
    rw [init_watched ds]
    cases cfg.init srcs arr proc f0 [] with
    | error x => rfl
    | ok st =>
      simp only [Except.map, SimSt.watched]
      cases prep st.eng.proc st.eng.sig st.idx with
      | error x => rfl
      | ok v => rfl
  unfold SimCfg.runWith
  rw [hi]
  cases hst : cfg.initWith prep srcs arr proc f0 [] with
  | error x => rfl
  | ok st =>
    have hd0 : st.diags = [] := (initWith_diags hst).1
    simp only [Except.map]
    rw [steps_watched h1 h2 st]
    have hst' : st.watched [] = st := by cases st; cases hd0; rfl
    rw [hst']
    cases hs : cfg.steps (cfg.tot + cfg.mbs) st with
    | error x => rfl
    | ok s =>
      have hd : s.diags = [] := (steps_idle (by simp [hd0]) (by simp [hd0]) _ hs).1.trans hd0
      simp only [Except.map, SimSt.watched]
      rw [dispatch_idle h2, hd, dispatch_idle (ds := []) (by simp)]

end

section
variable {R IR F S A P V : Type} [Field R] [DecidableEq R] {cfg : SimCfg R IR F S A P (DData R P V) (DOut R V)}
  {p : Proc R P} {tp : TapeProc cfg.dims p} {prep : P → Sigs R → Int → Except PyErr (P × Sigs R)} {q : FxPar R}
  {look : Nat} {cnt : P → EventSt} {taps : P → IrMat R}

theorem runWith_steps {srcs : String → S} {arr : A} {proc : P} {f0 : F} {ds : List (Diag (DData R P V))}
    {fin : SimSt R F S A P (DData R P V) (DOut R V)} (h : cfg.runWith prep srcs arr proc f0 ds = .ok fin) :
    ∃ st0 st1 ds1 log, cfg.initWith prep srcs arr proc f0 ds = .ok st0 ∧ cfg.steps (cfg.tot + cfg.mbs) st0 = .ok st1 ∧
      dispatch cfg.diag cfg.plotNone st1.diags st1.log = .ok (ds1, log) ∧ fin = { st1 with diags := ds1, log := log } := by
  unfold SimCfg.runWith at h
  split at h
  · cases h
  · rename_i st0 h0
    split at h
    · cases h
    · rename_i st1 h1
      split at h
      · cases h
      · rename_i ds1 log h2
        cases h
        exact ⟨st0, st1, ds1, log, h0, h1, h2, rfl⟩

/-- The processor after several runs. -/
theorem AncTape.after (ha : AncTape cfg tp prep q look cnt taps) (hsz : GSizes cfg tp) {srcs s : String → S} {arr a : A}
    {proc pr : P} (hg : tp.good proc) (h0 : CntAt q 0 (cnt proc)) {n : Nat} (h : cfg.AfterRuns prep srcs arr proc n s a pr) :
    tp.good pr ∧ CntAt q (cfg.handled q n) (cnt pr) := by
  have hbs : 0 < q.bs := by have := hsz.block; rw [ha.bs] at this; omega
  have hmbs : cfg.mbs = q.bs := hsz.mbs.trans ha.bs
  induction h with
  | start => exact ⟨hg, by unfold SimCfg.handled; rw [Nat.zero_mul]; exact h0⟩
  | @again n s a pr f ds fin _ _ hr ih =>
    obtain ⟨st0, st1, ds1, log, r1, r2, _, rfl⟩ := runWith_steps hr
    obtain ⟨_, e, e0, _, hI, g3, _⟩ := ha.begin hsz ih.1 r1
    obtain ⟨te, off, r, hT⟩ := GInv.steps hsz hI _ r2
    have hdvd : q.bs ∣ cfg.handled q n := by
      unfold SimCfg.handled
      exact Dvd.intro_left _ (Nat.mul_assoc _ _ _)
    have hc := (ha.counts hbs hdvd (by rw [g3]; exact ih.2) _ hT.tape).whole hbs
    have hproc : st1.eng.proc = te.proc := by rw [hT.eng]; rfl
    refine ⟨by show tp.good st1.eng.proc; rw [hproc]; exact hT.good, ?_⟩
    show CntAt q _ (cnt st1.eng.proc)
    rw [hproc]
    have hK : (cfg.handled q n + (cfg.tot + cfg.mbs)) / q.bs * q.bs = cfg.handled q (n + 1) := by
      rw [hmbs]
      unfold SimCfg.handled
      rw [← Nat.mul_assoc, Nat.add_comm, Nat.add_mul_div_right _ _ hbs, Nat.add_mul, Nat.add_comm, Nat.add_mul n 1, Nat.one_mul, Nat.mul_assoc]
    rwa [hK] at hc

/-- The sources after several runs. -/
theorem AncTape.stream (ha : AncTape cfg tp prep q look cnt taps) (hsz : GSizes cfg tp) {srcs s : String → S} {arr a : A}
    {proc pr : P} (hg : tp.good proc) (h0 : CntAt q 0 (cnt proc)) {b : ArrInfo} (hb : b ∈ cfg.arrays) (hfree : b.kind = .free)
    (hxf : b.name ≠ "xf") {x : Nat → Nat → R} (hx : IsStream cfg.srcGet (srcs b.name) b.num x) {n : Nat}
    (h : cfg.AfterRuns prep srcs arr proc n s a pr) :
    IsStream cfg.srcGet (s b.name) b.num fun c j => x c (cfg.delivered n + j) := by
  have hbm : b ∈ freeOf cfg.arrays := by
    unfold freeOf; rw [List.mem_filter]; exact ⟨hb, by simpa using hfree⟩
  induction h with
  | start => simpa [SimCfg.delivered] using hx
  | @again n s a pr f ds fin hprev _ hr ih =>
    obtain ⟨st0, st1, ds1, log, r1, r2, _, rfl⟩ := runWith_steps hr
    obtain ⟨hN, e, e0, he, hI, _, _, g5, _, _, g8⟩ := ha.begin hsz (ha.after hsz hg h0 hprev).1 r1
    obtain ⟨te, off, r, hT⟩ := GInv.steps hsz hI _ r2
    obtain ⟨k1, k2⟩ := tInit_source cfg hN he hbm ih
    obtain ⟨k3, _⟩ := gSteps_source cfg hN hbm (ha.past _ hxf) (e0 := e0) (by rw [g5]; exact k1)
      (fun c j hc hj => by rw [g8 _ hxf]; exact k2 c j hc hj) _ hT.tape
    have hsrc : st1.eng.srcs = te.srcs := by rw [hT.eng]; rfl
    show IsStream cfg.srcGet (st1.eng.srcs b.name) b.num _
    rw [hsrc]
    have := k3.isStream
    have hfun : (fun c j => x c (cfg.delivered n + (cfg.prepNum + (cfg.tot + cfg.mbs) + j))) =
        fun (c j : Nat) => x c (cfg.delivered (n + 1) + j) := by
      funext c j
      congr 1
      unfold SimCfg.delivered SimCfg.prepNum
      rw [Nat.add_mul n 1, Nat.one_mul]
      omega
    rwa [hfun] at this

/-- What a free source plays in a run after several others. -/
theorem AncTape.produced (ha : AncTape cfg tp prep q look cnt taps) (hsz : GSizes cfg tp) {srcs s : String → S} {arr a : A}
    {proc pr : P} (hg : tp.good proc) (h0 : CntAt q 0 (cnt proc)) {b : ArrInfo} (hb : b ∈ cfg.arrays) (hfree : b.kind = .free)
    (hxf : b.name ≠ "xf") {x : Nat → Nat → R} (hx : IsStream cfg.srcGet (srcs b.name) b.num x) {n : Nat}
    (h : cfg.AfterRuns prep srcs arr proc n s a pr) {f : F} {ds : List (Diag (DData R P V))}
    {st0 st : SimSt R F S A P (DData R P V) (DOut R V)} {k : Nat} (hi : cfg.initWith prep s a pr f ds = .ok st0)
    (hk : cfg.steps k st0 = .ok st) {t : Nat} (ht : t ≤ k) (c : Nat) (v : R) :
    cfg.Produced st0 b.name c t v ↔ c < b.num ∧ v = x c (cfg.delivered n + (if cfg.warm then cfg.B - 1 else 0) + t) := by
  have hbm : b ∈ freeOf cfg.arrays := by
    unfold freeOf; rw [List.mem_filter]; exact ⟨hb, by simpa using hfree⟩
  have hB := hsz.buffer
  obtain ⟨hN, e, e0, he, hI, _, _, g5, _, _, g8⟩ := ha.begin hsz (ha.after hsz hg h0 h).1 hi
  obtain ⟨te, off, r, hT⟩ := GInv.steps hsz hI _ hk
  obtain ⟨k1, k2⟩ := tInit_source cfg hN he hbm (ha.stream hsz hg h0 hb hfree hxf hx h)
  obtain ⟨_, k4⟩ := gSteps_source cfg hN hbm (ha.past _ hxf) (e0 := e0) (by rw [g5]; exact k1)
    (fun c j hc hj => by rw [g8 _ hxf]; exact k2 c j hc hj) _ hT.tape
  rw [gProduced_iff hsz hI hk hT.tape ht (ha.past _ hxf), hN.arr b hb]
  have hpn : cfg.prepNum = (if cfg.warm then cfg.B - 1 else 0) + 1 := by
    unfold SimCfg.prepNum; split <;> omega
  have key : ∀ c < b.num, te.sig b.name c ((t : Int) - 1) = x c (cfg.delivered n + (if cfg.warm then cfg.B - 1 else 0) + t) := by
    intro c hc
    have := k4 c ((if cfg.warm then cfg.B - 1 else 0) + t) hc (by omega)
    rw [hpn, ← Nat.add_assoc] at this
    rw [← this]
    generalize (if cfg.warm = true then cfg.B - 1 else 0) = z
    exact congrArg (te.sig b.name c) (by omega)
  constructor
  · rintro ⟨num, hnum, hc, hv⟩
    cases hnum
    exact ⟨hc, by rw [← hv, key c hc]⟩
  · rintro ⟨hc, rfl⟩
    exact ⟨b.num, rfl, hc, key c hc⟩

/-- Diagnostics that have finished are left alone by the next run. -/
theorem AncTape.recordings (ha : AncTape cfg tp prep q look cnt taps) (hsz : GSizes cfg tp) (hdiag : cfg.diag = diagOps R P V)
    {s : String → S} {a : A} {pr : P} (hg : tp.good pr) {f f1 : F} {ds : List (Diag (DData R P V))} (hnd : (ds.map Diag.name).Nodup)
    {fin : SimSt R F S A P (DData R P V) (DOut R V)} (hr : cfg.runWith prep s a pr f ds = .ok fin)
    (hiv : ∀ d ∈ ds, ∃ ivs, d.saveAt = IvCounter.init ivs ∧ Increasing 0 ivs ∧ ∀ q ∈ ivs, q.2 ≤ (cfg.tot : Int))
    (hreads : ∀ d ∈ ds, ∀ name ∈ d.data.reads, name ≠ "xf") :
    cfg.runWithAgain prep fin f1 fin.diags = (cfg.runWithAgain prep fin f1 []).map (SimSt.watched fin.diags) := by
  obtain ⟨st0, st1, ds1, log, r1, r2, r3, rfl⟩ := runWith_steps hr
  obtain ⟨hN, e, e0, he, hI, _⟩ := ha.begin hsz hg r1
  obtain ⟨hds, hlog⟩ := initWith_diags r1
  obtain ⟨te, off, r, hT, hD⟩ := GDiags.steps (ok := fun name => name ≠ "xf") hsz hdiag hnd ha.past hI (GDiags.start hds hlog) _ r2
  have hnames : st1.diags.map Diag.name = ds.map Diag.name := forall₂_map_name hD (fun _ _ hD => hD.1)
  obtain ⟨hready, evs, hlog1, _, hdispF, _⟩ := dispatch_spec cfg.diag (by rw [hnames]; exact hnd) r3
  have hF : List.Forall₂ (fun d0 d => d0.Fresh → (∀ name ∈ d0.data.reads, name ≠ "xf") → ∃ ps xs,
      DInv cfg (te.sig.only fun name => name ≠ "xf") (cfg.gProcAfter tp e0) ((cfg.tot + cfg.mbs : Nat) : Int) r log d0 d ps xs) ds ds1 := by
    refine forall₂_comp ?_ hD hdispF
    rintro d0 d d1 ⟨hname, _, hD⟩ hd hfr hrd
    obtain ⟨ps, xs, hD, _⟩ := hD hfr hrd
    obtain ⟨xs', hD'⟩ := hD.disp cfg hd
    rw [← hlog1] at hD'
    exact ⟨ps, _, hD'⟩
  have hall : ∀ d ∈ ds1, d.saveAt.start = none ∧ (cfg.plotNone = false → d.ready = false) := by
    intro d hd
    obtain ⟨d0, hd0, hD⟩ := forall₂_mem_left hF.flip hd
    obtain ⟨ivs, hs, hinc, hle⟩ := hiv d0 hd0
    obtain ⟨ps, xs, hI⟩ := hD ⟨ivs, hs, hinc⟩ (hreads d0 hd0)
    have hI' := hI.iv
    rw [show d0.saveAt.left = ivs by rw [hs, IvCounter.left_init]] at hI'
    refine ⟨?_, fun hp => hready hp d hd⟩
    rcases hI'.2.2 with g | ⟨done, dp, cp, a, s, e, g1, _, _, _, _, _, _, g8, _⟩
    · exact g.2.1
    · have := hle (a, e) (by rw [g1]; simp)
      have := hsz.block
      have := hsz.mbs
      simp only at *
      omega
  exact runWith_watched (fun d hd => (hall d hd).1) fun hp d hd => (hall d hd).2 hp

end

section
variable {R S A P V : Type} [Field R] [DecidableEq R] {cfg : SimCfg R (IrMat R) (Fir R) S A P (DData R P V) (DOut R V)}
  {p : Proc R P} {tp : TapeProc cfg.dims p} {prep : P → Sigs R → Int → Except PyErr (P × Sigs R)} {q : FxPar R}
  {look : Nat} {cnt : P → EventSt} {taps : P → IrMat R} {srcs s : String → S} {arr a : A} {proc pr : P} {J : A → Prop}

theorem AncTape.begins (ha : AncTape cfg tp prep q look cnt taps) (hsz : GSizes cfg tp) (hv : ValidScene cfg srcs arr J)
    (hg : tp.good proc) (f0 : Fir R) (ds : List (Diag (DData R P V))) :
    ∃ st0 e0, cfg.initWith prep srcs arr proc f0 ds = .ok st0 ∧ GInv tp e0 0 st0 e0 (-(cfg.B : Int)) 0 ∧
      cnt e0.proc = cnt proc ∧ Sound cfg J tp.good e0 := by
  have hN := names_of cfg hv.names
  obtain ⟨e, he, sd⟩ := Sound.init (K := tp.good) hv hg hN f0
  have hinit : ∃ st0, cfg.initWith prep srcs arr proc f0 ds = .ok st0 := by
    unfold SimCfg.initWith
    rw [init_conc cfg (by have := hsz.buffer; omega) hv.names, he]
    simp only [Except.map, conc]
    obtain ⟨s', T', g1, _⟩ := ha.prepares e.proc e.sig sd.proc
    rw [g1]
    exact ⟨_, rfl⟩
  obtain ⟨st0, hst0⟩ := hinit
  obtain ⟨_, e1, e0, he1, hI, g3, _, g5, g6, g7, _⟩ := ha.begin hsz hg hst0
  rw [he] at he1
  cases he1
  exact ⟨st0, e0, hst0, hI, g3, by rw [g5]; exact sd.streams, by rw [g6]; exact sd.filts, by rw [g7]; exact sd.arr, hI.good⟩

/-- The scene after several runs. -/
theorem AncTape.valid (ha : AncTape cfg tp prep q look cnt taps) (hsz : GSizes cfg tp) (hv : ValidScene cfg srcs arr J)
    (hg : tp.good proc) {n : Nat} (h : cfg.AfterRuns prep srcs arr proc n s a pr) : tp.good pr ∧ ValidScene cfg s a J := by
  induction h with
  | start => exact ⟨hg, hv⟩
  | @again n s a pr f ds fin _ _ hr ih =>
    obtain ⟨st0, st1, ds1, log, r1, r2, _, rfl⟩ := runWith_steps hr
    have hN := names_of cfg hv.names
    obtain ⟨st0', e0, hst0, hI, _, sd⟩ := ha.begins hsz ih.2 ih.1 f ds
    rw [r1] at hst0
    cases hst0
    obtain ⟨te, off, r, hT⟩ := GInv.steps hsz hI _ r2
    obtain ⟨te1, t1, t2⟩ := Sound.gSteps _ ih.2 hN sd (cfg.tot + cfg.mbs)
    rw [hT.tape] at t1
    cases t1
    have e1 : st1.eng.srcs = te.srcs := by rw [hT.eng]; rfl
    have e2 : st1.eng.arr = te.arr := by rw [hT.eng]; rfl
    have e3 : st1.eng.proc = te.proc := by rw [hT.eng]; rfl
    refine ⟨by show tp.good st1.eng.proc; rw [e3]; exact t2.proc, ⟨hv.diag, hv.filt, hv.names, hv.channels, ?_, ?_, hv.moves, hv.paths⟩⟩
    · intro b hb
      obtain ⟨off, x, hx⟩ := t2.streams b hb
      exact ⟨_, by show IsStream cfg.srcGet (st1.eng.srcs b.name) b.num _; rw [e1]; exact hx.isStream⟩
    · show J st1.eng.arr
      rw [e2]; exact t2.arr

/-- A run after several others reaches its end if the signals reach back far enough. -/
theorem AncTape.completes (ha : AncTape cfg tp prep q look cnt taps) (hsz : GSizes cfg tp) (hv : ValidScene cfg srcs arr J)
    (hg : tp.good proc) (h0 : CntAt q 0 (cnt proc)) {n : Nat} (h : cfg.AfterRuns prep srcs arr proc n s a pr)
    (hb : look + q.bs ≤ cfg.B + 1 ∨ q.bs ≤ cfg.C ∧ ReachesFrom cfg q look (cfg.handled q n)) (f : Fir R)
    {ds : List (Diag (DData R P V))} (hnd : (ds.map Diag.name).Nodup) (hds : ∀ d ∈ ds, d.Fits cfg tp.good)
    (hreads : ∀ d ∈ ds, ∀ name ∈ d.data.reads, name ≠ "xf") : ∃ fin, cfg.runWith prep s a pr f ds = .ok fin := by
  have hbs : 0 < q.bs := by have := hsz.block; rw [ha.bs] at this; omega
  have hmbs : cfg.mbs = q.bs := hsz.mbs.trans ha.bs
  have hN := names_of cfg hv.names
  obtain ⟨hg1, hv1⟩ := ha.valid hsz hv hg h
  obtain ⟨_, hc1⟩ := ha.after hsz hg h0 h
  obtain ⟨st0, e0, hst0, hI, g3, s0⟩ := ha.begins hsz hv1 hg1 f ds
  obtain ⟨hd0, hl0⟩ := initWith_diags hst0
  have hdvd : q.bs ∣ cfg.handled q n := by
    unfold SimCfg.handled
    exact Dvd.intro_left _ (Nat.mul_assoc _ _ _)
  obtain ⟨st, ds', log, h1, h2⟩ := gLoop_ok (ok := fun name => name ≠ "xf") hsz hv.diag hnd
    ha.past hI hd0 hl0
    (fun k te hte => by
      obtain ⟨te1, g1, g2⟩ := Sound.gSteps _ hv1 hN s0 k
      rw [g1] at hte
      cases hte
      obtain ⟨te', g3, _⟩ := g2.gEngine _ hv1 hN k
      exact ⟨te', g3⟩)
    (fun d hd => (hds d hd).live hv.diag fun _ n _ => by
      obtain ⟨te, g1, g2⟩ := Sound.gSteps _ hv1 hN s0 (n + 1)
      exact ⟨te.proc, by simp only [SimCfg.gProcAfter, g1], g2.proc⟩)
    hreads (fun k hk hm st te hs hte => by
      rw [hmbs] at hk
      rw [ha.bs] at hm
      have hcnt := ha.counts hbs hdvd (by rw [g3]; exact hc1) k hte
      rw [ha.back, hcnt.looks hbs (by
        obtain ⟨i, hi⟩ := hdvd
        rw [hi, Nat.mul_add_mod]; exact hm)]
      exact ha.index hsz hb hI hs hm hk)
  refine ⟨{ st with diags := ds', log := log }, ?_⟩
  unfold SimCfg.runWith
  rw [hst0]
  simp only [h1, h2]

/-- A run after several others raises if at some call they do not. -/
theorem AncTape.raises (ha : AncTape cfg tp prep q look cnt taps) (hsz : GSizes cfg tp) (hv : ValidScene cfg srcs arr J)
    (hg : tp.good proc) (h0 : CntAt q 0 (cnt proc)) {n : Nat} (h : cfg.AfterRuns prep srcs arr proc n s a pr)
    (hC : q.bs ≤ cfg.C) (hb : ¬ ReachesFrom cfg q look (cfg.handled q n)) (f : Fir R)
    {ds : List (Diag (DData R P V))} (hnd : (ds.map Diag.name).Nodup) (hds : ∀ d ∈ ds, d.Fits cfg tp.good)
    (hreads : ∀ d ∈ ds, ∀ name ∈ d.data.reads, name ≠ "xf") : cfg.runWith prep s a pr f ds = .error .value := by
  classical
  have hbs : 0 < q.bs := by have := hsz.block; rw [ha.bs] at this; omega
  have hmbs : cfg.mbs = q.bs := hsz.mbs.trans ha.bs
  have hN := names_of cfg hv.names
  obtain ⟨hg1, hv1⟩ := ha.valid hsz hv hg h
  obtain ⟨_, hc1⟩ := ha.after hsz hg h0 h
  obtain ⟨st0, e0, hst0, hI, g3, s0⟩ := ha.begins hsz hv1 hg1 f ds
  obtain ⟨hd0, hl0⟩ := initWith_diags hst0
  have hdvd : q.bs ∣ cfg.handled q n := by
    unfold SimCfg.handled
    exact Dvd.intro_left _ (Nat.mul_assoc _ _ _)
  generalize cfg.handled q n = K at hb hc1 hdvd
  have hmod : ∀ k, (K + k) % q.bs = k % q.bs := by
    obtain ⟨i, rfl⟩ := hdvd
    intro k
    rw [Nat.mul_add_mod]
  have hex : ∃ k, k < cfg.tot + q.bs ∧ k % q.bs = q.bs - 1 ∧ cfg.indexAt k < looksBack q look (K + k) := by
    unfold ReachesFrom at hb
    push Not at hb
    exact hb
  obtain ⟨g1, g2, g4⟩ := Nat.find_spec hex
  have hmin : ∀ j < Nat.find hex, j % q.bs = q.bs - 1 → looksBack q look (K + j) ≤ cfg.indexAt j := by
    intro j hj hm
    by_contra hn
    exact Nat.find_min hex hj ⟨by omega, hm, by omega⟩
  generalize Nat.find hex = k at g1 g2 g4 hmin
  have hcount : ∀ j {te}, cfg.gSteps tp j e0 = .ok te → CntAt q (K + j) (cnt te.proc) :=
    fun j _ hte => ha.counts hbs hdvd (by rw [g3]; exact hc1) j hte
  obtain ⟨st, hs⟩ := gLoop_until (ok := fun name => name ≠ "xf") (N := k) hsz hv.diag hnd
    ha.past hI hd0 hl0
    (fun k te hte => by
      obtain ⟨te1, g1, g2⟩ := Sound.gSteps _ hv1 hN s0 k
      rw [g1] at hte
      cases hte
      obtain ⟨te', g3, _⟩ := g2.gEngine _ hv1 hN k
      exact ⟨te', g3⟩)
    (fun d hd => (hds d hd).live hv.diag fun _ n _ => by
      obtain ⟨te, g1, g2⟩ := Sound.gSteps _ hv1 hN s0 (n + 1)
      exact ⟨te.proc, by simp only [SimCfg.gProcAfter, g1], g2.proc⟩)
    hreads (by rw [hmbs]; omega) (fun j hj hm st te hs hte => by
      rw [ha.bs] at hm
      rw [ha.back, (hcount j hte).looks hbs (by rw [hmod]; exact hm)]
      exact ha.index hsz (N := k) (.inr ⟨hC, fun i hi hm => hmin i hi hm⟩) hI hs hm hj) k (le_refl _)
  obtain ⟨te, off, r, hT⟩ := GInv.steps hsz hI k hs
  obtain ⟨te1, t1, t2⟩ := Sound.gSteps _ hv1 hN s0 k
  rw [hT.tape] at t1
  cases t1
  obtain ⟨arr', harr, _⟩ := hv.moves te.arr k t2.arr
  have hBB := hsz.buffer
  rw [ha.bs] at hBB
  have hidx := steps_index (by have := hI.pos.sync; omega) (by omega) (by omega) (by omega) k hs
  have hraise : cfg.engine st.n st.idx st.eng = .error .value := by
    have hfit := hT.pos.block_fits (by omega) (by rw [hmbs]; omega) (by rw [hmbs]; exact g2)
    rw [hT.n, hidx, hT.eng]
    refine engine_raises tp hsz.proc (by rw [ha.bs]; exact hbs) off (cfg.B + cfg.C) (cfg.indexAt k) k hsz.look te
      (by rw [ha.bs]; exact g2) ?_ ?_ hT.good harr
    · rw [ha.back, (hcount k hT.tape).looks hbs (by rw [hmod]; exact g2)]
      exact g4
    · rw [ha.bs]
      omega
  have hstep : cfg.steps (k + 1) st0 = .error .value := by
    simp only [SimCfg.steps, hs]
    unfold SimCfg.step
    rw [hraise]
  unfold SimCfg.runWith
  rw [hst0]
  have hlast : cfg.steps (cfg.tot + cfg.mbs) st0 = .error .value := by
    have := steps_raised hstep (cfg.tot + cfg.mbs - (k + 1))
    rwa [Nat.add_sub_cancel' (by omega)] at this
  simp only [hlast]

end

/-! ### FxLMS -/

section
variable {R IR F S A D O : Type} [Field R] {q : FxPar R} {cfg : SimCfg R IR F S A (FxSt R) D O}

theorem fx_anc (h : FxScene cfg q) (hN : Names cfg) :
    AncTape cfg (fxTape (fx_dims h hN)) fxPrepare q (q.ub + q.L - 1) FxSt.cnt fun p => p.ctrl.mat where
  bs := rfl
  ub := h.ub
  least := by have := Nat.le_of_dvd h.ub.1 h.ub.2; have := h.L; omega
  back := fun _ => rfl
  count := fun _ _ _ => rfl
  still := fun s T n hev => by
    show (fxMaybe q (fxGen q s T n) n).1.ctrl.mat = _
    unfold fxMaybe
    rw [if_neg (show ¬ "update_filter" ∈ (fxGen q s T n).1.cnt.event from hev)]
    rfl
  past := fun _ hn => fx_past _ hn
  prepares := fun s T hg => by
    have hd := fx_dims h hN
    replace hg : FxGood q s := hg
    refine ⟨{ s with sec := s.sec.pushBlock (refBlock q T 0 cfg.B) },
      T.write "xf" (-(cfg.B : Int)) cfg.B (s.sec.blockOut (refBlock q T 0 cfg.B)), ?_,
      ⟨hg.cIn, hg.cOut, hg.cLen, hg.sIn, hg.sOut, hg.defs⟩, rfl, rfl, ?_⟩
    · unfold fxPrepare
      have hget := sigGet_back T (-(cfg.B : Int)) (cfg.B + cfg.C) cfg.B cfg.B hd.ref (le_refl _) (by omega)
      rw [sub_self] at hget
      rw [hget]
      simp only
      have e1 : (matOf q.nr cfg.B fun c k => T "ref" c (-(cfg.B : Int) + cfg.B - cfg.B + k)) = refBlock q T 0 cfg.B := by
        unfold refBlock
        exact matOf_congr fun c k _ _ => congrArg (T "ref" c) (by omega)
      rw [e1, s.sec.process_ok (by rw [hg.sIn]; simp [refBlock, matOf])]
      simp only
      have hout : s.sec.blockOut (refBlock q T 0 cfg.B) = matOf (q.nr * q.nl * q.ne) cfg.B fun m k => firOut s.sec.mat
          (((colsOf (refBlock q T 0 cfg.B) cfg.B).take (k + 1)).reverse ++ s.sec.hist) m := by
        unfold Fir.blockOut
        rw [hg.sOut, show numCols (refBlock q T 0 cfg.B) = cfg.B from numCols_block _ hd.nr]
      rw [hout, sigAssign_full T (-(cfg.B : Int)) (cfg.B + cfg.C) 0 cfg.B hd.xf (by omega) _ (by simp) (by simp)]
      simp
    · intro nm c t ht
      unfold Tape.write
      rw [if_neg]
      rintro ⟨hk, h1, h2⟩
      have := ht hk
      omega

theorem fxInit_at (q : FxPar R) (Sp : IrMat R) : CntAt q 0 (fxInit q Sp).cnt := by
  constructor
  · rw [Nat.zero_div, Nat.zero_mul]; rfl
  · rw [Nat.zero_div]
    simp [fxInit, EventSt.init]

end

/-! ### FastBlockFxLMS -/

section
variable {R IR F S A D O : Type} [Field R] {q : FxPar R} {cfg : SimCfg R IR F S A (FastSt R) D O}

/-- The state and the tape after `j` blocks of the history, which begins at time `off`, for a
processor that is in the state `p`. -/
def fastPastOf (q : FxPar R) (p : FastSt R) (T : Tape R) (off : Int) : Nat → FastSt R × Tape R
  | 0 => (p, T)
  | j + 1 =>
    let r := fastPastOf q p T off j
    ({ r.1 with last := refBlock q T (off + ((j + 1) * q.L : Nat)) q.L },
      r.2.write "xf" (off + (j * q.L : Nat)) q.L (fastOut q r.1.ir r.1.last (refBlock q T (off + ((j + 1) * q.L : Nat)) q.L)))

theorem fastPastOf_keeps (q : FxPar R) (p : FastSt R) (T : Tape R) (off : Int) :
    ∀ j, (fastPastOf q p T off j).1.ctrl = p.ctrl ∧ (fastPastOf q p T off j).1.cnt = p.cnt
  | 0 => ⟨rfl, rfl⟩
  | j + 1 => fastPastOf_keeps q p T off j

theorem fastPastOf_sig (q : FxPar R) (p : FastSt R) (T : Tape R) (off : Int) (k : String) (c : Nat) (t : Int) : ∀ j,
    (k = "xf" → t < off ∨ off + (j * q.L : Nat) ≤ t) → (fastPastOf q p T off j).2 k c t = T k c t
  | 0, _ => rfl
  | j + 1, h => by
    have e : (j + 1) * q.L = j * q.L + q.L := by rw [Nat.add_mul, Nat.one_mul]
    have ih := fastPastOf_sig q p T off k c t j (fun hk => by
      have := h hk
      rw [e] at this
      push_cast at this ⊢
      omega)
    show Tape.write _ _ _ _ _ k c t = _
    unfold Tape.write
    rw [if_neg, ih]
    rintro ⟨hk, h1, h2⟩
    have := h hk
    rw [e] at this
    push_cast at this h1 h2
    omega

theorem fastPastOf_cut {q : FxPar R} {p : FastSt R} {dims : String → Option Nat} (hd : FxDims q dims) (T : Tape R) (off : Int)
    (len : Nat) : ∀ j, j * q.L ≤ len →
    ((List.range j).map (· * q.L)).foldlM (fastPrepBlock q) (p, cut dims T off len) =
      .ok ((fastPastOf q p T off j).1, cut dims (fastPastOf q p T off j).2 off len)
  | 0, _ => rfl
  | j + 1, hj => by
    have e : (j + 1) * q.L = j * q.L + q.L := by rw [Nat.add_mul, Nat.one_mul]
    rw [e] at hj
    have ih := fastPastOf_cut (p := p) hd T off len j (by omega)
    rw [List.range_succ, List.map_append, List.foldlM_append, ih]
    show (fastPrepBlock q _ (j * q.L) >>= fun s => pure s) = _
    unfold fastPrepBlock
    dsimp only
    have hget : sigGet (cut dims (fastPastOf q p T off j).2 off len) "ref" (j * q.L : Nat) (((j * q.L : Nat) : Int) + q.L) =
        .ok (matOf q.nr q.L fun c k => T "ref" c (off + ((j + 1) * q.L : Nat) - q.L + k)) := by
      rw [sigGet_cut _ off len "ref" (j * q.L) q.L (by omega)]
      unfold tGet
      rw [hd.ref]
      simp only
      congr 1
      refine matOf_congr fun c k _ _ => ?_
      rw [fastPastOf_sig q p T off "ref" c _ j (fun h => by simp at h)]
      congr 1
      rw [e]
      push_cast
      ring
    rw [hget]
    dsimp only
    rw [osProcess_block]
    dsimp only
    rw [show (matOf q.nr q.L fun c k => T "ref" c (off + ((j + 1) * q.L : Nat) - q.L + k)) =
      refBlock q T (off + ((j + 1) * q.L : Nat)) q.L from rfl]
    have := sigAssign_full (fastPastOf q p T off j).2 off len (j * q.L) q.L hd.xf (by omega)
      (fun o k => circConv (2 * q.L) ((fastPastOf q p T off j).1.ir (o / q.ne % q.nl) (o % q.ne))
        ((fastPastOf q p T off j).1.last.getD (o / (q.nl * q.ne)) [] ++
          (refBlock q T (off + ((j + 1) * q.L : Nat)) q.L).getD (o / (q.nl * q.ne)) []) (q.L + k)) rfl rfl
    unfold fastOut
    rw [this]
    rfl

theorem fast_anc (h : FastScene cfg q) (hN : Names cfg) :
    AncTape cfg (fastTape (fast_dims h hN) h.ub.1) (fastPrepare q) q (2 * q.L) FastSt.cnt fun p => p.ctrl.mat where
  bs := rfl
  ub := by rw [h.ub.1]; exact ⟨h.L, h.ub.2⟩
  least := by have := Nat.le_of_dvd h.L h.ub.2; omega
  back := fun _ => rfl
  count := fun _ _ _ => rfl
  still := fun s T n hev => by
    show (fastMaybe q (fastGen q s T n) n).1.ctrl.mat = _
    unfold fastMaybe
    rw [if_neg (show ¬ "update_filter" ∈ (fastGen q s T n).1.cnt.event from hev)]
    rfl
  past := fun _ hn => fast_past _ _ hn
  prepares := fun s T hg => by
    replace hg : FastGood q s := hg
    have hle := Nat.div_mul_le_self cfg.B q.L
    obtain ⟨k1, k2⟩ := fastPastOf_keeps q s T (-(cfg.B : Int)) (cfg.B / q.L)
    refine ⟨(fastPastOf q s T (-(cfg.B : Int)) (cfg.B / q.L)).1, (fastPastOf q s T (-(cfg.B : Int)) (cfg.B / q.L)).2, ?_, ?_, k2, ?_, ?_⟩
    · unfold fastPrepare blockStarts
      rw [Int.toNat_natCast]
      exact fastPastOf_cut (fast_dims h hN) T (-(cfg.B : Int)) (cfg.B + cfg.C) (cfg.B / q.L) (by omega)
    · exact ⟨by rw [k1]; exact hg.cIn, by rw [k1]; exact hg.cOut, by rw [k1]; exact hg.cLen, by rw [k2]; exact hg.defs⟩
    · show (fastPastOf q s T (-(cfg.B : Int)) (cfg.B / q.L)).1.ctrl.mat = _
      rw [k1]
    · intro nm c t ht
      refine fastPastOf_sig q s T _ nm c t _ fun hk => .inr ?_
      have := ht hk
      generalize cfg.B / q.L * q.L = z at hle ⊢
      omega

theorem fastInit_at (Sp : IrMat R) : CntAt q 0 (fastInit q Sp).cnt := by
  constructor
  · rw [Nat.zero_div, Nat.zero_mul]; rfl
  · rw [Nat.zero_div]
    simp [fastInit, EventSt.init]

end
end Verif

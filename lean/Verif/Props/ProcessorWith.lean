/-
C06, C07 and C08 for processors that work during the preparation of the run, as `FxLMS` and
`FastBlockFxLMS`.
-/
import Verif.Lemmas.CallsWith
import Verif.Props.FastRecording
namespace Verif

section
variable {R IR F S A P D O : Type} [Zero R] [Add R] {cfg : SimCfg R IR F S A P D O}
  {prep : P → Sigs R → Int → Except PyErr (P × Sigs R)}
  {srcs : String → S} {arr : A} {proc : P} {f0 : F} {ds0 : List (Diag D)}

/-- C06 with preparation: whenever `k` iterations are carried out, the processor was called
`k / block_size` times, the `j`-th call being the one of iteration `(j+1) * block_size - 1`: it
received the signals and the index with which that iteration began. -/
theorem C06_prepared_calls {p : Proc R P} (hp : cfg.proc = some p) {st0 st : SimSt R F S A P D O} {k : Nat}
    (hi : cfg.initWith prep srcs arr proc f0 ds0 = .ok st0) (hk : cfg.steps k st0 = .ok st) :
    ∃ l, cfg.CallsWith prep srcs arr proc f0 ds0 k l ∧ l.length = k / p.bs ∧
      ∀ (j : Nat) q, l[j]? = some q → ∃ stj, cfg.steps ((j + 1) * p.bs - 1) st0 = .ok stj ∧
        q = (stj.eng.sig, stj.idx) := by
  obtain ⟨l, hl⟩ := callsWith_exist hi hk
  obtain ⟨h1, s, h2, -, h3⟩ := callsWith_spec hp hl
  rw [hi] at h2
  cases h2
  refine ⟨l, hl, h1, ?_⟩
  intro j q hq
  obtain ⟨stj, g1, g2, _⟩ := h3 j q hq
  exact ⟨stj, g1, g2⟩

/-- C06 with preparation, schedule: iteration `n` adds a call exactly if `n + 1` is a multiple
of the block size, and never more than one. -/
theorem C06_prepared_schedule {p : Proc R P} (hp : cfg.proc = some p) {n : Nat} {l l' : List (Call R)}
    (hl : cfg.CallsWith prep srcs arr proc f0 ds0 n l) (hl' : cfg.CallsWith prep srcs arr proc f0 ds0 (n + 1) l') :
    l'.length = l.length + if p.bs ∣ n + 1 then 1 else 0 := by
  rw [(callsWith_spec hp hl).1, (callsWith_spec hp hl').1, Nat.succ_div]

/-- C06 with preparation, whole run: the blocks processed in a complete run cover more than
`tot_samples` samples. -/
theorem C06_prepared_enough {p : Proc R P} (hp : cfg.proc = some p) (hb : 0 < p.bs)
    {fin : SimSt R F S A P D O} (hrun : cfg.runWith prep srcs arr proc f0 ds0 = .ok fin) :
    ∃ l, cfg.CallsWith prep srcs arr proc f0 ds0 (cfg.tot + p.bs) l ∧ cfg.tot < l.length * p.bs := by
  have hm : cfg.mbs = p.bs := by unfold SimCfg.mbs; rw [hp]
  unfold SimCfg.runWith at hrun
  split at hrun
  · cases hrun
  · rename_i st0 hi
    split at hrun
    · cases hrun
    · rename_i st hk
      rw [hm] at hk
      obtain ⟨l, hl⟩ := callsWith_exist hi hk
      refine ⟨l, hl, ?_⟩
      rw [(callsWith_spec hp hl).1, Nat.add_div_right _ hb, Nat.add_mul, Nat.one_mul]
      have h1 := Nat.div_add_mod cfg.tot p.bs
      have h2 := Nat.mod_lt cfg.tot hb
      rw [Nat.mul_comm] at h1
      omega

end

theorem fx_look_block {R IR F S A D O : Type} [Field R] {cfg : SimCfg R IR F S A (FxSt R) D O} {q : FxPar R}
    (h : FxScene cfg q) (s : FxSt R) : q.bs ≤ fxLook q s := by
  have h1 := Nat.le_of_dvd h.ub.1 h.ub.2
  have h2 := h.L
  unfold fxLook
  split <;> omega

theorem fast_look_block {R IR F S A D O : Type} [Field R] {cfg : SimCfg R IR F S A (FastSt R) D O} {q : FxPar R}
    (h : FastScene cfg q) (s : FastSt R) : q.bs ≤ fastLook q s := by
  have h1 := Nat.le_of_dvd h.L h.ub.2
  unfold fastLook
  split <;> omega

section
variable {R IR F S A D O : Type} [Field R] {cfg : SimCfg R IR F S A (FxSt R) D O} {q : FxPar R} {Sp : IrMat R}
  {srcs : String → S} {arr : A} {f0 : F} {ds0 : List (Diag D)} {st0 : SimSt R F S A (FxSt R) D O}

/-- C07 for `FxLMS`: on its `j`-th call it finds, in the block of samples just before the
current index, exactly the samples produced for the time indices
`j*block_size, ..., (j+1)*block_size - 1`, for every signal of the scene and every channel. -/
theorem C07_fxlms (h : FxScene cfg q) (hi : cfg.initWith fxPrepare srcs arr (fxInit q Sp) f0 ds0 = .ok st0) {k : Nat}
    {l : List (Call R)} (hl : cfg.CallsWith fxPrepare srcs arr (fxInit q Sp) f0 ds0 k l) {j : Nat} {sig : Sigs R} {i : Int}
    (hj : l[j]? = some (sig, i)) :
    (q.bs : Int) ≤ i ∧ ∀ name, name ≠ "xf" → ∀ c x v, x < q.bs →
      (sig.At name c ((i - q.bs).toNat + x) v ↔ cfg.Produced st0 name c (j * q.bs + x) v) := by
  obtain ⟨-, stj, st', g1, g3, g2⟩ := callsWith_at h.proc hl hi hj
  cases g2
  obtain ⟨hN, e0, -, hI⟩ := fx_init h Sp hi
  obtain ⟨k1, k2, -⟩ := gCall_window (fx_sizes h hN) hI g1 g3 (fx_look_block h)
  exact ⟨k1, fun name hn => k2 name (fx_past _ hn)⟩

/-- C08 for `FxLMS`: whenever it is called, the signals of all arrays exist with one row per
channel, and the block after the current index lies inside all signals. -/
theorem C08_fxlms (h : FxScene cfg q) {k : Nat} {l : List (Call R)}
    (hl : cfg.CallsWith fxPrepare srcs arr (fxInit q Sp) f0 ds0 k l) {sig : Sigs R} {i : Int} (hj : (sig, i) ∈ l) :
    (∀ a ∈ cfg.arrays, ∃ m, sig a.name = some m ∧ m.length = a.num) ∧
    ∀ name m row, sig name = some m → row ∈ m → (q.bs : Int) ≤ i ∧ i + q.bs ≤ row.length := by
  obtain ⟨-, s, hi, -⟩ := callsWith_spec h.proc hl
  obtain ⟨j, hj⟩ := List.mem_iff_getElem?.1 hj
  obtain ⟨-, stj, st', g1, g3, g2⟩ := callsWith_at h.proc hl hi hj
  cases g2
  obtain ⟨hN, e0, -, hI⟩ := fx_init h Sp hi
  obtain ⟨k1, -, k3, k4⟩ := gCall_window (fx_sizes h hN) hI g1 g3 (fx_look_block h)
  exact ⟨k3 hN, fun name m row h1 h2 => ⟨k1, k4 name m row h1 h2⟩⟩

end

section
variable {R IR F S A D O : Type} [Field R] {cfg : SimCfg R IR F S A (FastSt R) D O} {q : FxPar R} {Sp : IrMat R}
  {srcs : String → S} {arr : A} {f0 : F} {ds0 : List (Diag D)} {st0 : SimSt R F S A (FastSt R) D O}

/-- C07 for `FastBlockFxLMS`. -/
theorem C07_fast (h : FastScene cfg q) (hi : cfg.initWith (fastPrepare q) srcs arr (fastInit q Sp) f0 ds0 = .ok st0) {k : Nat}
    {l : List (Call R)} (hl : cfg.CallsWith (fastPrepare q) srcs arr (fastInit q Sp) f0 ds0 k l) {j : Nat} {sig : Sigs R} {i : Int}
    (hj : l[j]? = some (sig, i)) :
    (q.bs : Int) ≤ i ∧ ∀ name, name ≠ "xf" → ∀ c x v, x < q.bs →
      (sig.At name c ((i - q.bs).toNat + x) v ↔ cfg.Produced st0 name c (j * q.bs + x) v) := by
  obtain ⟨-, stj, st', g1, g3, g2⟩ := callsWith_at h.proc hl hi hj
  cases g2
  obtain ⟨hN, e0, -, hI⟩ := fast_begin h Sp hi
  obtain ⟨k1, k2, -⟩ := gCall_window (fast_sizes h hN) hI g1 g3 (fast_look_block h)
  exact ⟨k1, fun name hn => k2 name (fast_past _ _ hn)⟩

/-- C08 for `FastBlockFxLMS`. -/
theorem C08_fast (h : FastScene cfg q) {k : Nat} {l : List (Call R)}
    (hl : cfg.CallsWith (fastPrepare q) srcs arr (fastInit q Sp) f0 ds0 k l) {sig : Sigs R} {i : Int} (hj : (sig, i) ∈ l) :
    (∀ a ∈ cfg.arrays, ∃ m, sig a.name = some m ∧ m.length = a.num) ∧
    ∀ name m row, sig name = some m → row ∈ m → (q.bs : Int) ≤ i ∧ i + q.bs ≤ row.length := by
  obtain ⟨-, s, hi, -⟩ := callsWith_spec h.proc hl
  obtain ⟨j, hj⟩ := List.mem_iff_getElem?.1 hj
  obtain ⟨-, stj, st', g1, g3, g2⟩ := callsWith_at h.proc hl hi hj
  cases g2
  obtain ⟨hN, e0, -, hI⟩ := fast_begin h Sp hi
  obtain ⟨k1, -, k3, k4⟩ := gCall_window (fast_sizes h hN) hI g1 g3 (fast_look_block h)
  exact ⟨k3 hN, fun name m row h1 h2 => ⟨k1, k4 name m row h1 h2⟩⟩

end

/-- The run of C151 (8 samples and one block): 9 calls, each of which finds the next block of the
reference. -/
example : ∃ (st0 : FxS) (l : List (Call ℚ)), l.length = 9 ∧
    fxSc.CallsWith fxPrepare (fun _ => 0) () (fxInit (fxDemo 1 2 2 .sample) (fxSec [1, -1])) demoFilt fxDs 9 l ∧
    ∀ j < 9, ∃ sig i, l[j]? = some (sig, i) ∧ (1 : Int) ≤ i ∧
      (∀ v, sig.At "ref" 0 ((i - 1).toNat) v ↔ fxSc.Produced st0 "ref" 0 j v) ∧
      ∀ m row, sig "ref" = some m → row ∈ m → i + 1 ≤ row.length := by
  obtain ⟨st0, fin, h, -⟩ := fx_demo_run
  obtain ⟨l, h1, -⟩ := C06_prepared_enough h.scene.proc (by decide) h.run
  have hlen : l.length = 9 := (callsWith_spec h.scene.proc h1).1
  refine ⟨st0, l, hlen, h1, fun j hj => ?_⟩
  have hq : l[j]? = some (l[j]'(by omega)) := List.getElem?_eq_getElem _
  obtain ⟨g1, g2⟩ := C07_fxlms h.scene h.init h1 hq
  refine ⟨_, _, hq, g1, fun v => ?_, fun m row k1 k2 => ((C08_fxlms h.scene h1 (List.getElem_mem _)).2 _ _ _ k1 k2).2⟩
  have := g2 "ref" (by decide) 0 0 v (by decide)
  simp [fxDemo] at this ⊢
  exact this

/-- The run of C183. -/
example : ∃ (st0 : FastS) (l : List (Call ℚ)), l.length = 9 ∧
    fastSc.CallsWith (fastPrepare (fxDemo 1 2 2 .block)) (fun _ => 0) () (fastInit (fxDemo 1 2 2 .block) (fxSec [2])) demoFilt fastDs 9 l ∧
    ∀ j < 9, ∃ sig i, l[j]? = some (sig, i) ∧ (1 : Int) ≤ i ∧
      (∀ v, sig.At "ref" 0 ((i - 1).toNat) v ↔ fastSc.Produced st0 "ref" 0 j v) ∧
      ∀ m row, sig "ref" = some m → row ∈ m → i + 1 ≤ row.length := by
  obtain ⟨st0, fin, h, -⟩ := fast_demo_run
  obtain ⟨l, h1, -⟩ := C06_prepared_enough h.scene.proc (by decide) h.run
  have hlen : l.length = 9 := (callsWith_spec h.scene.proc h1).1
  refine ⟨st0, l, hlen, h1, fun j hj => ?_⟩
  have hq : l[j]? = some (l[j]'(by omega)) := List.getElem?_eq_getElem _
  obtain ⟨g1, g2⟩ := C07_fast h.scene h.init h1 hq
  refine ⟨_, _, hq, g1, fun v => ?_, fun m row k1 k2 => ((C08_fast h.scene h1 (List.getElem_mem _)).2 _ _ _ k1 k2).2⟩
  have := g2 "ref" (by decide) 0 0 v (by decide)
  simp [fxDemo] at this ⊢
  exact this

end Verif

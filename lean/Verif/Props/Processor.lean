/-
C06, C07, C08: when the processor is called and what it finds in the signals.
-/
import Verif.Lemmas.Calls
import Verif.Lemmas.Diagnostics
import Verif.Demo.Small
namespace Verif

section
variable {R IR F S A P D O : Type} [Zero R] [Add R] {cfg : SimCfg R IR F S A P D O}
  {srcs : String → S} {arr : A} {proc : P} {f0 : F} {ds0 : List (Diag D)}

/-- C06. Whenever `k` iterations are carried out, the processor was called
`k / block_size` times, the `j`-th call being the one of iteration
`(j+1) * block_size - 1`: it received the signals and the index with which that
iteration began. -/
theorem C06_calls {p : Proc R P} (hp : cfg.proc = some p) {st0 st : SimSt R F S A P D O} {k : Nat}
    (hi : cfg.init srcs arr proc f0 ds0 = .ok st0) (hk : cfg.steps k st0 = .ok st) :
    ∃ l, cfg.Calls srcs arr proc f0 ds0 k l ∧ l.length = k / p.bs ∧
      ∀ (j : Nat) q, l[j]? = some q → ∃ stj, cfg.steps ((j + 1) * p.bs - 1) st0 = .ok stj ∧
        q = (stj.eng.sig, stj.idx) := by
  obtain ⟨l, hl⟩ := calls_exist cfg hi hk
  obtain ⟨h1, s, h2, _, h3⟩ := calls_spec cfg hp hl
  rw [hi] at h2
  cases h2
  refine ⟨l, hl, h1, ?_⟩
  intro j q hq
  obtain ⟨stj, g1, g2, _⟩ := h3 j q hq
  exact ⟨stj, g1, g2⟩

/-- C06, schedule: iteration `n` adds a call exactly if `n + 1` is a multiple of
the block size, and never more than one. -/
theorem C06_schedule {p : Proc R P} (hp : cfg.proc = some p) {n : Nat} {l l' : List (Call R)}
    (hl : cfg.Calls srcs arr proc f0 ds0 n l) (hl' : cfg.Calls srcs arr proc f0 ds0 (n + 1) l') :
    l'.length = l.length + if p.bs ∣ n + 1 then 1 else 0 := by
  rw [(calls_spec cfg hp hl).1, (calls_spec cfg hp hl').1, Nat.succ_div]

/-- C06, whole run: the blocks processed in a complete run cover more than
`tot_samples` samples. -/
theorem C06_enough {p : Proc R P} (hp : cfg.proc = some p) (hb : 0 < p.bs)
    {fin : SimSt R F S A P D O} (hrun : cfg.run srcs arr proc f0 ds0 = .ok fin) :
    ∃ l, cfg.Calls srcs arr proc f0 ds0 (cfg.tot + p.bs) l ∧ cfg.tot < l.length * p.bs := by
  have hm : cfg.mbs = p.bs := by unfold SimCfg.mbs; rw [hp]
  unfold SimCfg.run at hrun
  split at hrun
  · cases hrun
  · rename_i st0 hi
    split at hrun
    · cases hrun
    · rename_i st hk
      rw [hm] at hk
      obtain ⟨l, hl⟩ := calls_exist cfg hi hk
      refine ⟨l, hl, ?_⟩
      rw [(calls_spec cfg hp hl).1, Nat.add_div_right _ hb, Nat.add_mul, Nat.one_mul]
      have h1 := Nat.div_add_mod cfg.tot p.bs
      have h2 := Nat.mod_lt cfg.tot hb
      rw [Nat.mul_comm] at h1
      omega

end

section
variable {R IR F S A P V : Type} [Field R] [DecidableEq R]
  {cfg : SimCfg R IR F S A P (DData R P V) (DOut R V)} {lp : ProcView R P}
  {srcs : String → S} {arr : A} {proc : P} {f0 : F} {ds0 : List (Diag (DData R P V))}

/-- C07. The `j`-th call finds, in the block of samples just before the current
index, exactly the samples produced for the time indices
`j*block_size, ..., (j+1)*block_size - 1`, for every signal and channel. -/
theorem C07_tiling {p : Proc R P} (hp : cfg.proc = some p) (had : Admissible cfg lp)
    (hH : p.bs ≤ lp.H) (hdiag : cfg.diag = diagOps R P V) (hnd : (ds0.map Diag.name).Nodup)
    {st0 : SimSt R F S A P (DData R P V) (DOut R V)}
    (hi : cfg.init srcs arr proc f0 ds0 = .ok st0) {k : Nat} {l : List (Call R)}
    (hl : cfg.Calls srcs arr proc f0 ds0 k l) {j : Nat} {sig : Sigs R} {i : Int}
    (hj : l[j]? = some (sig, i)) :
    (p.bs : Int) ≤ i ∧ ∀ name c x v, x < p.bs →
      (sig.At name c ((i - p.bs).toNat + x) v ↔ cfg.Produced st0 name c (j * p.bs + x) v) := by
  have hloc : cfg.diag.Local cfg.dims := by rw [hdiag]; exact diagOps_local _
  obtain ⟨_, s, h2, _, h3⟩ := calls_spec cfg hp hl
  rw [hi] at h2
  cases h2
  obtain ⟨stj, g1, g2, hb⟩ := h3 j _ hj
  cases g2
  obtain ⟨e0, he0, te, off, r, hI⟩ := call_state cfg had hloc hnd hi g1
  have hm : cfg.mbs = p.bs := by unfold SimCfg.mbs; rw [hp]
  have hlow := hI.pos.low
  have hB := (had.proc p hp).2
  have hsync := hI.pos.sync
  have hup := hI.pos.idx_lt had.block had.chunk
  have hmul : (j + 1) * p.bs = j * p.bs + p.bs := by rw [Nat.add_mul, Nat.one_mul]
  refine ⟨by omega, ?_⟩
  intro name c x v hx
  rw [produced_iff cfg lp had hloc hnd hi he0 g1 hI.tape (t := j * p.bs + x) (by omega), hI.eng]
  show (cut cfg.dims te.sig off (cfg.B + cfg.C)).At _ _ _ _ ↔ _
  rw [cut_at]
  have e1 : off + (((stj.idx - p.bs).toNat + x : Nat) : Int) = ((j * p.bs + x : Nat) : Int) - 1 := by
    omega
  rw [e1]
  constructor
  · rintro ⟨num, a1, a2, a3, a4⟩; exact ⟨num, a1, a2, a4⟩
  · rintro ⟨num, a1, a2, a4⟩; exact ⟨num, a1, a2, by omega, a4⟩

/-- C08. Whenever the processor is called, the look-back window of `lp.H`
samples before the current index and the block after it lie inside all signals,
and the signal of every array exists with one row per channel. -/
theorem C08_block_fits {p : Proc R P} (hp : cfg.proc = some p) (had : Admissible cfg lp)
    (hdiag : cfg.diag = diagOps R P V) (hnd : (ds0.map Diag.name).Nodup) {k : Nat}
    {l : List (Call R)} (hl : cfg.Calls srcs arr proc f0 ds0 k l) {sig : Sigs R} {i : Int}
    (hj : (sig, i) ∈ l) :
    (∀ a ∈ cfg.arrays, ∃ m, sig a.name = some m ∧ m.length = a.num) ∧
    ∀ name m row, sig name = some m → row ∈ m → (lp.H : Int) ≤ i ∧ i + p.bs ≤ row.length := by
  have hloc : cfg.diag.Local cfg.dims := by rw [hdiag]; exact diagOps_local _
  obtain ⟨_, s, hi, _, h3⟩ := calls_spec cfg hp hl
  obtain ⟨j, hj⟩ := List.mem_iff_getElem?.1 hj
  obtain ⟨stj, g1, g2, hb⟩ := h3 j _ hj
  cases g2
  obtain ⟨e0, he0, te, off, r, hI⟩ := call_state cfg had hloc hnd hi g1
  have hm : cfg.mbs = p.bs := by unfold SimCfg.mbs; rw [hp]
  have hN := names_of cfg (init_nodup cfg hi)
  rw [hI.eng]
  constructor
  · intro a ha
    refine ⟨matOf a.num (cfg.B + cfg.C) fun c q => te.sig a.name c (off + q), ?_, by simp [matOf]⟩
    show cut _ _ _ _ _ = _
    unfold cut
    rw [hN.arr a ha]; rfl
  · intro name m row h1 h2
    have hlen : row.length = cfg.B + cfg.C := by
      change cut _ _ _ _ _ = _ at h1
      unfold cut at h1
      cases hd : cfg.dims name with
      | none => rw [hd] at h1; cases h1
      | some num =>
        rw [hd] at h1
        cases h1
        unfold matOf at h2
        rw [List.mem_map] at h2
        obtain ⟨c, _, rfl⟩ := h2
        simp
    have hlow := hI.pos.low
    have hB := (had.proc p hp).2
    have hC := (had.proc p hp).1
    have hch := had.chunk
    have hmod : ((j + 1) * p.bs - 1) % p.bs = p.bs - 1 := by
      have : (j + 1) * p.bs - 1 = p.bs * j + (p.bs - 1) := by
        rw [Nat.add_mul, Nat.one_mul, Nat.mul_comm]; omega
      rw [this, Nat.mul_add_mod]
      exact Nat.mod_eq_of_lt (by omega)
    have := hI.pos.block_fits had.block (by omega) (by rw [hm]; exact hmod)
    rw [hlen]
    exact ⟨by omega, by omega⟩

end

/-- All hypotheses hold in the demonstration run: 8 iterations, 4 calls. -/
example : ∃ (st0 : DemoSt) (l : List (Call ℚ)), l.length = 4 ∧
    (demoCfg 4 2 6).Calls (fun _ => 0) () demoProc demoFilt demoDs 8 l ∧
    ∀ j < 4, ∃ sig i, l[j]? = some (sig, i) ∧ (2 : Int) ≤ i ∧
      (∀ c x v, x < 2 → (sig.At "mic" c ((i - 2).toNat + x) v ↔
        (demoCfg 4 2 6).Produced st0 "mic" c (j * 2 + x) v)) ∧
      ∀ m row, sig "mic" = some m → row ∈ m → i + 2 ≤ row.length := by
  obtain ⟨st0, fin, h, _⟩ := demo_completed
  have hp : (demoCfg 4 2 6).proc = some (debugProc 6 2) := rfl
  obtain ⟨l, h1, h2⟩ := C06_enough hp (by decide) h.run
  have hlen : l.length = 4 := (calls_spec _ hp h1).1
  refine ⟨st0, l, hlen, h1, ?_⟩
  intro j hj
  have hq : l[j]? = some (l[j]'(by omega)) := List.getElem?_eq_getElem _
  refine ⟨(l[j]'(by omega)).1, (l[j]'(by omega)).2, hq, ?_, ?_, ?_⟩
  · exact (C07_tiling hp demo_admissible (le_refl _) rfl h.names h.init h1 hq).1
  · intro c x v hx
    exact (C07_tiling hp demo_admissible (le_refl _) rfl h.names h.init h1 hq).2 "mic" c x v hx
  · intro m row a1 a2
    exact ((C08_block_fits hp demo_admissible rfl h.names h1 (List.getElem_mem _)).2 "mic" m row a1 a2).2

end Verif

/-
Lemmas on the calls of a processor that works during the preparation of the run.
-/
import Verif.Spec.TraceWith
import Verif.Lemmas.Calls
import Verif.Lemmas.TapeProc
namespace Verif
section
variable {R IR F S A P D O : Type} [Zero R] [Add R] {cfg : SimCfg R IR F S A P D O}
  {prep : P → Sigs R → Int → Except PyErr (P × Sigs R)}

theorem initWith_forget (srcs : String → S) (arr : A) (proc : P) (f0 : F) (ds : List (Diag D)) :
    cfg.initWith prep srcs arr proc f0 ds =
      (cfg.traced.initWith (tracedPrep prep) srcs arr (proc, []) f0 ds).map SimSt.forget := by
  unfold SimCfg.initWith
  rw [init_forget]
  cases cfg.traced.init srcs arr (proc, []) f0 ds with
  | error x => rfl
  | ok st =>
    dsimp only [Except.map]
    unfold tracedPrep
    dsimp only [SimSt.forget, Eng.forget]
    cases prep st.eng.proc.1 st.eng.sig st.idx with
    | error x => rfl
    | ok r => rfl

theorem initWith_start {srcs : String → S} {arr : A} {proc : P} {f0 : F} {ds : List (Diag D)}
    {t0 : SimSt R F S A (P × List (Call R)) D O}
    (h : cfg.traced.initWith (tracedPrep prep) srcs arr (proc, []) f0 ds = .ok t0) : t0.n = 0 ∧ t0.eng.proc.2 = [] := by
  unfold SimCfg.initWith at h
  split at h
  · cases h
  · rename_i st hst
    obtain ⟨g1, g2⟩ := init_start cfg.traced hst
    dsimp only at h
    split at h
    · cases h
    · rename_i p sig hp
      cases h
      refine ⟨g1, ?_⟩
      unfold tracedPrep at hp
      split at hp
      · cases hp
      · cases hp
        show st.eng.proc.2 = []
        rw [g2]

theorem callsWith_exist {srcs : String → S} {arr : A} {proc : P} {f0 : F} {ds0 : List (Diag D)}
    {st0 st : SimSt R F S A P D O} {k : Nat} (hi : cfg.initWith prep srcs arr proc f0 ds0 = .ok st0)
    (hk : cfg.steps k st0 = .ok st) : ∃ l, cfg.CallsWith prep srcs arr proc f0 ds0 k l := by
  rw [initWith_forget] at hi
  cases ht : cfg.traced.initWith (tracedPrep prep) srcs arr (proc, []) f0 ds0 with
  | error x => rw [ht] at hi; cases hi
  | ok t0 =>
    rw [ht] at hi
    cases hi
    rw [steps_forget] at hk
    cases hs : cfg.traced.steps k t0 with
    | error x => rw [hs] at hk; cases hk
    | ok t => exact ⟨_, t0, t, ht, hs, rfl⟩

theorem callsWith_spec {p : Proc R P} (hp : cfg.proc = some p) {srcs : String → S} {arr : A} {proc : P}
    {f0 : F} {ds0 : List (Diag D)} {k : Nat} {l : List (Call R)}
    (h : cfg.CallsWith prep srcs arr proc f0 ds0 k l) :
    l.length = k / p.bs ∧ ∃ st0, cfg.initWith prep srcs arr proc f0 ds0 = .ok st0 ∧ (∃ st, cfg.steps k st0 = .ok st) ∧
      ∀ (j : Nat) q, l[j]? = some q → ∃ stj, cfg.steps ((j + 1) * p.bs - 1) st0 = .ok stj ∧
        q = (stj.eng.sig, stj.idx) ∧ 0 < p.bs := by
  obtain ⟨t0, t, h1, h2, rfl⟩ := h
  obtain ⟨g1, g2⟩ := initWith_start h1
  obtain ⟨g3, g4⟩ := steps_notes cfg hp g1 g2 k h2
  refine ⟨g3, t0.forget, by rw [initWith_forget, h1]; rfl, ⟨t.forget, by rw [steps_forget, h2]; rfl⟩, ?_⟩
  intro j q hq
  obtain ⟨stj, i1, i2, i3⟩ := g4 j q hq
  exact ⟨stj.forget, by rw [steps_forget, i1]; rfl, i2, i3⟩

theorem callsWith_at {p : Proc R P} (hp : cfg.proc = some p) {srcs : String → S} {arr : A} {proc : P}
    {f0 : F} {ds0 : List (Diag D)} {k : Nat} {l : List (Call R)}
    (h : cfg.CallsWith prep srcs arr proc f0 ds0 k l) {st0 : SimSt R F S A P D O}
    (hi : cfg.initWith prep srcs arr proc f0 ds0 = .ok st0) {j : Nat} {q : Call R} (hq : l[j]? = some q) :
    0 < p.bs ∧ ∃ stj st', cfg.steps ((j + 1) * p.bs - 1) st0 = .ok stj ∧ cfg.step stj = .ok st' ∧ q = (stj.eng.sig, stj.idx) := by
  obtain ⟨h1, s, h2, ⟨st, h3⟩, h4⟩ := callsWith_spec hp h
  rw [hi] at h2
  cases h2
  obtain ⟨stj, g1, g2, g3⟩ := h4 j q hq
  have hj : j < k / p.bs := by
    rw [← h1]
    exact (List.getElem?_eq_some_iff.1 hq).1
  have hle : (j + 1) * p.bs ≤ k := le_trans (Nat.mul_le_mul_right _ hj) (Nat.div_mul_le_self _ _)
  obtain ⟨m, hm⟩ := Nat.exists_eq_add_of_le hle
  rw [hm] at h3
  obtain ⟨s', hs'⟩ := steps_prefix cfg m h3
  have h5 : (j + 1) * p.bs = ((j + 1) * p.bs - 1) + 1 := by
    have : 0 < (j + 1) * p.bs := Nat.mul_pos (Nat.succ_pos j) g3
    omega
  rw [h5] at hs'
  simp only [SimCfg.steps] at hs'
  rw [g1] at hs'
  exact ⟨g3, stj, s', g1, hs', g2⟩

/-- What a processor that works on the tape finds before the current index. -/
theorem gCall_window {p : Proc R P} {tp : TapeProc cfg.dims p} (hsz : GSizes cfg tp) {st0 stj : SimSt R F S A P D O}
    {e0 : Eng (Tape R) F S A P} {r0 : Int} (hI0 : GInv tp e0 0 st0 e0 (-(cfg.B : Int)) r0) {j : Nat}
    (hk : cfg.steps ((j + 1) * p.bs - 1) st0 = .ok stj) {st' : SimSt R F S A P D O} (hst : cfg.step stj = .ok st')
    (hH : ∀ s, p.bs ≤ tp.H s) :
    (p.bs : Int) ≤ stj.idx ∧ (∀ name, tp.Past name → ∀ c x v, x < p.bs →
      (stj.eng.sig.At name c ((stj.idx - p.bs).toNat + x) v ↔ cfg.Produced st0 name c (j * p.bs + x) v)) ∧
    (Names cfg → ∀ a ∈ cfg.arrays, ∃ m, stj.eng.sig a.name = some m ∧ m.length = a.num) ∧
    ∀ name m row, stj.eng.sig name = some m → row ∈ m → stj.idx + p.bs ≤ row.length := by
  obtain ⟨te, off, r, hI⟩ := GInv.steps hsz hI0 _ hk
  have hb := hsz.block
  have hm := hsz.mbs
  have hlow := hI.pos.low
  have hB := hsz.buffer
  have hsync := hI.pos.sync
  have hup := hI.pos.idx_lt (by omega) hsz.chunk
  have hmul : (j + 1) * p.bs = j * p.bs + p.bs := by rw [Nat.add_mul, Nat.one_mul]
  have hmod : ((j + 1) * p.bs - 1) % p.bs = p.bs - 1 := by
    have : (j + 1) * p.bs - 1 = p.bs * j + (p.bs - 1) := by
      rw [Nat.add_mul, Nat.one_mul, Nat.mul_comm]; omega
    rw [this, Nat.mul_add_mod]
    exact Nat.mod_eq_of_lt (by omega)
  have hidx : (p.bs : Int) ≤ stj.idx := by
    obtain ⟨e, he, -, -⟩ := step_parts cfg hst
    have h1 := hI.reach hsz he hmod
    have h2 := hH te.proc
    omega
  refine ⟨hidx, ?_, ?_, ?_⟩
  · intro name hn c x v hx
    rw [gProduced_iff hsz hI0 hk hI.tape (t := j * p.bs + x) (by omega) hn, hI.eng]
    show (cut cfg.dims te.sig off (cfg.B + cfg.C)).At _ _ _ _ ↔ _
    rw [cut_at]
    have e1 : off + (((stj.idx - p.bs).toNat + x : Nat) : Int) = ((j * p.bs + x : Nat) : Int) - 1 := by
      omega
    rw [e1]
    constructor
    · rintro ⟨num, a1, a2, a3, a4⟩; exact ⟨num, a1, a2, a4⟩
    · rintro ⟨num, a1, a2, a4⟩; exact ⟨num, a1, a2, by omega, a4⟩
  · intro hN a ha
    refine ⟨matOf a.num (cfg.B + cfg.C) fun c q => te.sig a.name c (off + q), ?_, by simp [matOf]⟩
    rw [hI.eng]
    show cut _ _ _ _ _ = _
    unfold cut
    rw [hN.arr a ha]; rfl
  · intro name m row h1 h2
    rw [hI.eng] at h1
    have hlen : row.length = cfg.B + cfg.C := by
      change cut _ _ _ _ _ = _ at h1
      unfold cut at h1
      cases hd : cfg.dims name with
      | none => rw [hd] at h1; cases h1
      | some num =>
        rw [hd] at h1
        cases h1
        unfold matOf at h2
        rw [List.mem_map] at h2
        obtain ⟨c, _, rfl⟩ := h2
        simp
    have hch := hsz.fits
    have := hI.pos.block_fits (by omega) (by omega) (by rw [hm]; exact hmod)
    rw [hlen]
    omega

end
end Verif

import Verif.Lemmas.Trace
import Verif.Lemmas.Propagate

namespace Verif
section
variable {R IR F S A P D O : Type} [Zero R] [Add R] (cfg : SimCfg R IR F S A P D O)

theorem init_start {srcs : String → S} {arr : A} {proc : P} {f0 : F} {ds0 : List (Diag D)}
    {st0 : SimSt R F S A P D O} (h : cfg.init srcs arr proc f0 ds0 = .ok st0) :
    st0.n = 0 ∧ st0.eng.proc = proc := by
  unfold SimCfg.init at h
  split at h
  · cases h
  · split at h
    · cases h
    · split at h
      · cases h
      · rename_i e he
        cases h
        refine ⟨rfl, ?_⟩
        show e.proc = proc
        unfold SimCfg.prepare at he
        split at he
        · cases he
        · rename_i e1 he1
          have h1 := foldlM_proc _ (fun e x e' hx => by
            unfold SimCfg.prepSource at hx
            split at hx
            · cases hx
            · split at hx
              · cases hx
              · cases hx; rfl) _ he1
          have h2 := foldlM_proc _ (fun e x e' hx => by
            unfold SimCfg.prepPair at hx
            split at hx
            · cases hx
            · split at hx
              · cases hx
              · split at hx
                · cases hx
                · split at hx
                  · cases hx
                  · cases hx; rfl) _ he
          rw [h2, h1]

/-- Every run can be observed. -/
theorem calls_exist {srcs : String → S} {arr : A} {proc : P} {f0 : F} {ds0 : List (Diag D)}
    {st0 st : SimSt R F S A P D O} {k : Nat} (hi : cfg.init srcs arr proc f0 ds0 = .ok st0)
    (hk : cfg.steps k st0 = .ok st) : ∃ l, cfg.Calls srcs arr proc f0 ds0 k l := by
  rw [init_forget] at hi
  cases ht : cfg.traced.init srcs arr (proc, []) f0 ds0 with
  | error x => rw [ht] at hi; cases hi
  | ok t0 =>
    rw [ht] at hi
    cases hi
    rw [steps_forget] at hk
    cases hs : cfg.traced.steps k t0 with
    | error x => rw [hs] at hk; cases hk
    | ok t => exact ⟨_, t0, t, ht, hs, rfl⟩

theorem calls_spec {p : Proc R P} (hp : cfg.proc = some p) {srcs : String → S} {arr : A} {proc : P}
    {f0 : F} {ds0 : List (Diag D)} {k : Nat} {l : List (Call R)}
    (h : cfg.Calls srcs arr proc f0 ds0 k l) :
    l.length = k / p.bs ∧ ∃ st0, cfg.init srcs arr proc f0 ds0 = .ok st0 ∧
      (∃ st, cfg.steps k st0 = .ok st) ∧
      ∀ (j : Nat) q, l[j]? = some q → ∃ stj, cfg.steps ((j + 1) * p.bs - 1) st0 = .ok stj ∧
        q = (stj.eng.sig, stj.idx) ∧ 0 < p.bs := by
  obtain ⟨t0, t, h1, h2, rfl⟩ := h
  obtain ⟨g1, g2⟩ := init_start cfg.traced h1
  obtain ⟨g3, g4⟩ := steps_notes cfg hp g1 (by rw [g2]) k h2
  refine ⟨g3, t0.forget, by rw [init_forget, h1]; rfl, ⟨t.forget, by rw [steps_forget, h2]; rfl⟩, ?_⟩
  intro j q hq
  obtain ⟨stj, i1, i2, i3⟩ := g4 j q hq
  exact ⟨stj.forget, by rw [steps_forget, i1]; rfl, i2, i3⟩

/-- State of the tape when the processor is called. -/
theorem call_state {lp : ProcView R P} (had : Admissible cfg lp) (hl : cfg.diag.Local cfg.dims)
    {srcs : String → S} {arr : A} {proc : P} {f0 : F} {ds0 : List (Diag D)}
    (hnd : (ds0.map Diag.name).Nodup) {st0 stj : SimSt R F S A P D O} {k : Nat}
    (hi : cfg.init srcs arr proc f0 ds0 = .ok st0) (hk : cfg.steps k st0 = .ok stj) :
    ∃ e0, cfg.tInit srcs arr proc f0 = .ok e0 ∧
      ∃ te off r, LoopInv cfg lp e0 ds0 k stj te off r := by
  have hB : 1 ≤ cfg.B := by have := had.buffer; omega
  rw [init_conc cfg hB (init_nodup cfg hi)] at hi
  cases he : cfg.tInit srcs arr proc f0 with
  | error x => rw [he] at hi; cases hi
  | ok e0 =>
    rw [he] at hi
    simp only [Except.map, Except.ok.injEq] at hi
    have hstart := LoopInv.start cfg lp (ds0 := ds0) had (tInit_zero cfg he)
    rw [hi] at hstart
    exact ⟨e0, rfl, LoopInv.steps cfg lp had hl hnd hstart k hk⟩

end
end Verif

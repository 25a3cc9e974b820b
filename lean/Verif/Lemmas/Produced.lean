import Verif.Spec.Run
import Verif.Lemmas.Loop

namespace Verif

section
variable {R IR F S A P D O : Type} (cfg : SimCfg R IR F S A P D O)

theorem cut_at {dims : String → Option Nat} {T : Tape R} {a : Int} {L : Nat} {name : String}
    {c i : Nat} {v : R} :
    (cut dims T a L).At name c i v ↔
      ∃ num, dims name = some num ∧ c < num ∧ i < L ∧ T name c (a + i) = v := by
  unfold Sigs.At cut matOf
  constructor
  · rintro ⟨m, row, h1, h2, h3⟩
    cases hd : dims name with
    | none => rw [hd] at h1; cases h1
    | some num =>
      rw [hd] at h1
      simp only [Option.map_some, Option.some.injEq] at h1
      subst h1
      rw [List.getElem?_map] at h2
      by_cases hc : c < num
      · rw [List.getElem?_range hc] at h2
        simp only [Option.map_some, Option.some.injEq] at h2
        subst h2
        rw [List.getElem?_map] at h3
        by_cases hi : i < L
        · rw [List.getElem?_range hi] at h3
          simp only [Option.map_some, Option.some.injEq] at h3
          exact ⟨num, rfl, hc, hi, h3⟩
        · rw [List.getElem?_eq_none (by simpa using hi)] at h3; cases h3
      · rw [List.getElem?_eq_none (by simpa using hc)] at h2; cases h2
  · rintro ⟨num, h1, h2, h3, h4⟩
    refine ⟨_, (List.range L).map fun (k : Nat) => T name c (a + k), by rw [h1]; rfl, ?_, ?_⟩
    · rw [List.getElem?_map, List.getElem?_range h2]; rfl
    · rw [List.getElem?_map, List.getElem?_range h3, ← h4]; rfl

variable [Zero R] [Add R] (lp : ProcView R P)

theorem steps_prefix {n : Nat} {st0 : SimSt R F S A P D O} :
    ∀ m {st}, cfg.steps (n + m) st0 = .ok st → ∃ st', cfg.steps n st0 = .ok st'
  | 0, st, h => ⟨st, h⟩
  | m + 1, st, h => by
    rw [← Nat.add_assoc] at h
    simp only [SimCfg.steps] at h
    split at h
    · cases h
    · rename_i st1 h1
      exact steps_prefix m h1

/-- What the simulation produces is what stands on the tape. -/
theorem produced_iff {srcs : String → S} {arr : A} {proc : P} {f0 : F} {ds0 : List (Diag D)}
    {st0 stk : SimSt R F S A P D O} {e0 te : Eng (Tape R) F S A P} {k : Nat}
    (had : Admissible cfg lp) (hl : cfg.diag.Local cfg.dims) (hnd : (ds0.map Diag.name).Nodup)
    (hinit : cfg.init srcs arr proc f0 ds0 = .ok st0) (he0 : cfg.tInit srcs arr proc f0 = .ok e0)
    (hk : cfg.steps k st0 = .ok stk) (hte : cfg.tSteps lp k e0 = .ok te) {t : Nat} (ht : t ≤ k)
    {name : String} {c : Nat} {v : R} :
    cfg.Produced st0 name c t v ↔
      ∃ num, cfg.dims name = some num ∧ c < num ∧ te.sig name c ((t : Int) - 1) = v := by
  have hB : 1 ≤ cfg.B := by have := had.buffer; omega
  have hsn := init_nodup cfg hinit
  rw [init_conc cfg hB hsn, he0] at hinit
  simp only [Except.map, Except.ok.injEq] at hinit
  have hstart := LoopInv.start cfg lp (ds0 := ds0) had (tInit_zero cfg he0)
  rw [hinit] at hstart
  cases t with
  | zero =>
    unfold SimCfg.Produced
    rw [← hinit]
    show (cut cfg.dims e0.sig (-(cfg.B : Int)) (cfg.B + cfg.C)).At name c (cfg.B - 1) v ↔ _
    rw [cut_at]
    have e1 : -(cfg.B : Int) + ((cfg.B - 1 : Nat) : Int) = ((0 : Nat) : Int) - 1 := by omega
    rw [e1]
    have hpast := tSteps_past cfg lp (n := 0) (e := e0) rfl k (e' := te) (by rw [Nat.zero_add]; exact hte)
      name c (((0 : Nat) : Int) - 1) (by simp)
    rw [hpast]
    constructor
    · rintro ⟨num, h1, h2, _, h4⟩; exact ⟨num, h1, h2, h4⟩
    · rintro ⟨num, h1, h2, h4⟩; exact ⟨num, h1, h2, by omega, h4⟩
  | succ n =>
    obtain ⟨m, rfl⟩ := Nat.exists_eq_add_of_le ht
    obtain ⟨st', hst'⟩ := steps_prefix cfg (n := n + 1) m hk
    simp only [SimCfg.steps] at hst'
    cases hn : cfg.steps n st0 with
    | error x => rw [hn] at hst'; cases hst'
    | ok st =>
      rw [hn] at hst'
      simp only at hst'
      obtain ⟨tn, off, r, hI⟩ := LoopInv.steps cfg lp had hl hnd hstart n hn
      have heng := hI.engine cfg lp had
      cases htn : cfg.tEngine lp n tn with
      | error x =>
        rw [htn] at heng
        unfold SimCfg.step at hst'
        rw [heng] at hst'
        cases hst'
      | ok tn' =>
        rw [htn] at heng
        simp only [Except.map] at heng
        have htape : cfg.tSteps lp (n + 1) e0 = .ok tn' := by
          simp only [SimCfg.tSteps, hI.tape]; exact htn
        have hpast := tSteps_past cfg lp htape m hte name c (((n + 1 : Nat) : Int) - 1)
          (by push_cast; omega)
        rw [hpast]
        have hlow : 0 ≤ st.idx := by have := hI.pos.low; have := had.buffer; omega
        have hlt := hI.pos.idx_lt had.block had.chunk
        have hsync := hI.pos.sync
        have e1 : off + (st.idx.toNat : Int) = ((n + 1 : Nat) : Int) - 1 := by push_cast; omega
        unfold SimCfg.Produced
        constructor
        · rintro ⟨st2, e, g1, g2, g3, g4⟩
          rw [hn] at g1
          cases g1
          rw [heng] at g2
          cases g2
          rw [show (conc cfg.dims off (cfg.B + cfg.C) tn').sig =
            cut cfg.dims tn'.sig off (cfg.B + cfg.C) from rfl, cut_at, e1] at g4
          obtain ⟨num, h1, h2, _, h4⟩ := g4
          exact ⟨num, h1, h2, h4⟩
        · rintro ⟨num, h1, h2, h4⟩
          refine ⟨st, _, hn, heng, hlow, ?_⟩
          rw [show (conc cfg.dims off (cfg.B + cfg.C) tn').sig =
            cut cfg.dims tn'.sig off (cfg.B + cfg.C) from rfl, cut_at, e1]
          exact ⟨num, h1, h2, by omega, h4⟩

/-- The same for a completed run. -/
theorem run_produced {srcs : String → S} {arr : A} {proc : P} {f0 : F} {ds0 : List (Diag D)}
    {st0 fin : SimSt R F S A P D O} (had : Admissible cfg lp) (hl : cfg.diag.Local cfg.dims)
    (hnd : (ds0.map Diag.name).Nodup) (hinit : cfg.init srcs arr proc f0 ds0 = .ok st0)
    (hrun : cfg.run srcs arr proc f0 ds0 = .ok fin) :
    ∃ e0 te, cfg.tInit srcs arr proc f0 = .ok e0 ∧ RunInv cfg lp e0 ds0 fin te ∧
      ∀ t ≤ cfg.tot + cfg.mbs, ∀ name c v, cfg.Produced st0 name c t v ↔
        ∃ num, cfg.dims name = some num ∧ c < num ∧ te.sig name c ((t : Int) - 1) = v := by
  obtain ⟨e0, te, he0, hR⟩ := run_spec cfg lp had hl hnd hrun
  refine ⟨e0, te, he0, hR, ?_⟩
  intro t ht name c v
  unfold SimCfg.run at hrun
  rw [hinit] at hrun
  simp only at hrun
  split at hrun
  · cases hrun
  · rename_i st1 hst1
    exact produced_iff cfg lp had hl hnd hinit he0 hst1 hR.tape ht

end
end Verif

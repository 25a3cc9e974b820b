/-
Whole simulations with `FastBlockFxLMS` beside those with `FxLMS`.
-/
import Verif.Lemmas.FastBlock
import Verif.Lemmas.SameDiag
namespace Verif

section
variable {R IR F S A P D O P' D' O' : Type} (cfg : SimCfg R IR F S A P D O)

/-- Preparation with another processor succeeds if it does with the first. -/
theorem init_setProc_ok [Zero R] [Add R] (proc : Option (Proc R P')) (diag : DiagOps R P' D' O') (p : P')
    (hx : (cfg.withProc proc diag).signalList = cfg.signalList) {srcs : String → S} {arr : A}
    {p0 : P} {f0 : F} {ds : List (Diag D)} (ds' : List (Diag D')) {st : SimSt R F S A P D O}
    (h : cfg.init srcs arr p0 f0 ds = .ok st) :
    ∃ st', (cfg.withProc proc diag).init srcs arr p f0 ds' = .ok st' ∧ st'.diags = ds' ∧ st'.log = [] := by
  unfold SimCfg.init at h ⊢
  have hs : (cfg.withProc proc diag).createSignals = cfg.createSignals := by
    unfold SimCfg.createSignals; rw [hx]; rfl
  have hf : (cfg.withProc proc diag).createFilters arr (fun _ _ => f0) = cfg.createFilters arr fun _ _ => f0 := rfl
  rw [hs, hf]
  cases hs : cfg.createSignals with
  | error x => rw [hs] at h; cases h
  | ok sig =>
    rw [hs] at h
    dsimp only at h ⊢
    cases hf : cfg.createFilters arr fun _ _ => f0 with
    | error x => rw [hf] at h; cases h
    | ok fs =>
      rw [hf] at h
      dsimp only at h ⊢
      have hp := prepare_setProc cfg proc diag p ⟨sig, srcs, fs, arr, p0⟩
      rw [show (⟨sig, srcs, fs, arr, p⟩ : Eng (Sigs R) F S A P') = Eng.setProc ⟨sig, srcs, fs, arr, p0⟩ p from rfl, hp]
      cases hq : cfg.prepare ⟨sig, srcs, fs, arr, p0⟩ with
      | error x => rw [hq] at h; cases h
      | ok e => exact ⟨_, rfl, rfl, rfl⟩

end

section
variable {R IR F S A D O D' O' : Type} [Field R] {cfg : SimCfg R IR F S A (FxSt R) D O} {q : FxPar R} {Sp : IrMat R}
  {diag : DiagOps R (FastSt R) D' O'}

/-- The preparation of `FastBlockFxLMS` succeeds. -/
theorem fast_init_ok (h : FxScene cfg q) (hS : ShortPaths q Sp) (hub : q.ub = q.L) (hdvd : q.L ∣ cfg.B) {srcs : String → S} {arr : A}
    {f0 : F} {ds : List (Diag D)} (ds' : List (Diag D')) {st0 : SimSt R F S A (FxSt R) D O}
    (hi : cfg.initWith fxPrepare srcs arr (fxInit q Sp) f0 ds = .ok st0) :
    ∃ st0', (cfg.withProc (some (fastProc q)) diag).initWith (fastPrepare q) srcs arr (fastInit q Sp) f0 ds' = .ok st0' ∧
      st0'.diags = ds' ∧ st0'.log = [] := by
  obtain ⟨hN, e, he, hI⟩ := fx_init h Sp hi
  have hd := fx_dims h hN
  have hB := h.buffer.1
  unfold SimCfg.initWith at hi ⊢
  cases h1 : cfg.init srcs arr (fxInit q Sp) f0 ds with
  | error x => rw [h1] at hi; cases hi
  | ok st =>
    obtain ⟨st', h2, h3, h4⟩ := init_setProc_ok cfg (some (fastProc q)) diag (fastInit q Sp) (fast_signalList h) ds' h1
    obtain ⟨g1, g2, g3⟩ := init_setProc cfg (some (fastProc q)) diag (fastInit q Sp) (fast_signalList h) h1 h2
    have h1' := h1
    rw [init_conc cfg (by omega) (init_nodup cfg h1), he] at h1'
    simp only [Except.map, Except.ok.injEq] at h1'
    subst h1'
    rw [h2]
    dsimp only at g1 g2 g3 ⊢
    rw [g1, g2]
    dsimp only [Eng.setProc, conc]
    have hle : cfg.B / q.L * q.L = cfg.B := Nat.div_mul_cancel hdvd
    obtain ⟨p', a1, a2⟩ := fastPrep_blocks hd hS hub e.sig (-(cfg.B : Int)) (cfg.B + cfg.C) (cfg.B / q.L) (by omega)
    rw [hle] at a1
    have hprep : fastPrepare q (fastInit q Sp) (cut cfg.dims e.sig (-(cfg.B : Int)) (cfg.B + cfg.C)) (cfg.B : Int) = _ := a1
    rw [hprep]
    exact ⟨_, rfl, h3, h4⟩

end

section
variable {R IR F S A V : Type} [Field R] [DecidableEq R] {q : FxPar R} {Sp : IrMat R}
  {cfg : SimCfg R IR F S A (FxSt R) (DData R (FxSt R) V) (DOut R V)}

theorem DData.Same.mono {P P' : Type} {K K' : P → P' → Prop} (hK : ∀ p p', K p p' → K' p p') {d : DData R P V} {d' : DData R P' V}
    (h : d.Same K' d') : d.Same K d' := by
  cases h with
  | recState g g' v t i h => exact .recState _ _ _ _ _ fun p p' hp => h p p' (hK p p' hp)
  | instant g g' v h => exact .instant _ _ _ fun p p' hp => h p p' (hK p p' hp)
  | _ => constructor

/-- The main loop with both processors. -/
theorem fast_same_steps (h : FxScene cfg q) (hdiag : cfg.diag = diagOps R (FxSt R) V) (hN : Names cfg) (hS : ShortPaths q Sp)
    (hnorm : q.norm = .block) (hub : q.ub = q.L) {e0 : Eng (Tape R) F S A (FxSt R)}
    {st0 : SimSt R F S A (FxSt R) (DData R (FxSt R) V) (DOut R V)}
    {st0' : SimSt R F S A (FastSt R) (DData R (FastSt R) V) (DOut R V)} {r : Int}
    (hI : GInv (fxTape (fx_dims h hN)) e0 0 st0 e0 (-(cfg.B : Int)) r) (hc : CntInv q 0 e0.proc) {N : Nat}
    (hB : Holds cfg q (2 * q.L) N) (h0 : SameState (FastRel q Sp) st0 st0') :
    ∀ k ≤ N, ∀ {st : SimSt R F S A (FxSt R) (DData R (FxSt R) V) (DOut R V)}, cfg.steps k st0 = .ok st →
      ∃ st', (cfg.withProc (some (fastProc q)) (diagOps R (FastSt R) V)).steps k st0' = .ok st' ∧ SameState (FastRel q Sp) st st'
  | 0, _, st, hs => by cases hs; exact ⟨st0', rfl, h0⟩
  | k + 1, hk, st, hs => by
    simp only [SimCfg.steps] at hs ⊢
    split at hs
    · cases hs
    · rename_i st1 hs1
      obtain ⟨st1', g1, g2⟩ := fast_same_steps h hdiag hN hS hnorm hub hI hc hB h0 k (by omega) hs1
      obtain ⟨te, off, r, hT⟩ := GInv.steps (fx_sizes h hN) hI k hs1
      rw [g1]
      exact same_step (pr' := fastProc q) h.proc rfl hdiag g2 (fun p' e hp he => fast_engine h hN hS hnorm hub hT (h.fast_reach hub hN hI hc hB hs1 hT.tape hk) hp he) hs

end
end Verif

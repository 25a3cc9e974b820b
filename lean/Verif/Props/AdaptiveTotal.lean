/-
C157: a valid scene with FxLMS runs to its end.
-/
import Verif.Lemmas.AdaptiveTotal
import Verif.Props.AdaptiveRecording
import Verif.Props.Total
namespace Verif

section
variable {R S A V : Type} [Field R] [DecidableEq R] {q : FxPar R}
  {cfg : SimCfg R (IrMat R) (Fir R) S A (FxSt R) (DData R (FxSt R) V) (DOut R V)}
  {srcs : String → S} {arr : A} {J : A → Prop}

/-- C157. A valid scene with `FxLMS`, sizes that fit together and diagnostics that fit it
runs to its end: neither preparation nor main loop raises, no save and no export.  The
diagnostics do not record the processor's own signal. -/
theorem C157_adaptive_runs_through (h : FxScene cfg q) (hb : Holds cfg q (q.ub + q.L - 1) (cfg.tot + q.bs)) (hv : ValidScene cfg srcs arr J) (Sp : IrMat R) (f0 : Fir R)
    {ds0 : List (Diag (DData R (FxSt R) V))} (hnd : (ds0.map Diag.name).Nodup)
    (hds : ∀ d ∈ ds0, d.Fits cfg (FxShape q)) (hreads : ∀ d ∈ ds0, ∀ name ∈ d.data.reads, name ≠ "xf") :
    ∃ fin, cfg.runWith fxPrepare srcs arr (fxInit q Sp) f0 ds0 = .ok fin := by
  obtain ⟨_, fin, hr⟩ := h.runs hb hv Sp f0 hnd
    (fun d hd => (hds d hd).mono fun p hp => ⟨hp.cIn, hp.cOut, hp.cLen⟩) hreads
  exact ⟨fin, hr.run⟩

end

/-! ### Example -/

theorem fxCfg_valid (B C : Nat) (q : FxPar ℚ) (a b s : List ℚ) :
    ValidScene (fxCfg B C q a b s) (fun _ => 0) () (fun _ => True) where
  diag := rfl
  filt := rfl
  names := by
    show ["ref", "error", "noise", "loudspeaker", "xf"].Nodup
    decide
  channels := by
    intro x hx
    simp only [fxCfg, List.mem_cons, List.not_mem_nil, or_false] at hx
    rcases hx with rfl | rfl | rfl | rfl <;> decide
  streams := by
    intro x hx
    have hx' : x ∈ [(⟨"noise", 1, .free, false⟩ : ArrInfo)] := hx
    rw [List.mem_singleton] at hx'
    subst hx'
    exact ⟨_, open_stream 0⟩
  arr0 := trivial
  moves := fun _ _ _ => ⟨(), rfl, trivial⟩
  paths := by
    intro _ _ p hp
    refine ⟨_, rfl, ?_⟩
    have hp' : p ∈ combosOf (fxCfg B C q a b s).arrays := hp
    have hn : ∀ x ∈ (fxCfg B C q a b s).arrays, x.num = 1 := by
      intro x hx
      simp only [fxCfg, List.mem_cons, List.not_mem_nil, or_false] at hx
      rcases hx with rfl | rfl | rfl | rfl <;> rfl
    obtain ⟨g1, g2⟩ := mem_combosOf.1 hp'
    exact ⟨(hn _ (mem_sourcesOf g1).1).symm, (hn _ (mem_micsOf g2).1).symm⟩

/-- One diagnostic of every class; the taps of the control filter are recorded after steps
1, 3 and 7. -/
def fxAll (L : Nat) : List (Diag (DData ℚ (FxSt ℚ) ℚ)) :=
  [⟨"rec", IvCounter.init [(0, 8)], IxCounter.init [2, 8], .recSignal "loudspeaker" none (matOf 1 8 fun _ _ => none)⟩,
   ⟨"taps", IvCounter.init [(1, 2), (3, 4), (7, 8)], IxCounter.init [2, 8],
     .recState (fun p => .ok (p.ctrl.mat.ir 0 0)) (List.replicate L (List.replicate 3 none)) (List.replicate 3 0) 0⟩,
   ⟨"power", IvCounter.init [(0, 3), (4, 5)], IxCounter.init [3], .power "error" (some [-1]) (List.replicate 8 none)⟩,
   ⟨"ratio", IvCounter.init [(0, 8)], IxCounter.init [8], .ratio "error" none "ref" none 4 (List.replicate 8 none)⟩,
   ⟨"filter", IvCounter.init [(2, 3)], IxCounter.init [3], .instant (fun p => .ok (p.ctrl.mat.ir 0 0).sum) none⟩,
   ⟨"field", IvCounter.init [(0, 4)], IxCounter.init [4], .sfPower "error" 4 (List.replicate 1 0)⟩,
   ⟨"spectrum", IvCounter.init [(1, 5)], IxCounter.init [5],
     .spectrum "noise" none (fun m => (m.length : ℚ)) (matOf 1 4 fun _ _ => none) 0⟩,
   ⟨"summary", IvCounter.init [(0, 5)], IxCounter.init [5], .summary "ref" none 5 0⟩]

theorem fxAll_fits (B C bs ub L : Nat) (norm : FxNorm) (a b s : List ℚ) (hL : 0 < L) :
    ∀ d ∈ fxAll L, d.Fits (fxCfg B C (fxDemo bs ub L norm) a b s) (FxShape (fxDemo bs ub L norm)) := by
  have hone : ∀ (x : Int), 0 ≤ x → ∀ e ∈ [x], 0 ≤ e := by
    intro x hx e he
    rw [List.mem_singleton] at he
    rw [he]; exact hx
  have hex : ∀ (x y : Int), 0 ≤ x → 0 ≤ y → ∀ e ∈ [x, y], 0 ≤ e := by
    intro x y hx hy e he
    simp only [List.mem_cons, List.not_mem_nil, or_false] at he
    rcases he with rfl | rfl <;> assumption
  intro d hd
  simp only [fxAll, List.mem_cons, List.not_mem_nil, or_false] at hd
  rcases hd with rfl | rfl | rfl | rfl | rfl | rfl | rfl | rfl
  · exact ⟨[(0, 8)], rfl, by simp [Increasing], by simp [fxCfg], hex _ _ (by omega) (by omega),
      .recSignal (rows := [0]) (num := 1) rfl rfl (by simp)⟩
  · exact ⟨[(1, 2), (3, 4), (7, 8)], rfl, by simp [Increasing], by simp [fxCfg], hex _ _ (by omega) (by omega),
      .recState rfl hL (fun p hp => ⟨_, rfl, hp.2.2 0 Nat.one_pos 0 Nat.one_pos⟩) (by simp) (by decide)⟩
  · exact ⟨[(0, 3), (4, 5)], rfl, by simp [Increasing], by simp [fxCfg], hone _ (by omega),
      .power (rows := [0]) (num := 1) rfl rfl (by simp)⟩
  · exact ⟨[(0, 8)], rfl, by simp [Increasing], by simp [fxCfg], hone _ (by omega),
      .ratio (ra := [0]) (rb := [0]) (numa := 1) (numb := 1) rfl rfl (by simp) rfl rfl (by simp) (by decide)⟩
  · exact ⟨[(2, 3)], rfl, by simp [Increasing], by simp [fxCfg], hone _ (by omega), .instant rfl fun p _ => ⟨_, rfl⟩⟩
  · exact ⟨[(0, 4)], rfl, by simp [Increasing], by simp [fxCfg], hone _ (by omega), .sfPower rfl rfl⟩
  · exact ⟨[(1, 5)], rfl, by simp [Increasing], by simp [fxCfg], hone _ (by omega),
      .spectrum (rows := [0]) (num := 1) (a := 1) (b := 5) rfl rfl rfl⟩
  · exact ⟨[(0, 5)], rfl, by simp [Increasing], by simp [fxCfg], hone _ (by omega),
      .summary (num := 1) rfl (fun v => ⟨_, rfl⟩) (by decide)⟩

/-- All block sizes, update block sizes, filter lengths, paths, and buffers and chunks
that are large enough for them. -/
example (B C bs ub L : Nat) (norm : FxNorm) (a b s : List ℚ) (h1 : 0 < L) (h2 : 0 < bs) (h3 : 0 < ub ∧ bs ∣ ub)
    (h4 : 2 ≤ C) (h5 : bs + 1 ≤ B ∧ ub + L + bs ≤ B + 2) : ∃ fin,
    (fxCfg B C (fxDemo bs ub L norm) a b s).runWith fxPrepare (fun _ => 0) () (fxInit (fxDemo bs ub L norm) (fxSec s))
      demoFilt (fxAll L) = .ok fin := by
  refine C157_adaptive_runs_through (fxCfg_scene h1 h2 h3 ⟨by omega, .inl h4⟩ ⟨h5.1, by omega⟩)
    (.inl (show ub + L - 1 + bs ≤ B + 1 by omega)) (fxCfg_valid B C _ a b s) _ _
    (by simp [fxAll]) (fxAll_fits B C bs ub L norm a b s h1) ?_
  intro d hd
  simp only [fxAll, List.mem_cons, List.not_mem_nil, or_false] at hd
  rcases hd with rfl | rfl | rfl | rfl | rfl | rfl | rfl | rfl <;> simp [DData.reads]

end Verif

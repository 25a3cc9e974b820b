/-
C159: whole simulations with `FastBlockFxLMS`.
-/
import Verif.Lemmas.FastRun
import Verif.Props.FastBlock
import Verif.Props.AdaptiveTotal
namespace Verif

section
variable {R IR F S A V : Type} [Field R] [DecidableEq R] {q : FxPar R} {Sp : IrMat R}
  {cfg : SimCfg R IR F S A (FxSt R) (DData R (FxSt R) V) (DOut R V)} {srcs : String → S} {arr : A} {f0 : F}
  {ds : List (Diag (DData R (FxSt R) V))} {ds' : List (Diag (DData R (FastSt R) V))}
  {fin : SimSt R F S A (FxSt R) (DData R (FxSt R) V) (DOut R V)}

/-- Both processors have the same control filter. -/
def SameControl (p : FxSt R) (p' : FastSt R) : Prop := p'.ctrl = p.ctrl

/-- C159. If a simulation with `FxLMS` runs to its end, so does the one with `FastBlockFxLMS`
in its place, with the same diagnostics of signals and of the control filter: the same files
are exported with the same content, and what was recorded is the same.  The arguments are
those under which both do the same (C147). -/
theorem C159_same_exports (h : FxScene cfg q) (hdiag : cfg.diag = diagOps R (FxSt R) V) (hnorm : q.norm = .block) (hub : q.ub = q.L)
    (hS : ShortPaths q Sp) (hdvd : q.L ∣ cfg.B) (hB : Holds cfg q (2 * q.L) (cfg.tot + q.bs))
    (hds : List.Forall₂ (Diag.Same SameControl) ds ds')
    (hr : cfg.runWith fxPrepare srcs arr (fxInit q Sp) f0 ds = .ok fin) :
    ∃ fin', (cfg.withProc (some (fastProc q)) (diagOps R (FastSt R) V)).runWith (fastPrepare q) srcs arr (fastInit q Sp) f0 ds' =
        .ok fin' ∧
      fin'.log = fin.log ∧ List.Forall₂ (fun d d' => d'.name = d.name ∧ ∀ e, d'.data.output e = d.data.output e) fin.diags fin'.diags := by
  unfold SimCfg.runWith at hr ⊢
  cases hi : cfg.initWith fxPrepare srcs arr (fxInit q Sp) f0 ds with
  | error x => rw [hi] at hr; cases hr
  | ok st0 =>
    obtain ⟨st0', hi', hd', hl'⟩ := fast_init_ok (diag := diagOps R (FastSt R) V) h hS hub hdvd ds' hi
    obtain ⟨hN, e, he, hI⟩ := fx_init h Sp hi
    obtain ⟨p', a1, a2, a3, a4⟩ := fast_init h hS hub hdvd hi hi'
    have hst : st0.diags = ds ∧ st0.log = [] := by
      unfold SimCfg.initWith SimCfg.init at hi
      split at hi
      · cases hi
      · rename_i s hs
        have : s.diags = ds ∧ s.log = [] := by
          split at hs
          · cases hs
          · split at hs
            · cases hs
            · split at hs
              · cases hs
              · cases hs; exact ⟨rfl, rfl⟩
        split at hi
        · cases hi
        · cases hi; exact this
    have h0 : SameState (FastRel q Sp) st0 st0' := by
      refine ⟨⟨p', a1, a4⟩, a2, a3, hl'.trans hst.2.symm, ?_⟩
      rw [hst.1, hd']
      refine hds.imp fun d d' hd => ⟨hd.1, hd.2.1, hd.2.2.1, hd.2.2.2.mono fun p p' hp => hp.ctrl⟩
    rw [hi] at hr
    rw [hi']
    dsimp only at hr ⊢
    have hm : (cfg.withProc (some (fastProc q)) (diagOps R (FastSt R) V)).mbs = cfg.mbs := by
      unfold SimCfg.mbs
      rw [h.proc]
      rfl
    rw [hm]
    cases hs : cfg.steps (cfg.tot + cfg.mbs) st0 with
    | error x => rw [hs] at hr; cases hr
    | ok st =>
      obtain ⟨st', b1, b2⟩ := fast_same_steps h hdiag hN hS hnorm hub hI (CntInv.start hN Sp he) hB h0 _ (by rw [h.mbs]) hs
      have b1' : (cfg.withProc (some (fastProc q)) (diagOps R (FastSt R) V)).steps
          ((cfg.withProc (some (fastProc q)) (diagOps R (FastSt R) V)).tot + cfg.mbs) st0' = .ok st' := b1
      rw [hs] at hr
      rw [b1']
      dsimp only at hr ⊢
      rw [hdiag] at hr
      split at hr
      · cases hr
      · rename_i ds2 log2 hd2
        obtain ⟨ds3, c1, c2⟩ := same_dispatch b2.diags hd2
        have c1' : dispatch (cfg.withProc (some (fastProc q)) (diagOps R (FastSt R) V)).diag
            (cfg.withProc (some (fastProc q)) (diagOps R (FastSt R) V)).plotNone st'.diags st'.log = .ok (ds3, log2) := by
          rw [b2.log]; exact c1
        rw [c1']
        cases hr
        exact ⟨_, rfl, rfl, c2.imp fun d d' hd => ⟨hd.1, hd.2.2.2.output⟩⟩

end

section
variable {R S A V : Type} [Field R] [DecidableEq R] {q : FxPar R} {Sp : IrMat R}
  {cfg : SimCfg R (IrMat R) (Fir R) S A (FxSt R) (DData R (FxSt R) V) (DOut R V)} {srcs : String → S} {arr : A} {J : A → Prop}
  {ds : List (Diag (DData R (FxSt R) V))} {ds' : List (Diag (DData R (FastSt R) V))}

/-- C159. A valid scene with `FastBlockFxLMS` runs to its end. -/
theorem C159_runs_through (h : FxScene cfg q) (hv : ValidScene cfg srcs arr J) (hnorm : q.norm = .block) (hub : q.ub = q.L)
    (hS : ShortPaths q Sp) (hdvd : q.L ∣ cfg.B) (hB : Holds cfg q (2 * q.L) (cfg.tot + q.bs)) (f0 : Fir R)
    (hnd : (ds.map Diag.name).Nodup) (hfit : ∀ d ∈ ds, d.Fits cfg (FxShape q))
    (hreads : ∀ d ∈ ds, ∀ name ∈ d.data.reads, name ≠ "xf") (hds : List.Forall₂ (Diag.Same SameControl) ds ds') :
    ∃ fin', (cfg.withProc (some (fastProc q)) (diagOps R (FastSt R) V)).runWith (fastPrepare q) srcs arr (fastInit q Sp) f0 ds' =
      .ok fin' := by
  obtain ⟨fin, hr⟩ := C157_adaptive_runs_through h (hB.mono (by omega) (le_refl _)) hv Sp f0 hnd hfit hreads
  obtain ⟨fin', h1, -⟩ := C159_same_exports h hv.diag hnorm hub hS hdvd hB hds hr
  exact ⟨fin', h1⟩

end

/-! ### Example -/

/-- The diagnostics of `fxAll` for `FastBlockFxLMS`. -/
def fastAll (L : Nat) : List (Diag (DData ℚ (FastSt ℚ) ℚ)) :=
  [⟨"rec", IvCounter.init [(0, 8)], IxCounter.init [2, 8], .recSignal "loudspeaker" none (matOf 1 8 fun _ _ => none)⟩,
   ⟨"taps", IvCounter.init [(1, 2), (3, 4), (7, 8)], IxCounter.init [2, 8],
     .recState (fun p => .ok (p.ctrl.mat.ir 0 0)) (List.replicate L (List.replicate 3 none)) (List.replicate 3 0) 0⟩,
   ⟨"power", IvCounter.init [(0, 3), (4, 5)], IxCounter.init [3], .power "error" (some [-1]) (List.replicate 8 none)⟩,
   ⟨"ratio", IvCounter.init [(0, 8)], IxCounter.init [8], .ratio "error" none "ref" none 4 (List.replicate 8 none)⟩,
   ⟨"filter", IvCounter.init [(2, 3)], IxCounter.init [3], .instant (fun p => .ok (p.ctrl.mat.ir 0 0).sum) none⟩,
   ⟨"field", IvCounter.init [(0, 4)], IxCounter.init [4], .sfPower "error" 4 (List.replicate 1 0)⟩,
   ⟨"spectrum", IvCounter.init [(1, 5)], IxCounter.init [5],
     .spectrum "noise" none (fun m => (m.length : ℚ)) (matOf 1 4 fun _ _ => none) 0⟩,
   ⟨"summary", IvCounter.init [(0, 5)], IxCounter.init [5], .summary "ref" none 5 0⟩]

theorem fastAll_same (L : Nat) : List.Forall₂ (Diag.Same SameControl) (fxAll L) (fastAll L) := by
  have hc : ∀ (p : FxSt ℚ) (p' : FastSt ℚ), SameControl p p' → p'.ctrl = p.ctrl := fun _ _ h => h
  refine .cons ⟨rfl, rfl, rfl, .recSignal ..⟩ (.cons ⟨rfl, rfl, rfl, .recState _ _ _ _ _ ?_⟩ (.cons ⟨rfl, rfl, rfl, .power ..⟩
    (.cons ⟨rfl, rfl, rfl, .ratio ..⟩ (.cons ⟨rfl, rfl, rfl, .instant _ _ _ ?_⟩ (.cons ⟨rfl, rfl, rfl, .sfPower ..⟩
    (.cons ⟨rfl, rfl, rfl, .spectrum ..⟩ (.cons ⟨rfl, rfl, rfl, .summary ..⟩ .nil)))))))
  · intro p p' h
    rw [hc p p' h]
  · intro p p' h
    rw [hc p p' h]

/-- All block sizes, filter lengths, and paths that are short enough, and buffers of two or more
filter lengths. -/
example (m C bs L : Nat) (a b s : List ℚ) (h1 : 0 < L) (h2 : 0 < bs ∧ bs ∣ L) (h3 : bs + s.length ≤ L) (h4 : 2 ≤ C) (h5 : 3 ≤ m) :
    ∃ fin fin', (fxCfg (m * L) C (fxDemo bs L L .block) a b s).runWith fxPrepare (fun _ => 0) ()
        (fxInit (fxDemo bs L L .block) (fxSec s)) demoFilt (fxAll L) = .ok fin ∧
      (fastCfg (fxCfg (m * L) C (fxDemo bs L L .block) a b s) (fxDemo bs L L .block)).runWith (fastPrepare (fxDemo bs L L .block))
        (fun _ => 0) () (fastInit (fxDemo bs L L .block) (fxSec s)) demoFilt (fastAll L) = .ok fin' ∧ fin'.log = fin.log := by
  have hle : bs ≤ L := Nat.le_of_dvd h1 h2.2
  have hm : 3 * L ≤ m * L := Nat.mul_le_mul_right L h5
  have hsc : FxScene (fxCfg (m * L) C (fxDemo bs L L .block) a b s) (fxDemo bs L L .block) :=
    fxCfg_scene h1 h2.1 ⟨h1, h2.2⟩ ⟨by omega, .inl h4⟩ ⟨by omega, by omega⟩
  have hv := fxCfg_valid (m * L) C (fxDemo bs L L .block) a b s
  obtain ⟨fin, hr⟩ := C157_adaptive_runs_through hsc (.inl (show L + L - 1 + bs ≤ m * L + 1 by omega)) hv (fxSec s) demoFilt (by simp [fxAll])
    (fxAll_fits (m * L) C bs L L .block a b s h1) (by
      intro d hd
      simp only [fxAll, List.mem_cons, List.not_mem_nil, or_false] at hd
      rcases hd with rfl | rfl | rfl | rfl | rfl | rfl | rfl | rfl <;> simp [DData.reads])
  obtain ⟨fin', g1, g2, -⟩ := C159_same_exports (Sp := fxSec s) hsc hv.diag rfl rfl (fun _ _ _ _ => h3) ⟨m, Nat.mul_comm m L⟩
    (.inl (show 2 * L + bs ≤ m * L + 1 by omega)) (fastAll_same L) hr
  exact ⟨fin, fin', hr, g1, g2⟩

end Verif

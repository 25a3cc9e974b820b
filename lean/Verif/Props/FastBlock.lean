/-
C147: `FastBlockFxLMS` and `FxLMS` with the normalisation `'block'`.
-/
import Verif.Lemmas.FastBlock
import Verif.Props.Adaptive
namespace Verif

section
variable {R IR F S A D O D' O' : Type} [Field R] {cfg : SimCfg R IR F S A (FxSt R) D O} {q : FxPar R} {Sp : IrMat R}
  {diag : DiagOps R (FastSt R) D' O'} {srcs : String → S} {arr : A} {f0 : F} {ds : List (Diag D)} {ds' : List (Diag D')}
  {st0 st : SimSt R F S A (FxSt R) D O} {st0' st' : SimSt R F S A (FastSt R) D' O'} {k : Nat}

/-- C147: one simulation with `FxLMS`, normalised by block and with updates after as many
samples as the filter has taps, and the same simulation with `FastBlockFxLMS`: every
sample of every signal is the same, all buffers are the same and so are the taps of the
control filter.  The secondary paths with the delay of a block are not longer than the
control filter, and the buffer is a multiple of the filter length.  The signals hold what
the processor looks at. -/
theorem C147_partial (h : FxScene cfg q) (hnorm : q.norm = .block) (hub : q.ub = q.L) (hS : ShortPaths q Sp)
    (hdvd : q.L ∣ cfg.B) (hB : Holds cfg q (2 * q.L) k)
    (hi : cfg.initWith fxPrepare srcs arr (fxInit q Sp) f0 ds = .ok st0)
    (hi' : (cfg.withProc (some (fastProc q)) diag).initWith (fastPrepare q) srcs arr (fastInit q Sp) f0 ds' = .ok st0')
    (hk : cfg.steps k st0 = .ok st) (hk' : (cfg.withProc (some (fastProc q)) diag).steps k st0' = .ok st') :
    (∀ t ≤ k, ∀ name c v,
      (cfg.withProc (some (fastProc q)) diag).Produced st0' name c t v ↔ cfg.Produced st0 name c t v) ∧
    st'.eng.sig = st.eng.sig ∧ st'.eng.proc.ctrl = st.eng.proc.ctrl := by
  obtain ⟨hN, e, he, hI⟩ := fx_init h Sp hi
  have h0 := fast_init h hS hub hdvd hi hi'
  have hc := CntInv.start hN Sp he
  have hrun := fun n (hn : n ≤ k) (a : SimSt R F S A (FxSt R) D O) (b : SimSt R F S A (FastSt R) D' O')
    (ha : cfg.steps n st0 = .ok a) (hb : (cfg.withProc (some (fastProc q)) diag).steps n st0' = .ok b) =>
    fast_steps (diag := diag) h hN hS hnorm hub hI hc hB h0 n hn ha hb
  refine ⟨?_, ?_, ?_⟩
  · intro t ht name c v
    cases t with
    | zero =>
      obtain ⟨p', g, -⟩ := h0
      unfold SimCfg.Produced
      rw [g]
      rfl
    | succ n =>
      obtain ⟨m, hkm⟩ := Nat.exists_eq_add_of_le ht
      rw [hkm] at hk hk'
      obtain ⟨a, ha⟩ := steps_prefix cfg (n := n + 1) m hk
      obtain ⟨b, hb⟩ := steps_prefix (cfg.withProc (some (fastProc q)) diag) (n := n + 1) m hk'
      simp only [SimCfg.steps] at ha hb
      cases h1 : cfg.steps n st0 with
      | error x => rw [h1] at ha; cases ha
      | ok s1 =>
        cases h2 : (cfg.withProc (some (fastProc q)) diag).steps n st0' with
        | error x => rw [h2] at hb; cases hb
        | ok s2 =>
          obtain ⟨p', g1, g2, g3, g4⟩ := hrun n (by omega) s1 s2 h1 h2
          obtain ⟨te, off, r, hT⟩ := GInv.steps (fx_sizes h hN) hI n h1
          rw [h1] at ha
          dsimp only at ha
          unfold SimCfg.step at ha
          cases h3 : cfg.engine s1.n s1.idx s1.eng with
          | error x => rw [h3] at ha; cases ha
          | ok e1 =>
            obtain ⟨p'', c1, c2⟩ := fast_engine (diag := diag) h hN hS hnorm hub hT (h.fast_reach hub hN hI hc hB h1 hT.tape (by omega)) g4 h3
            simp only [SimCfg.Produced]
            rw [h1, h2]
            constructor
            · rintro ⟨x, y, hx, hy, h5, h6⟩
              cases hx
              rw [g1, g2, g3, c1] at hy
              cases hy
              rw [g2] at h5 h6
              exact ⟨s1, e1, rfl, h3, h5, h6⟩
            · rintro ⟨x, y, hx, hy, h5, h6⟩
              cases hx
              rw [h3] at hy
              cases hy
              refine ⟨s2, e1.setProc p'', rfl, ?_, ?_, ?_⟩
              · rw [g1, g2, g3, c1]
              · rw [g2]; exact h5
              · rw [g2]; exact h6
  · obtain ⟨p', g, -⟩ := hrun k (le_refl _) st st' hk hk'
    rw [g]
    rfl
  · obtain ⟨p', g, -, -, hr⟩ := hrun k (le_refl _) st st' hk hk'
    rw [g]
    exact hr.ctrl

end

/-! ### Examples -/

/-- The simulation of the examples with `FastBlockFxLMS` in the place of `FxLMS`. -/
abbrev fastCfg (cfg : SimCfg ℚ (IrMat ℚ) (Fir ℚ) Nat Unit (FxSt ℚ) (DData ℚ (FxSt ℚ) ℚ) (DOut ℚ ℚ)) (q : FxPar ℚ) :
    SimCfg ℚ (IrMat ℚ) (Fir ℚ) Nat Unit (FastSt ℚ) (DData ℚ (FastSt ℚ) ℚ) (DOut ℚ ℚ) :=
  cfg.withProc (some (fastProc q)) (diagOps ℚ (FastSt ℚ) ℚ)

def fastRun (cfg : SimCfg ℚ (IrMat ℚ) (Fir ℚ) Nat Unit (FxSt ℚ) (DData ℚ (FxSt ℚ) ℚ) (DOut ℚ ℚ)) (q : FxPar ℚ) (s : List ℚ) :
    Except PyErr (SimSt ℚ (Fir ℚ) Nat Unit (FastSt ℚ) (DData ℚ (FastSt ℚ) ℚ) (DOut ℚ ℚ)) :=
  (fastCfg cfg q).initWith (fastPrepare q) (fun _ => 0) () (fastInit q (fxSec s)) demoFilt []

/-- A sample of the first channel of a signal. -/
def fastSample (cfg : SimCfg ℚ (IrMat ℚ) (Fir ℚ) Nat Unit (FxSt ℚ) (DData ℚ (FxSt ℚ) ℚ) (DOut ℚ ℚ)) (q : FxPar ℚ) (s : List ℚ)
    (name : String) (n : Nat) : Option ℚ :=
  match fastRun cfg q s with
  | .error _ => none
  | .ok st0 =>
    match (fastCfg cfg q).steps n st0 with
    | .error _ => none
    | .ok st =>
      match (fastCfg cfg q).engine st.n st.idx st.eng with
      | .error _ => none
      | .ok e => if 0 ≤ st.idx then ((e.sig name).bind fun m => m[0]?).bind fun row => row[st.idx.toNat]? else none

theorem fastSample_produced {cfg : SimCfg ℚ (IrMat ℚ) (Fir ℚ) Nat Unit (FxSt ℚ) (DData ℚ (FxSt ℚ) ℚ) (DOut ℚ ℚ)} {q : FxPar ℚ}
    {s : List ℚ} {name : String} {n : Nat} {v : ℚ} (h : fastSample cfg q s name n = some v) :
    ∃ st0 st, fastRun cfg q s = .ok st0 ∧ (fastCfg cfg q).steps n st0 = .ok st ∧
      (fastCfg cfg q).Produced st0 name 0 (n + 1) v := by
  unfold fastSample at h
  split at h
  · cases h
  · rename_i st0 h0
    split at h
    · cases h
    · rename_i st hs
      split at h
      · cases h
      · rename_i e he
        split at h
        · rename_i hi
          exact ⟨st0, st, h0, hs, st, e, hs, he, hi, at_of_row h⟩
        · cases h

/-- C147 does not hold for longer secondary paths: `FastBlockFxLMS` drops what lies behind
as many taps as the control filter has.  Here the only tap of the path is dropped: nothing
is learned, while `FxLMS` with the same arguments learns. -/
theorem C147_violated : ∃ (cfg : SimCfg ℚ (IrMat ℚ) (Fir ℚ) Nat Unit (FxSt ℚ) (DData ℚ (FxSt ℚ) ℚ) (DOut ℚ ℚ)) (q : FxPar ℚ)
    (Sp : IrMat ℚ) (srcs : String → Nat) (f0 : Fir ℚ)
    (st0 st : SimSt ℚ (Fir ℚ) Nat Unit (FxSt ℚ) (DData ℚ (FxSt ℚ) ℚ) (DOut ℚ ℚ))
    (st0' st' : SimSt ℚ (Fir ℚ) Nat Unit (FastSt ℚ) (DData ℚ (FastSt ℚ) ℚ) (DOut ℚ ℚ)),
      FxScene cfg q ∧ q.norm = .block ∧ q.ub = q.L ∧ q.L ∣ cfg.B ∧ 2 * q.L + q.bs ≤ cfg.B + 1 ∧
      cfg.arrPath () "loudspeaker" "error" = .ok Sp ∧
      cfg.initWith fxPrepare srcs () (fxInit q Sp) f0 [] = .ok st0 ∧
      (fastCfg cfg q).initWith (fastPrepare q) srcs () (fastInit q Sp) f0 [] = .ok st0' ∧
      cfg.steps 3 st0 = .ok st ∧ (fastCfg cfg q).steps 3 st0' = .ok st' ∧
      cfg.Produced st0 "loudspeaker" 0 4 (-17/2) ∧ (fastCfg cfg q).Produced st0' "loudspeaker" 0 4 0 := by
  have h1 : fxSample (fxCfg 4 3 (fxDemo 1 2 2 .block) [1, 2] [0, 1] [0, 1]) (fxDemo 1 2 2 .block) [0, 1] "loudspeaker" 4 =
      some (-17/2) := by decide +kernel
  have h2 : fastSample (fxCfg 4 3 (fxDemo 1 2 2 .block) [1, 2] [0, 1] [0, 1]) (fxDemo 1 2 2 .block) [0, 1] "loudspeaker" 3 =
      some 0 := by decide +kernel
  obtain ⟨st0, st, g1, g2⟩ := fxRun_steps h1
  obtain ⟨st0', st', g3, g4, g5⟩ := fastSample_produced h2
  exact ⟨fxCfg 4 3 (fxDemo 1 2 2 .block) [1, 2] [0, 1] [0, 1], fxDemo 1 2 2 .block, fxSec [0, 1], fun _ => 0, demoFilt,
    st0, st, st0', st', fxCfg_scene (by decide) (by decide) (by decide) (by decide) (by decide), rfl, rfl, ⟨2, rfl⟩, by decide,
    rfl, g1, g3, g2, g4, fxSample_produced g1 h1, g5⟩

/-- Nor for a buffer that is not a multiple of the filter length: `FastBlockFxLMS` prepares
whole blocks only and leaves out the end of the history. -/
theorem C147_violated_buffer : ∃ (cfg : SimCfg ℚ (IrMat ℚ) (Fir ℚ) Nat Unit (FxSt ℚ) (DData ℚ (FxSt ℚ) ℚ) (DOut ℚ ℚ))
    (q : FxPar ℚ) (Sp : IrMat ℚ) (srcs : String → Nat) (f0 : Fir ℚ)
    (st0 st : SimSt ℚ (Fir ℚ) Nat Unit (FxSt ℚ) (DData ℚ (FxSt ℚ) ℚ) (DOut ℚ ℚ))
    (st0' st' : SimSt ℚ (Fir ℚ) Nat Unit (FastSt ℚ) (DData ℚ (FastSt ℚ) ℚ) (DOut ℚ ℚ)),
      FxScene cfg q ∧ q.norm = .block ∧ q.ub = q.L ∧ ShortPaths q Sp ∧ 2 * q.L + q.bs ≤ cfg.B + 1 ∧
      cfg.arrPath () "loudspeaker" "error" = .ok Sp ∧
      cfg.initWith fxPrepare srcs () (fxInit q Sp) f0 [] = .ok st0 ∧
      (fastCfg cfg q).initWith (fastPrepare q) srcs () (fastInit q Sp) f0 [] = .ok st0' ∧
      cfg.steps 3 st0 = .ok st ∧ (fastCfg cfg q).steps 3 st0' = .ok st' ∧
      cfg.Produced st0 "loudspeaker" 0 4 (-37/12) ∧ (fastCfg cfg q).Produced st0' "loudspeaker" 0 4 (-26/9) := by
  have h1 : fxSample (fxCfg 5 3 (fxDemo 1 2 2 .block) [1, 2] [0, 1] [1]) (fxDemo 1 2 2 .block) [1] "loudspeaker" 4 =
      some (-37/12) := by decide +kernel
  have h2 : fastSample (fxCfg 5 3 (fxDemo 1 2 2 .block) [1, 2] [0, 1] [1]) (fxDemo 1 2 2 .block) [1] "loudspeaker" 3 =
      some (-26/9) := by decide +kernel
  obtain ⟨st0, st, g1, g2⟩ := fxRun_steps h1
  obtain ⟨st0', st', g3, g4, g5⟩ := fastSample_produced h2
  exact ⟨fxCfg 5 3 (fxDemo 1 2 2 .block) [1, 2] [0, 1] [1], fxDemo 1 2 2 .block, fxSec [1], fun _ => 0, demoFilt,
    st0, st, st0', st', fxCfg_scene (by decide) (by decide) (by decide) (by decide) (by decide), rfl, rfl,
    fun _ _ _ _ => Nat.le_refl 2, by decide, rfl, g1, g3, g2, g4, fxSample_produced g1 h1, g5⟩

/-- Two taps, updates after two samples, a buffer of four; both learn the same. -/
example : ∃ (st0 st : SimSt ℚ (Fir ℚ) Nat Unit (FxSt ℚ) (DData ℚ (FxSt ℚ) ℚ) (DOut ℚ ℚ))
    (st0' st' : SimSt ℚ (Fir ℚ) Nat Unit (FastSt ℚ) (DData ℚ (FastSt ℚ) ℚ) (DOut ℚ ℚ)),
    (fxCfg 4 3 (fxDemo 1 2 2 .block) [1, 2] [0, 1] [1]).steps 7 st0 = .ok st ∧
    (fastCfg (fxCfg 4 3 (fxDemo 1 2 2 .block) [1, 2] [0, 1] [1]) (fxDemo 1 2 2 .block)).steps 7 st0' = .ok st' ∧
    st'.eng.proc.ctrl = st.eng.proc.ctrl ∧ st.eng.proc.ctrl.mat.ir 0 0 ≠ [0, 0] := by
  have h1 : (match fxRun (fxCfg 4 3 (fxDemo 1 2 2 .block) [1, 2] [0, 1] [1]) (fxDemo 1 2 2 .block) [1] with
      | .error _ => none
      | .ok st0 => match (fxCfg 4 3 (fxDemo 1 2 2 .block) [1, 2] [0, 1] [1]).steps 7 st0 with
        | .error _ => none
        | .ok st => some (decide (st.eng.proc.ctrl.mat.ir 0 0 ≠ [0, 0]))) = some true := by decide +kernel
  have h2 : fastSample (fxCfg 4 3 (fxDemo 1 2 2 .block) [1, 2] [0, 1] [1]) (fxDemo 1 2 2 .block) [1] "loudspeaker" 7 =
      some (-30446041/3067200) := by decide +kernel
  obtain ⟨st0', st', g3, g4, -⟩ := fastSample_produced h2
  split at h1
  · cases h1
  · rename_i st0 h0
    split at h1
    · cases h1
    · rename_i st hk
      have hsc : FxScene (fxCfg 4 3 (fxDemo 1 2 2 .block) [1, 2] [0, 1] [1]) (fxDemo 1 2 2 .block) :=
        fxCfg_scene (by decide) (by decide) (by decide) (by decide) (by decide)
      exact ⟨st0, st, st0', st', hk, g4, (C147_partial (Sp := fxSec [1]) hsc rfl rfl (fun _ _ _ _ => Nat.le_refl 2) ⟨2, rfl⟩
        (.inl (by decide)) h0 g3 hk g4).2.2, of_decide_eq_true (Option.some.inj h1)⟩

end Verif

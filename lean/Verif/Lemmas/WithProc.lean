/-
Simulations that differ in the processor and the diagnostics.
-/
import Verif.Spec.FastBlock
import Verif.Lemmas.Sim
namespace Verif

section
variable {R IR F S A P D O P' D' O' Sg : Type}

/-- The same engine with another processor. -/
def Eng.setProc (e : Eng Sg F S A P) (p : P') : Eng Sg F S A P' := ⟨e.sig, e.srcs, e.filts, e.arr, p⟩

theorem foldlM_setProc {γ : Type} {f : Eng Sg F S A P → γ → Except PyErr (Eng Sg F S A P)}
    {f' : Eng Sg F S A P' → γ → Except PyErr (Eng Sg F S A P')} (p : P')
    (h : ∀ e x, f' (e.setProc p) x = (f e x).map fun e => e.setProc p) :
    ∀ (l : List γ) (e : Eng Sg F S A P), l.foldlM f' (e.setProc p) = (l.foldlM f e).map fun e => e.setProc p
  | [], e => rfl
  | x :: l, e => by
    rw [List.foldlM_cons, List.foldlM_cons, h]
    cases f e x with
    | error y => rfl
    | ok e1 => exact foldlM_setProc p h l e1

variable (cfg : SimCfg R IR F S A P D O) (proc : Option (Proc R P')) (diag : DiagOps R P' D' O') (p : P')

theorem prepare_setProc [Add R] (e : Eng (Sigs R) F S A P) :
    (cfg.withProc proc diag).prepare (e.setProc p) = (cfg.prepare e).map fun e => e.setProc p := by
  unfold SimCfg.prepare
  have h1 := foldlM_setProc p (f := cfg.prepSource cfg.prepNum)
    (f' := (cfg.withProc proc diag).prepSource (cfg.withProc proc diag).prepNum) (by
      intro e a
      unfold SimCfg.prepSource
      show (match cfg.srcGet (e.srcs a.name) cfg.prepNum with | .error x => _ | .ok (s', v) => _) = _
      cases cfg.srcGet (e.srcs a.name) cfg.prepNum with
      | error x => rfl
      | ok y =>
        obtain ⟨s', v⟩ := y
        dsimp only
        show (match sigAssign e.sig a.name ((cfg.B : Int) - cfg.prepNum) cfg.B v with | .error x => _ | .ok sig => _) = _
        cases sigAssign e.sig a.name ((cfg.B : Int) - cfg.prepNum) cfg.B v <;> rfl) (freeOf cfg.arrays) e
  have h2 := foldlM_setProc p (f := cfg.prepPair cfg.prepNum)
    (f' := (cfg.withProc proc diag).prepPair (cfg.withProc proc diag).prepNum) (by
      intro e x
      unfold SimCfg.prepPair
      show (match sigGet e.sig x.1.name ((cfg.B : Int) - cfg.prepNum) cfg.B with | .error x => _ | .ok sig => _) = _
      cases sigGet e.sig x.1.name ((cfg.B : Int) - cfg.prepNum) cfg.B with
      | error x => rfl
      | ok v =>
        dsimp only
        show (match cfg.filt.process (e.filts x.1.name x.2.name) v with | .error x => _ | .ok (f', y) => _) = _
        cases cfg.filt.process (e.filts x.1.name x.2.name) v with
        | error x => rfl
        | ok y =>
          obtain ⟨f', y⟩ := y
          dsimp only
          show (match sigAdd e.sig x.2.name 0 cfg.B y with | .error x => _ | .ok sig => _) = _
          cases sigAdd e.sig x.2.name 0 cfg.B y with
          | error x => rfl
          | ok sig =>
            dsimp only
            show (match (if cfg.contrib then
              sigAssign sig (contribName x.1 x.2) ((cfg.B : Int) - cfg.prepNum) cfg.B y else .ok sig) with
              | .error x => _ | .ok sig => _) = _
            cases (if cfg.contrib then
              sigAssign sig (contribName x.1 x.2) ((cfg.B : Int) - cfg.prepNum) cfg.B y else .ok sig) <;> rfl)
    (combosOf cfg.arrays)
  rw [show freeOf (cfg.withProc proc diag).arrays = freeOf cfg.arrays from rfl, h1]
  cases (freeOf cfg.arrays).foldlM (cfg.prepSource cfg.prepNum) e with
  | error x => rfl
  | ok e1 => exact h2 e1

theorem propagate_setProc [Add R] (i : Int) (e : Eng (Sigs R) F S A P) :
    (cfg.withProc proc diag).propagate i (e.setProc p) = (cfg.propagate i e).map fun e => e.setProc p := by
  unfold SimCfg.propagate
  have h1 := foldlM_setProc p (f := cfg.stepSource i) (f' := (cfg.withProc proc diag).stepSource i) (by
      intro e a
      unfold SimCfg.stepSource
      show (match cfg.srcGet (e.srcs a.name) 1 with | .error x => _ | .ok (s', v) => _) = _
      cases cfg.srcGet (e.srcs a.name) 1 with
      | error x => rfl
      | ok y =>
        obtain ⟨s', v⟩ := y
        dsimp only
        show (match sigAssign e.sig a.name i (i + 1) v with | .error x => _ | .ok sig => _) = _
        cases sigAssign e.sig a.name i (i + 1) v <;> rfl) (freeOf cfg.arrays) e
  have h3 := foldlM_setProc p (f := cfg.stepUpdate (Sg := Sigs R)) (f' := (cfg.withProc proc diag).stepUpdate) (by
      intro e x
      unfold SimCfg.stepUpdate
      by_cases hd : (x.1.dynamic || x.2.dynamic) = true
      · rw [if_pos hd, if_pos hd]
        show (match cfg.arrPath e.arr x.1.name x.2.name with | .error x => _ | .ok ir => _) = _
        cases cfg.arrPath e.arr x.1.name x.2.name with
        | error x => rfl
        | ok ir =>
          dsimp only
          show (match cfg.filt.updateIr (e.filts x.1.name x.2.name) ir with | .error x => _ | .ok f' => _) = _
          cases cfg.filt.updateIr (e.filts x.1.name x.2.name) ir <;> rfl
      · rw [if_neg hd, if_neg hd]; rfl) (combosOf cfg.arrays)
  have h2 := foldlM_setProc p (f := cfg.stepPair i) (f' := (cfg.withProc proc diag).stepPair i) (by
      intro e x
      unfold SimCfg.stepPair
      show (match sigGet e.sig x.1.name i (i + 1) with | .error x => _ | .ok sig => _) = _
      cases sigGet e.sig x.1.name i (i + 1) with
      | error x => rfl
      | ok v =>
        dsimp only
        show (match cfg.filt.process (e.filts x.1.name x.2.name) v with | .error x => _ | .ok (f', y) => _) = _
        cases cfg.filt.process (e.filts x.1.name x.2.name) v with
        | error x => rfl
        | ok y =>
          obtain ⟨f', y⟩ := y
          dsimp only
          show (match sigAdd e.sig x.2.name i (i + 1) y with | .error x => _ | .ok sig => _) = _
          cases sigAdd e.sig x.2.name i (i + 1) y with
          | error x => rfl
          | ok sig =>
            dsimp only
            show (match (if cfg.contrib then
              sigAssign sig (contribName x.1 x.2) i (i + 1) y else .ok sig) with
              | .error x => _ | .ok sig => _) = _
            cases (if cfg.contrib then
              sigAssign sig (contribName x.1 x.2) i (i + 1) y else .ok sig) <;> rfl)
    (combosOf cfg.arrays)
  rw [show freeOf (cfg.withProc proc diag).arrays = freeOf cfg.arrays from rfl, h1]
  cases (freeOf cfg.arrays).foldlM (cfg.stepSource i) e with
  | error x => rfl
  | ok e1 =>
    dsimp only [Except.map]
    rw [show combosOf (cfg.withProc proc diag).arrays = combosOf cfg.arrays from rfl, h3]
    cases (combosOf cfg.arrays).foldlM cfg.stepUpdate e1 with
    | error x => rfl
    | ok e2 => exact h2 e2

/-- Preparation does not look at the processor beyond its signals. -/
theorem init_setProc [Zero R] [Add R] (hx : (cfg.withProc proc diag).signalList = cfg.signalList) {srcs : String → S} {arr : A}
    {p0 : P} {f0 : F} {ds : List (Diag D)} {ds' : List (Diag D')} {st : SimSt R F S A P D O} {st' : SimSt R F S A P' D' O'}
    (h : cfg.init srcs arr p0 f0 ds = .ok st) (h' : (cfg.withProc proc diag).init srcs arr p f0 ds' = .ok st') :
    st'.eng = st.eng.setProc p ∧ st'.idx = st.idx ∧ st'.n = st.n := by
  unfold SimCfg.init at h h'
  have hs : (cfg.withProc proc diag).createSignals = cfg.createSignals := by
    unfold SimCfg.createSignals; rw [hx]; rfl
  have hf : (cfg.withProc proc diag).createFilters arr (fun _ _ => f0) = cfg.createFilters arr fun _ _ => f0 := rfl
  rw [hs, hf] at h'
  cases hs : cfg.createSignals with
  | error x => rw [hs] at h; cases h
  | ok sig =>
    rw [hs] at h h'
    dsimp only at h h'
    cases hf : cfg.createFilters arr fun _ _ => f0 with
    | error x => rw [hf] at h; cases h
    | ok fs =>
      rw [hf] at h h'
      dsimp only at h h'
      have hp := prepare_setProc cfg proc diag p ⟨sig, srcs, fs, arr, p0⟩
      rw [show (⟨sig, srcs, fs, arr, p⟩ : Eng (Sigs R) F S A P') = Eng.setProc ⟨sig, srcs, fs, arr, p0⟩ p from rfl, hp] at h'
      cases hq : cfg.prepare ⟨sig, srcs, fs, arr, p0⟩ with
      | error x => rw [hq] at h; cases h
      | ok e =>
        rw [hq] at h h'
        simp only [Except.map, Except.ok.injEq] at h h'
        subst h h'
        exact ⟨rfl, rfl, rfl⟩

end
end Verif

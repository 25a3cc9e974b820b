/-
How far the signals reach back when the processor `FxLMS` is called.
-/
import Verif.Lemmas.AdaptiveRun
namespace Verif

/-- The buffer index at every step. -/
theorem steps_index {R IR F S A P D O : Type} [Zero R] [Add R] {cfg : SimCfg R IR F S A P D O} {st0 : SimSt R F S A P D O}
    (h0 : st0.idx = cfg.B) (hB : cfg.mbs ≤ cfg.B + 1) (hm : 0 < cfg.mbs) (hC : cfg.mbs ≤ cfg.C) :
    ∀ k {st : SimSt R F S A P D O}, cfg.steps k st0 = .ok st → st.idx = cfg.indexAt k
  | 0, st, hs => by
    cases hs
    rw [h0]
    unfold SimCfg.indexAt
    rw [Nat.zero_add, Nat.mod_eq_of_lt (by omega)]
    omega
  | k + 1, st, hs => by
    simp only [SimCfg.steps] at hs
    split at hs
    · cases hs
    · rename_i s1 h1
      have ih := steps_index h0 hB hm hC k h1
      have hidx : st.idx = (if s1.idx + cfg.mbs ≥ cfg.C + cfg.B then s1.idx - cfg.C else s1.idx) + 1 := by
        unfold SimCfg.step at hs
        split at hs
        · cases hs
        · dsimp only at hs
          split at hs
          · cases hs
          · split at hs
            · cases hs
            · cases hs
              simp only [SimCfg.lastBlock, decide_eq_true_eq]
      have hC0 : 0 < cfg.C := by omega
      have hlt := Nat.mod_lt (k + cfg.mbs - 1) hC0
      have hmod : (k + 1 + cfg.mbs - 1) % cfg.C =
          if (k + cfg.mbs - 1) % cfg.C + 1 = cfg.C then 0 else (k + cfg.mbs - 1) % cfg.C + 1 := by
        rw [show k + 1 + cfg.mbs - 1 = (k + cfg.mbs - 1) + 1 by omega, ← Nat.mod_add_mod]
        split
        · rename_i hc; rw [hc, Nat.mod_self]
        · exact Nat.mod_eq_of_lt (by omega)
      rw [hidx, ih]
      unfold SimCfg.indexAt
      rw [hmod]
      generalize (k + cfg.mbs - 1) % cfg.C = x at *
      split <;> split <;> omega

theorem steps_index_le {R IR F S A P D O : Type} [Zero R] [Add R] {cfg : SimCfg R IR F S A P D O} {st0 : SimSt R F S A P D O} :
    ∀ k {st : SimSt R F S A P D O}, cfg.steps k st0 = .ok st → st.idx ≤ st0.idx + k
  | 0, st, hs => by cases hs; simp
  | k + 1, st, hs => by
    simp only [SimCfg.steps] at hs
    split at hs
    · cases hs
    · rename_i s1 h1
      have ih := steps_index_le k h1
      unfold SimCfg.step at hs
      split at hs
      · cases hs
      · dsimp only at hs
        split at hs
        · cases hs
        · split at hs
          · cases hs
          · cases hs
            show (if _ then s1.idx - cfg.C else s1.idx) + 1 ≤ _
            push_cast
            have hC : (0 : Int) ≤ cfg.C := Int.natCast_nonneg _
            split
            · have := Int.sub_le_self s1.idx hC
              exact le_trans (add_le_add_left this 1) (by omega)
            · omega

section
variable {R IR F S A D O : Type} [Field R] {q : FxPar R} {cfg : SimCfg R IR F S A (FxSt R) D O}

/-- The counter of the processor. -/
def CntInv (q : FxPar R) (k : Nat) (p : FxSt R) : Prop :=
  p.cnt.idx = ((k / q.bs * q.bs : Nat) : Int) ∧ ("update_filter" ∈ p.cnt.event ↔ 0 < k / q.bs ∧ q.ub ∣ k / q.bs * q.bs)

theorem CntInv.call {k : Nat} {p : FxSt R} (hbs : 0 < q.bs) (h : CntInv q k p) (T : Tape R) (hk : k % q.bs = q.bs - 1) :
    CntInv q (k + 1) (fxAct q p T k).1 := by
  obtain ⟨c, hc⟩ : ∃ c, k / q.bs = c := ⟨_, rfl⟩
  have hkc : k = c * q.bs + (q.bs - 1) := by
    have h1 := Nat.div_add_mod k q.bs
    rw [Nat.mul_comm, hc] at h1; omega
  have hdiv : (k + 1) / q.bs = c + 1 := by
    have : k + 1 = q.bs * (c + 1) := by rw [Nat.mul_add, Nat.mul_comm]; omega
    rw [this, Nat.mul_div_cancel_left _ hbs]
  have hnext : (c + 1) * q.bs = c * q.bs + q.bs := by rw [Nat.add_mul, Nat.one_mul]
  have i1 : p.cnt.idx = ((c * q.bs : Nat) : Int) := by rw [h.1, hc]
  obtain ⟨b, hb⟩ : ∃ b, q.bs = b + 1 := ⟨q.bs - 1, by omega⟩
  have hcnt : (fxAct q p T k).1.cnt = fxCount q p.cnt q.bs := rfl
  unfold CntInv
  rw [hcnt, hdiv]
  constructor
  · have : (fxCount q p.cnt q.bs).idx = p.cnt.idx + q.bs := by rw [hb]; rfl
    rw [this, i1, hnext]
    push_cast; ring
  · have : (fxCount q p.cnt q.bs).event = if (p.cnt.idx + q.bs - (q.ub : Int)).fmod q.ub = 0 then ["update_filter"] else [] := by
      rw [hb]; rfl
    rw [this, i1]
    have e1 : ((c * q.bs : Nat) : Int) + q.bs - (q.ub : Int) = (((c + 1) * q.bs : Nat) : Int) - q.ub := by
      rw [hnext]; push_cast; ring
    rw [e1]
    have e2 : ((((c + 1) * q.bs : Nat) : Int) - q.ub).fmod q.ub = 0 ↔ q.ub ∣ (c + 1) * q.bs := by
      rw [← Int.natCast_dvd_natCast, ← Int.dvd_iff_fmod_eq_zero]
      exact ⟨fun h => by have := dvd_add h (dvd_refl (q.ub : Int)); rwa [sub_add_cancel] at this,
        fun h => dvd_sub h (dvd_refl _)⟩
    by_cases hx : q.ub ∣ (c + 1) * q.bs
    · rw [if_pos (e2.2 hx)]; simp [hx]
    · rw [if_neg (fun h => hx (e2.1 h))]; simp [hx]

theorem CntInv.steps (h : FxScene cfg q) (hN : Names cfg) {e0 : Eng (Tape R) F S A (FxSt R)}
    (h0 : CntInv q 0 e0.proc) : ∀ (k : Nat) {te}, cfg.gSteps (fxTape (fx_dims h hN)) k e0 = .ok te → CntInv q k te.proc
  | 0, te, hs => by cases hs; exact h0
  | k + 1, te, hs => by
    simp only [SimCfg.gSteps] at hs
    split at hs
    · cases hs
    · rename_i e1 h1
      have hI := CntInv.steps h hN h0 k h1
      unfold SimCfg.gEngine at hs
      split at hs
      · cases hs
      · rename_i arr _
        rw [tPropagate_proc hs]
        have hbs := h.bs
        by_cases hm : k % q.bs = q.bs - 1
        · have hgp : (cfg.gProc (fxTape (fx_dims h hN)) k { e1 with arr := arr }).proc = (fxAct q e1.proc e1.sig k).1 := by
            unfold SimCfg.gProc
            rw [if_pos (show k % (fxProc q).bs = (fxProc q).bs - 1 from hm)]
            rfl
          rw [hgp]
          exact hI.call hbs e1.sig hm
        · have hgp : (cfg.gProc (fxTape (fx_dims h hN)) k { e1 with arr := arr }).proc = e1.proc := by
            unfold SimCfg.gProc
            rw [if_neg (show ¬ k % (fxProc q).bs = (fxProc q).bs - 1 from hm)]
          rw [hgp]
          have hnext : (k + 1) / q.bs = k / q.bs := by
            rw [Nat.succ_div, if_neg, Nat.add_zero]
            intro hdvd
            have h1 : k % q.bs < q.bs := Nat.mod_lt _ (by omega)
            have h3 : (k % q.bs + 1) % q.bs = 0 := by
              rw [Nat.mod_add_mod]
              exact Nat.mod_eq_zero_of_dvd hdvd
            rw [Nat.mod_eq_of_lt (by omega)] at h3
            omega
          unfold CntInv
          rw [hnext]
          exact hI

/-- How far the processor looks back when called at step `k`. -/
theorem CntInv.look {k : Nat} {p : FxSt R} (hbs : 0 < q.bs) (h : CntInv q k p) (hm : k % q.bs = q.bs - 1) :
    fxLook q p = looksBack q (q.ub + q.L - 1) k := by
  have e : k / q.bs * q.bs = k + 1 - q.bs := by
    have h1 := Nat.div_add_mod k q.bs
    rw [Nat.mul_comm] at h1
    omega
  have e2 : 0 < k / q.bs ↔ 0 < k + 1 - q.bs := by
    rw [← e]
    exact ⟨fun h => Nat.mul_pos h hbs, fun h => Nat.pos_of_mul_pos_right h⟩
  unfold fxLook looksBack
  simp only [h.2, e, e2]

theorem CntInv.update {look k : Nat} {p : FxSt R} (hbs : 0 < q.bs) (h : CntInv q k p) (hm : k % q.bs = q.bs - 1)
    (hev : "update_filter" ∈ p.cnt.event) : looksBack q look k = look := by
  have e : k / q.bs * q.bs = k + 1 - q.bs := by
    have h1 := Nat.div_add_mod k q.bs
    rw [Nat.mul_comm] at h1
    omega
  obtain ⟨h1, h2⟩ := h.2.1 hev
  unfold looksBack
  rw [e] at h2
  exact if_pos ⟨by rw [← e]; exact Nat.mul_pos h1 hbs, h2⟩

theorem FxScene.mbs (h : FxScene cfg q) : cfg.mbs = q.bs := by
  unfold SimCfg.mbs
  rw [h.proc]
  rfl

theorem CntInv.start (hN : Names cfg) (Sp : IrMat R) {srcs : String → S} {arr : A} {f0 : F} {e : Eng (Tape R) F S A (FxSt R)}
    (he : cfg.tInit srcs arr (fxInit q Sp) f0 = .ok e) : CntInv q 0 (fxStart q cfg.B e).proc := by
  have hp := tInit_proc hN he
  constructor
  · show e.proc.cnt.idx = _
    rw [hp, Nat.zero_div, Nat.zero_mul]; rfl
  · show "update_filter" ∈ e.proc.cnt.event ↔ _
    rw [hp, Nat.zero_div]
    simp [fxInit, EventSt.init]

/-- What the processor looks at is in the buffer. -/
theorem FxScene.holds_index (h : FxScene cfg q) {look N : Nat} (hb : Holds cfg q look N) (hlook : q.bs ≤ look) (hN : Names cfg) {e0 : Eng (Tape R) F S A (FxSt R)}
    {st0 st : SimSt R F S A (FxSt R) D O} {r0 : Int}
    (hI : GInv (fxTape (fx_dims h hN)) e0 0 st0 e0 (-(cfg.B : Int)) r0) {k : Nat} (hs : cfg.steps k st0 = .ok st)
    (hm : k % q.bs = q.bs - 1) (hk : k < N) : ((looksBack q look k : Nat) : Int) ≤ st.idx := by
  have hmbs := h.mbs
  have hbs := h.bs
  have hBB := h.buffer.1
  rcases hb with hb | ⟨hC, hb⟩
  · obtain ⟨te, off, r, hT⟩ := GInv.steps (fx_sizes h hN) hI k hs
    have hlow := hT.pos.low
    rw [hmbs] at hlow
    unfold looksBack
    split <;> omega
  · have h0 : st0.idx = cfg.B := by have := hI.pos.sync; omega
    rw [steps_index h0 (by omega) (by omega) (by omega) k hs]
    exact_mod_cast hb k hk hm

/-- In a run that gets so far, no update looks back beyond the beginning of the first buffer. -/
theorem FxScene.looked (h : FxScene cfg q) (hN : Names cfg) {e0 : Eng (Tape R) F S A (FxSt R)}
    {st0 st : SimSt R F S A (FxSt R) D O} {r0 : Int} (hI : GInv (fxTape (fx_dims h hN)) e0 0 st0 e0 (-(cfg.B : Int)) r0)
    {k : Nat} (hk : cfg.steps k st0 = .ok st) {j : Nat} (hj : j < k) {te : Eng (Tape R) F S A (FxSt R)}
    (ht : cfg.gSteps (fxTape (fx_dims h hN)) j e0 = .ok te) (hm : j % q.bs = q.bs - 1)
    (hev : "update_filter" ∈ te.proc.cnt.event) : q.ub + q.L ≤ cfg.B + j + 1 := by
  obtain ⟨m, rfl⟩ := Nat.exists_eq_add_of_lt hj
  rw [Nat.add_right_comm] at hk
  obtain ⟨s', hs'⟩ := steps_prefix cfg (n := j + 1) m hk
  simp only [SimCfg.steps] at hs'
  split at hs'
  · cases hs'
  · rename_i s1 h1
    obtain ⟨te1, off, r, hT⟩ := GInv.steps (fx_sizes h hN) hI j h1
    have hte : te1 = te := by have := hT.tape; rw [ht] at this; cases this; rfl
    subst hte
    unfold SimCfg.step at hs'
    cases he : cfg.engine s1.n s1.idx s1.eng with
    | error x => rw [he] at hs'; cases hs'
    | ok e =>
      have hr := hT.reach (fx_sizes h hN) he hm
      have hle := steps_index_le j h1
      have h0 : st0.idx = cfg.B := by have := hI.pos.sync; omega
      change ((fxLook q te1.proc : Nat) : Int) ≤ _ at hr
      unfold fxLook at hr
      rw [if_pos hev] at hr
      omega

theorem Holds.mono {look look' N N' : Nat} (h : Holds cfg q look N) (hl : look' ≤ look) (hN : N' ≤ N) : Holds cfg q look' N' := by
  rcases h with h | ⟨h1, h2⟩
  · exact .inl (by omega)
  · refine .inr ⟨h1, fun k hk hm => le_trans ?_ (h2 k (by omega) hm)⟩
    unfold looksBack
    split <;> omega

end
end Verif

/-
Simulations with FxLMS whose buffer is too short for one of the updates.
-/
import Verif.Lemmas.AdaptiveTotal
namespace Verif

section
variable {R IR F S A P D O : Type} [Zero R] [Add R] {cfg : SimCfg R IR F S A P D O}

/-- What was raised stays raised. -/
theorem steps_raised {st0 : SimSt R F S A P D O} {n : Nat} {x : PyErr} (h : cfg.steps n st0 = .error x) :
    ∀ m, cfg.steps (n + m) st0 = .error x
  | 0 => h
  | m + 1 => by
    rw [← Nat.add_assoc]
    simp only [SimCfg.steps, steps_raised h m]

/-- With a buffer that does not go back far enough a step with fine arrays raises what the
processor raises. -/
theorem engine_raises {p : Proc R P} (tp : TapeProc cfg.dims p) (hp : cfg.proc = some p) (hbs : 0 < p.bs)
    (off : Int) (L i n : Nat) (hM : tp.M ≤ L) (e : Eng (Tape R) F S A P) (hm : n % p.bs = p.bs - 1) (hi : i < tp.H e.proc)
    (hL : i + p.bs ≤ L) (hg : tp.good e.proc) {arr : A} (ha : cfg.arrUpdate e.arr n = .ok arr) :
    cfg.engine n i (conc cfg.dims off L e) = .error .value := by
  unfold SimCfg.engine
  rw [show (conc cfg.dims off L e).arr = e.arr from rfl, ha]
  dsimp only
  unfold SimCfg.callProc
  rw [hp]
  simp only [conc]
  rw [if_neg (by omega), if_pos hm]
  rw [tp.fails e.proc e.sig off i L hg hM hi hL]

end

section
variable {R S A V : Type} [Field R] [DecidableEq R] {q : FxPar R}
  {cfg : SimCfg R (IrMat R) (Fir R) S A (FxSt R) (DData R (FxSt R) V) (DOut R V)}
  {srcs : String → S} {arr : A} {J : A → Prop}

/-- If some call finds a buffer that does not go back far enough, the simulation raises. -/
theorem FxScene.fails (h : FxScene cfg q) (hC : q.bs ≤ cfg.C) (hb : ¬ Reaches cfg q (q.ub + q.L - 1) (cfg.tot + q.bs))
    (hv : ValidScene cfg srcs arr J) (Sp : IrMat R) (f0 : Fir R)
    {ds0 : List (Diag (DData R (FxSt R) V))} (hnd : (ds0.map Diag.name).Nodup)
    (hds : ∀ d ∈ ds0, d.Fits cfg (FxGood q)) (hreads : ∀ d ∈ ds0, ∀ name ∈ d.data.reads, name ≠ "xf") :
    cfg.runWith fxPrepare srcs arr (fxInit q Sp) f0 ds0 = .error .value := by
  classical
  have hN := names_of cfg hv.names
  obtain ⟨st0, e, hst0, hd0, hl0, he, hI, s0⟩ := h.begins hv Sp f0 ds0 hN
  have hbs := h.bs
  have hex : ∃ k, k < cfg.tot + q.bs ∧ k % q.bs = q.bs - 1 ∧ cfg.indexAt k < looksBack q (q.ub + q.L - 1) k := by
    unfold Reaches at hb
    push_neg at hb
    exact hb
  obtain ⟨g1, g2, g3⟩ := Nat.find_spec hex
  have hmin : ∀ j < Nat.find hex, j % q.bs = q.bs - 1 → looksBack q (q.ub + q.L - 1) j ≤ cfg.indexAt j := by
    intro j hj hm
    by_contra hn
    exact Nat.find_min hex hj ⟨by omega, hm, by omega⟩
  generalize Nat.find hex = k at g1 g2 g3 hmin
  obtain ⟨st, hs⟩ := gLoop_until (ok := fun name => name ≠ "xf") (N := k) (fx_sizes h hN) hv.diag hnd
    (fun name hn => fx_past _ hn) hI hd0 hl0
    (fun k te hte => by
      obtain ⟨te1, g1, g2⟩ := Sound.gSteps _ hv hN s0 k
      rw [g1] at hte
      cases hte
      obtain ⟨te', g3, _⟩ := g2.gEngine _ hv hN k
      exact ⟨te', g3⟩)
    (fun d hd => (hds d hd).live hv.diag fun _ n _ => by
      obtain ⟨te, g1, g2⟩ := Sound.gSteps _ hv hN s0 (n + 1)
      exact ⟨te.proc, by simp only [SimCfg.gProcAfter, g1], g2.proc⟩)
    hreads (by rw [h.mbs]; omega) (fun j hj hm st te hs hte => by
      have hcnt := CntInv.steps h hN (CntInv.start hN Sp he) j hte
      show ((fxLook q te.proc : Nat) : Int) ≤ _
      rw [hcnt.look h.bs hm]
      exact h.holds_index (N := k) (.inr ⟨hC, fun i hi hm => hmin i hi hm⟩)
        (by have := Nat.le_of_dvd h.ub.1 h.ub.2; have := h.L; omega) hN hI hs hm hj) k (le_refl _)
  obtain ⟨te, off, r, hT⟩ := GInv.steps (fx_sizes h hN) hI k hs
  obtain ⟨te1, t1, t2⟩ := Sound.gSteps _ hv hN s0 k
  rw [hT.tape] at t1
  cases t1
  obtain ⟨arr', ha, _⟩ := hv.moves te.arr k t2.arr
  have hmbs := h.mbs
  have hBB := h.buffer.1
  have hidx := steps_index (by have := hI.pos.sync; omega) (by omega) (by omega) (by omega) k hs
  have hcnt := CntInv.steps h hN (CntInv.start hN Sp he) k hT.tape
  have hraise : cfg.engine st.n st.idx st.eng = .error .value := by
    have hfit := hT.pos.block_fits (by omega) (by rw [hmbs]; omega) (by rw [hmbs]; exact g2)
    rw [hT.n, hidx, hT.eng]
    refine engine_raises (fxTape (fx_dims h hN)) h.proc hbs off (cfg.B + cfg.C) (cfg.indexAt k) k h.buffer.2 te g2 ?_ ?_ hT.good ha
    · show _ < fxLook q te.proc
      rw [hcnt.look hbs g2]
      exact g3
    · show cfg.indexAt k + q.bs ≤ _
      omega
  have hstep : cfg.steps (k + 1) st0 = .error .value := by
    simp only [SimCfg.steps, hs]
    unfold SimCfg.step
    rw [hraise]
  unfold SimCfg.runWith
  rw [hst0]
  have hlast : cfg.steps (cfg.tot + cfg.mbs) st0 = .error .value := by
    have := steps_raised hstep (cfg.tot + cfg.mbs - (k + 1))
    rwa [Nat.add_sub_cancel' (by omega)] at this
  simp only [hlast]

/-- Where the calls fall repeats itself after as many samples as both a chunk and the
updates divide. -/
theorem Reaches.all {look N : Nat} (hbs : 0 < q.bs) (hub : 0 < q.ub ∧ q.bs ∣ q.ub) (hmbs : cfg.mbs = q.bs) (hC : 0 < cfg.C)
    (h : Reaches cfg q look (N + q.bs)) (hN : Nat.lcm q.ub cfg.C ≤ N) (n : Nat) : Reaches cfg q look n := by
  intro k _ hm
  have hM : 0 < Nat.lcm q.ub cfg.C := Nat.lcm_pos hub.1 hC
  have d1 := Nat.dvd_lcm_left q.ub cfg.C
  have d2 := Nat.dvd_lcm_right q.ub cfg.C
  generalize Nat.lcm q.ub cfg.C = M at *
  have key : ∀ m j, j % q.bs = q.bs - 1 → 0 < j + 1 - q.bs → looksBack q look j ≤ cfg.indexAt j →
      looksBack q look (j + M * m) ≤ cfg.indexAt (j + M * m) := by
    intro m j hj hpos hr
    have hj2 : q.bs - 1 ≤ j := hj ▸ Nat.mod_le _ _
    have e1 : j + M * m + 1 - q.bs = (j + 1 - q.bs) + M * m := by omega
    have e2 : cfg.indexAt (j + M * m) = cfg.indexAt j := by
      unfold SimCfg.indexAt
      have : (j + M * m + cfg.mbs - 1) % cfg.C = (j + cfg.mbs - 1) % cfg.C := by
        obtain ⟨c, rfl⟩ := d2
        rw [show j + cfg.C * c * m + cfg.mbs - 1 = (j + cfg.mbs - 1) + cfg.C * (c * m) by rw [Nat.mul_assoc]; omega,
          Nat.add_mul_mod_self_left]
      rw [this]
    have e3 : looksBack q look (j + M * m) = looksBack q look j := by
      unfold looksBack
      rw [e1]
      have : q.ub ∣ (j + 1 - q.bs) + M * m ↔ q.ub ∣ j + 1 - q.bs := Nat.dvd_add_left (Dvd.dvd.mul_right d1 m)
      have hp : 0 < (j + 1 - q.bs) + M * m ↔ 0 < j + 1 - q.bs := by omega
      simp only [this, hp]
    rw [e2, e3]
    exact hr
  by_cases hk : k < N + q.bs
  · exact h k hk hm
  · have hpos : 0 < k + 1 - q.bs := by omega
    have hdm := Nat.div_add_mod (k - q.bs) M
    have hlt := Nat.mod_lt (k - q.bs) hM
    have hek : k = ((k - q.bs) % M + q.bs) + M * ((k - q.bs) / M) := by omega
    have hmj : ((k - q.bs) % M + q.bs) % q.bs = q.bs - 1 := by
      rw [hek] at hm
      obtain ⟨c, hc⟩ := hub.2.trans d1
      rw [hc, Nat.mul_assoc, Nat.add_mul_mod_self_left] at hm
      rw [hc]
      exact hm
    rw [hek]
    exact key _ _ hmj (by omega) (h _ (by omega) hmj)

end
end Verif

/-
Simulations with an adaptive processor that run to their end.
-/
import Verif.Lemmas.Fits
import Verif.Lemmas.TapeDiag
import Verif.Lemmas.AdaptiveReach
namespace Verif

theorem forall₂_mem_right {α β : Type} {r : α → β → Prop} {l : List α} {l' : List β} (h : List.Forall₂ r l l') :
    ∀ {y}, y ∈ l' → ∃ x ∈ l, r x y := by
  induction h with
  | nil => intro y hy; cases hy
  | cons h1 _ ih =>
    intro y hy
    rcases List.mem_cons.1 hy with rfl | hy
    · exact ⟨_, List.mem_cons_self, h1⟩
    · obtain ⟨x, h1, h2⟩ := ih hy
      exact ⟨x, List.mem_cons_of_mem _ h1, h2⟩

/-! ### The loop with a processor that writes into the past of its own signals -/

section
variable {R IR F S A P V : Type} [Field R] [DecidableEq R]
  {cfg : SimCfg R IR F S A P (DData R P V) (DOut R V)}

/-- One iteration succeeds. -/
theorem GDiags.step_ok {ok : String → Prop} [DecidablePred ok] {p : Proc R P} {tp : TapeProc cfg.dims p}
    {e0 te te' : Eng (Tape R) F S A P} {k N : Nat} {st : SimSt R F S A P (DData R P V) (DOut R V)} {off r : Int}
    {ds0 : List (Diag (DData R P V))} (hsz : GSizes cfg tp) (hdiag : cfg.diag = diagOps R P V)
    (hok : ∀ name, ok name → tp.Past name)
    (hlive : ∀ d ∈ ds0, d.Live cfg (cfg.gProcAfter tp e0) N) (hreads : ∀ d ∈ ds0, ∀ name ∈ d.data.reads, ok name)
    (hkN : k < N) (h : GInv tp e0 k st te off r) (hd : GDiags cfg ok te.sig (cfg.gProcAfter tp e0) ds0 k r st)
    (hH : k % p.bs = p.bs - 1 → (tp.H te.proc : Int) ≤ st.idx)
    (hte : cfg.gEngine tp k te = .ok te') : ∃ st', cfg.step st = .ok st' := by
  have hm := hsz.mbs
  have hbl := hsz.block
  have hl : cfg.diag.Local cfg.dims := by rw [hdiag]; exact diagOps_local _
  have hdiv : ∀ d x, cfg.diag.output d x ≠ .error .diverges := by
    rw [hdiag]; exact output_no_div
  unfold SimCfg.step
  rw [h.engine hsz hH, hte]
  simp only [Except.map]
  have htape : cfg.gSteps tp (k + 1) e0 = .ok te' := by
    simp only [SimCfg.gSteps, h.tape]; exact hte
  have hpf : (if cfg.proc.isSome then some (conc cfg.dims off (cfg.B + cfg.C) te').proc else none) =
      cfg.gProcAfter tp e0 k := by
    unfold SimCfg.gProcAfter; rw [htape, hsz.proc]; rfl
  have hlt := h.pos.idx_lt (by omega) hsz.chunk
  have hpast : ∀ nm c t, t < (k : Int) → te'.sig.only ok nm c t = te.sig.only ok nm c t := by
    intro nm c t ht
    unfold Tape.only
    split
    · rename_i hnm
      exact gEngine_past hte (hok nm hnm) c t ht
    · rfl
  -- per diagnostic
  have hone : ∀ d0 d, d0 ∈ ds0 → (d.name = d0.name ∧ d.data.reads = d0.data.reads ∧
      (d0.Fresh → (∀ name ∈ d0.data.reads, ok name) → ∃ ps xs,
      DInv cfg (te.sig.only ok) (cfg.gProcAfter tp e0) k r st.log d0 d ps xs ∧
        (cfg.plotNone = false → 0 < k → d.ready = false))) →
      ∃ d', saveOne cfg.diag (cfg.gProcAfter tp e0 k) (cut cfg.dims te'.sig off (cfg.B + cfg.C)) st.idx k
        (cfg.lastBlock st.idx) d = .ok d' ∧ d'.CanExport cfg.diag := by
    intro d0 d hd0 hd
    have hL := hlive d0 hd0
    obtain ⟨ps, xs, hD, hrd⟩ := hd.2.2 hL.1 (hreads d0 hd0)
    rw [saveOne_congr (S' := cut cfg.dims (te'.sig.only ok) off (cfg.B + cfg.C)) (by
      intro c g
      rw [hdiag]
      refine DData.save_congr (fun name hn => cut_only ?_) _ _ _
      rw [hd.2.1] at hn
      exact hreads d0 hd0 name hn)]
    obtain ⟨d', hd'⟩ := saveOne_ok (ops := cfg.diag) (proc := cfg.gProcAfter tp e0 k)
      (sig := cut cfg.dims (te'.sig.only ok) off (cfg.B + cfg.C)) (idx := st.idx) (last := cfg.lastBlock st.idx)
      hD.iv (by
        intro s hs0 hsn hrs hq
        obtain ⟨qs, hq⟩ := hq
        obtain ⟨dd, g1, _⟩ := hL.2 (te'.sig.only ok) (ps ++ [(s, (k : Int))]) qs
          (by rw [List.append_assoc]; exact hq)
          (by
            intro q hq
            rcases List.mem_append.1 hq with hq | hq
            · have := hD.iv.2.1 q hq; exact ⟨this.1, this.2.1, by omega⟩
            · rw [List.mem_singleton] at hq; subst hq; exact ⟨hs0, hsn, by simpa using hkN⟩)
        have hcongr : savePieces cfg.diag cfg.dims (te'.sig.only ok) (cfg.gProcAfter tp e0) ps d0.data =
            .ok d.data := by
          rw [← hD.data]
          apply savePieces_congr
          intro q hq k c t ht
          have := hD.iv.2.1 q hq
          exact hpast k c t (by omega)
        rw [savePieces_append, hcongr] at g1
        simp only [Except.bind, savePieces, List.foldlM_cons, List.foldlM_nil, Int.toNat_natCast] at g1
        refine ⟨dd, ?_⟩
        have hback := h.pos.back
        rw [hl.save_eq (te'.sig.only ok) off (cfg.B + cfg.C) d.data _ st.idx s k hsn h.pos.sync (by omega)
          (by push_cast; omega)]
        generalize cfg.diag.save d.data _ _ _ _ = z at g1
        cases z with
        | error x => cases g1
        | ok z => exact g1)
    refine ⟨d', hd', ?_⟩
    obtain ⟨ps', _, hD'⟩ := hD.save cfg (off := off) (idx := st.idx) (L := cfg.B + cfg.C)
      (last := cfg.lastBlock st.idx) (T' := te'.sig.only ok) hl hpast h.pos.rk h.pos.sync h.pos.back
      (by push_cast; omega) hrd hd'
    exact hD'.canExport cfg (by omega) hL
  have hall : ∀ (a b : List (Diag (DData R P V))), (∀ d0 ∈ a, d0 ∈ ds0) →
      List.Forall₂ (fun d0 d => d.name = d0.name ∧ d.data.reads = d0.data.reads ∧
        (d0.Fresh → (∀ name ∈ d0.data.reads, ok name) → ∃ ps xs,
        DInv cfg (te.sig.only ok) (cfg.gProcAfter tp e0) k r st.log d0 d ps xs ∧
          (cfg.plotNone = false → 0 < k → d.ready = false))) a b →
      ∃ ds, b.mapM (saveOne cfg.diag (cfg.gProcAfter tp e0 k)
        (cut cfg.dims te'.sig off (cfg.B + cfg.C)) st.idx k (cfg.lastBlock st.idx)) = .ok ds ∧
        ∀ d ∈ ds, d.CanExport cfg.diag := by
    intro a b hmem hf
    induction hf with
    | nil => exact ⟨[], rfl, by simp⟩
    | cons h1 _ ih =>
      obtain ⟨d', i1, i2⟩ := hone _ _ (hmem _ (by simp)) h1
      obtain ⟨ds, i3, i4⟩ := ih fun d hd => hmem d (by simp [hd])
      refine ⟨d' :: ds, by rw [List.mapM_cons, i1, i3]; rfl, ?_⟩
      intro x hx
      rcases List.mem_cons.1 hx with rfl | hx
      · exact i2
      · exact i4 x hx
  obtain ⟨ds, hds, hcan⟩ := hall _ _ (fun _ hd => hd) hd
  have hds' : saveData cfg.diag
      (if cfg.proc.isSome then some (conc cfg.dims off (cfg.B + cfg.C) te').proc else none)
      (conc cfg.dims off (cfg.B + cfg.C) te').sig st.idx st.n (cfg.lastBlock st.idx) st.diags = .ok ds := by
    rw [hpf, h.n]; exact hds
  simp only [hds']
  obtain ⟨ds', log', hd⟩ := dispatch_ok hdiv cfg.plotNone st.log hcan
  rw [hd]
  exact ⟨_, rfl⟩

/-- The loop succeeds as long as the buffer goes back far enough. -/
theorem gLoop_until {ok : String → Prop} [DecidablePred ok] {p : Proc R P} {tp : TapeProc cfg.dims p}
    {e0 : Eng (Tape R) F S A P} {st0 : SimSt R F S A P (DData R P V) (DOut R V)}
    {ds0 : List (Diag (DData R P V))} (hsz : GSizes cfg tp) (hdiag : cfg.diag = diagOps R P V)
    (hnd : (ds0.map Diag.name).Nodup) (hok : ∀ name, ok name → tp.Past name)
    (h : GInv tp e0 0 st0 e0 (-(cfg.B : Int)) 0) (hds : st0.diags = ds0) (hlog0 : st0.log = [])
    (hsteps : ∀ k te, cfg.gSteps tp k e0 = .ok te → ∃ te', cfg.gEngine tp k te = .ok te')
    (hlive : ∀ d ∈ ds0, d.Live cfg (cfg.gProcAfter tp e0) (cfg.tot + cfg.mbs))
    (hreads : ∀ d ∈ ds0, ∀ name ∈ d.data.reads, ok name) {N : Nat} (hN : N ≤ cfg.tot + cfg.mbs)
    (hlook : ∀ k < N, k % p.bs = p.bs - 1 → ∀ st te, cfg.steps k st0 = .ok st → cfg.gSteps tp k e0 = .ok te →
      (tp.H te.proc : Int) ≤ st.idx) :
    ∀ k ≤ N, ∃ st, cfg.steps k st0 = .ok st := by
  intro k
  induction k with
  | zero => intro _; exact ⟨_, rfl⟩
  | succ k ih =>
    intro hk
    obtain ⟨st, hs⟩ := ih (by omega)
    obtain ⟨te, off, r, hI, hD⟩ := GDiags.steps hsz hdiag hnd hok h (GDiags.start hds hlog0) _ hs
    obtain ⟨te', hte⟩ := hsteps k te hI.tape
    obtain ⟨st', hs'⟩ := GDiags.step_ok hsz hdiag hok hlive hreads (by omega) hI hD
      (fun hm => hlook k (by omega) hm st te hs hI.tape) hte
    exact ⟨st', by simp only [SimCfg.steps, hs]; exact hs'⟩

/-- The whole loop succeeds. -/
theorem gLoop_ok {ok : String → Prop} [DecidablePred ok] {p : Proc R P} {tp : TapeProc cfg.dims p}
    {e0 : Eng (Tape R) F S A P} {st0 : SimSt R F S A P (DData R P V) (DOut R V)}
    {ds0 : List (Diag (DData R P V))} (hsz : GSizes cfg tp) (hdiag : cfg.diag = diagOps R P V)
    (hnd : (ds0.map Diag.name).Nodup) (hok : ∀ name, ok name → tp.Past name)
    (h : GInv tp e0 0 st0 e0 (-(cfg.B : Int)) 0) (hds : st0.diags = ds0) (hlog0 : st0.log = [])
    (hsteps : ∀ k te, cfg.gSteps tp k e0 = .ok te → ∃ te', cfg.gEngine tp k te = .ok te')
    (hlive : ∀ d ∈ ds0, d.Live cfg (cfg.gProcAfter tp e0) (cfg.tot + cfg.mbs))
    (hreads : ∀ d ∈ ds0, ∀ name ∈ d.data.reads, ok name)
    (hlook : ∀ k < cfg.tot + cfg.mbs, k % p.bs = p.bs - 1 → ∀ st te, cfg.steps k st0 = .ok st →
      cfg.gSteps tp k e0 = .ok te → (tp.H te.proc : Int) ≤ st.idx) :
    ∃ st ds log, cfg.steps (cfg.tot + cfg.mbs) st0 = .ok st ∧
      dispatch cfg.diag cfg.plotNone st.diags st.log = .ok (ds, log) := by
  have hst := gLoop_until hsz hdiag hnd hok h hds hlog0 hsteps hlive hreads (le_refl _) hlook
  obtain ⟨st, hs⟩ := hst _ (le_refl _)
  obtain ⟨te, off, r, hI, hD⟩ := GDiags.steps hsz hdiag hnd hok h (GDiags.start hds hlog0) _ hs
  have hcan : ∀ d ∈ st.diags, d.CanExport cfg.diag := by
    intro d hd
    obtain ⟨d0, hd0, _, _, hI'⟩ := forall₂_mem_right hD hd
    obtain ⟨ps, xs, hI', _⟩ := hI' (hlive d0 hd0).1 (hreads d0 hd0)
    exact hI'.canExport cfg (le_refl _) (hlive d0 hd0)
  obtain ⟨ds', log', hd⟩ := dispatch_ok (by rw [hdiag]; exact output_no_div) cfg.plotNone st.log hcan
  exact ⟨st, ds', log', hs, hd⟩

end

section
variable {R S A P V : Type} [Field R] [DecidableEq R] {cfg : SimCfg R (IrMat R) (Fir R) S A P (DData R P V) (DOut R V)}
  {srcs : String → S} {arr : A} {J : A → Prop}

theorem Sound.gEngine {p : Proc R P} (tp : TapeProc cfg.dims p) (hv : ValidScene cfg srcs arr J) (hN : Names cfg)
    {e : Eng (Tape R) (Fir R) S A P} (h : Sound cfg J tp.good e) (n : Nat) :
    ∃ e', cfg.gEngine tp n e = .ok e' ∧ Sound cfg J tp.good e' := by
  unfold SimCfg.gEngine
  obtain ⟨arr', ha, hJ⟩ := hv.moves e.arr n h.arr
  rw [ha]
  refine Sound.propagate hv hN ?_ n
  unfold SimCfg.gProc
  split
  · exact ⟨h.streams, h.filts, hJ, tp.keep _ _ _ h.proc⟩
  · exact ⟨h.streams, h.filts, hJ, h.proc⟩

theorem Sound.gSteps {p : Proc R P} (tp : TapeProc cfg.dims p) (hv : ValidScene cfg srcs arr J) (hN : Names cfg)
    {e0 : Eng (Tape R) (Fir R) S A P} (h : Sound cfg J tp.good e0) :
    ∀ (k : Nat), ∃ te, cfg.gSteps tp k e0 = .ok te ∧ Sound cfg J tp.good te
  | 0 => ⟨e0, rfl, h⟩
  | k + 1 => by
    obtain ⟨te, h1, h2⟩ := Sound.gSteps tp hv hN h k
    obtain ⟨te', h3, h4⟩ := h2.gEngine tp hv hN k
    exact ⟨te', by simp only [SimCfg.gSteps, h1]; exact h3, h4⟩

end

/-! ### FxLMS -/

section
variable {R S A V : Type} [Field R] [DecidableEq R] {q : FxPar R}
  {cfg : SimCfg R (IrMat R) (Fir R) S A (FxSt R) (DData R (FxSt R) V) (DOut R V)}
  {srcs : String → S} {arr : A} {J : A → Prop}

/-- The preparation of a valid scene with the processor succeeds. -/
theorem FxScene.begins (h : FxScene cfg q) (hv : ValidScene cfg srcs arr J) (Sp : IrMat R) (f0 : Fir R)
    (ds0 : List (Diag (DData R (FxSt R) V))) (hN : Names cfg) :
    ∃ st0 e, cfg.initWith fxPrepare srcs arr (fxInit q Sp) f0 ds0 = .ok st0 ∧ st0.diags = ds0 ∧ st0.log = [] ∧
      cfg.tInit srcs arr (fxInit q Sp) f0 = .ok e ∧
      GInv (fxTape (fx_dims h hN)) (fxStart q cfg.B e) 0 st0 (fxStart q cfg.B e) (-(cfg.B : Int)) 0 ∧
      Sound cfg J (fxTape (fx_dims h hN)).good (fxStart q cfg.B e) := by
  obtain ⟨e, he, s⟩ := Sound.init (K := FxGood q) hv (fxInit_good q Sp) hN f0
  have hinit : ∃ st0, cfg.initWith fxPrepare srcs arr (fxInit q Sp) f0 ds0 = .ok st0 ∧ st0.diags = ds0 ∧ st0.log = [] := by
    unfold SimCfg.initWith
    rw [init_conc cfg (by have := h.buffer; omega) hv.names, he]
    simp only [Except.map, conc]
    rw [fx_prepared h hN Sp he]
    exact ⟨_, rfl, rfl, rfl⟩
  obtain ⟨st0, hst0, hd0, hl0⟩ := hinit
  obtain ⟨hN', e', he', hI⟩ := fx_init h Sp hst0
  rw [he] at he'
  cases he'
  exact ⟨st0, e, hst0, hd0, hl0, he, hI, s.streams, s.filts, s.arr, hI.good⟩

/-- A valid scene with the processor and fitting diagnostics runs to its end. -/
theorem FxScene.runs (h : FxScene cfg q) (hb : Holds cfg q (q.ub + q.L - 1) (cfg.tot + q.bs)) (hv : ValidScene cfg srcs arr J) (Sp : IrMat R) (f0 : Fir R)
    {ds0 : List (Diag (DData R (FxSt R) V))} (hnd : (ds0.map Diag.name).Nodup)
    (hds : ∀ d ∈ ds0, d.Fits cfg (FxGood q)) (hreads : ∀ d ∈ ds0, ∀ name ∈ d.data.reads, name ≠ "xf") :
    ∃ st0 fin, FxRun cfg q Sp srcs arr f0 ds0 st0 fin := by
  have hN := names_of cfg hv.names
  obtain ⟨st0, e, hst0, hd0, hl0, he, hI, s0⟩ := h.begins hv Sp f0 ds0 hN
  obtain ⟨st, ds, log, h1, h2⟩ := gLoop_ok (ok := fun name => name ≠ "xf") (fx_sizes h hN) hv.diag hnd
    (fun name hn => fx_past _ hn) hI hd0 hl0
    (fun k te hte => by
      obtain ⟨te1, g1, g2⟩ := Sound.gSteps _ hv hN s0 k
      rw [g1] at hte
      cases hte
      obtain ⟨te', g3, _⟩ := g2.gEngine _ hv hN k
      exact ⟨te', g3⟩)
    (fun d hd => (hds d hd).live hv.diag fun _ n _ => by
      obtain ⟨te, g1, g2⟩ := Sound.gSteps _ hv hN s0 (n + 1)
      exact ⟨te.proc, by simp only [SimCfg.gProcAfter, g1], g2.proc⟩)
    hreads (fun k hk hm st te hs hte => by
      rw [h.mbs] at hk
      have hcnt := CntInv.steps h hN (CntInv.start hN Sp he) k hte
      show ((fxLook q te.proc : Nat) : Int) ≤ _
      rw [hcnt.look h.bs hm]
      exact h.holds_index hb (by have := Nat.le_of_dvd h.ub.1 h.ub.2; have := h.L; omega) hN hI hs hm hk)
  refine ⟨st0, { st with diags := ds, log := log }, h, hv.diag, hnd, hst0, ?_⟩
  unfold SimCfg.runWith
  rw [hst0]
  simp only [h1, h2]

end
end Verif

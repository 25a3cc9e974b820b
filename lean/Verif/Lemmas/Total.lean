import Verif.Spec.Total
import Verif.Lemmas.Recording
import Verif.Lemmas.Mic

namespace Verif

theorem foldlM_ok {ε α γ : Type} (I : α → Prop) (step : α → γ → Except ε α) :
    ∀ (l : List γ) (t : α), (∀ t x, x ∈ l → I t → ∃ t', step t x = .ok t' ∧ I t') →
      I t → ∃ t', l.foldlM step t = .ok t' ∧ I t'
  | [], t, _, h0 => ⟨t, rfl, h0⟩
  | x :: l, t, H, h0 => by
    obtain ⟨t1, h1, h2⟩ := H t x (by simp) h0
    obtain ⟨t2, h3, h4⟩ := foldlM_ok I step l t1 (fun t x hx => H t x (by simp [hx])) h2
    refine ⟨t2, ?_, h4⟩
    rw [List.foldlM_cons, h1]
    exact h3

theorem mapM_ok {ε α β : Type} {f : α → Except ε β} : ∀ {l : List α},
    (∀ x ∈ l, ∃ y, f x = .ok y) → ∃ ys, l.mapM f = .ok ys
  | [], _ => ⟨[], rfl⟩
  | x :: l, h => by
    obtain ⟨y, hy⟩ := h x (by simp)
    obtain ⟨ys, hys⟩ := mapM_ok (l := l) fun x hx => h x (by simp [hx])
    exact ⟨y :: ys, by rw [List.mapM_cons, hy, hys]; rfl⟩

/-! ### saving -/

theorem Refine.self : ∀ {lo : Int} {ivs : List (Int × Int)}, Increasing lo ivs → Refine ivs ivs
  | _, [], _ => .nil
  | _, (a, b) :: ivs, h => by
    have := Refine.cons (a := a) (b := b) (ps := [(a, b)]) ⟨rfl, h.2.1, rfl⟩ (Refine.self h.2.2)
    exact this

theorem Refine.append {x y ps qs : List (Int × Int)} (h : Refine x ps) (h' : Refine y qs) :
    Refine (x ++ y) (ps ++ qs) := by
  induction h with
  | nil => exact h'
  | cons hc _ ih =>
    rw [List.cons_append, List.append_assoc]
    exact .cons hc ih

section
variable {R P D O : Type}

theorem IvInv.prefix {k r : Int} {ivs ps : List (Int × Int)} {c : IvCounter}
    (h : IvInv k r ivs c ps) : ∃ qs, Refine ivs (ps ++ qs) := by
  obtain ⟨_, _, h3⟩ := h
  rcases h3 with ⟨h3, _, _⟩ | ⟨done, dp, cp, a, s, e, g1, _, _, g4, g5, g6, g7, _, _, _, g11⟩
  · exact ⟨[], by rw [List.append_nil]; exact h3⟩
  · refine ⟨(s, e) :: c.rest, ?_⟩
    have := g5.append (Refine.cons (g6.append (Chain.single g7)) (Refine.self g11))
    rw [g1, g4]
    simpa [List.append_assoc] using this

/-- Saving succeeds if the class can save the next piece. -/
theorem saveOne_ok {ops : DiagOps R P D O} {proc : Option P} {sig : Sigs R} {idx : Int} {n : Nat}
    {last : Bool} {d : Diag D} {ivs ps : List (Int × Int)} {r : Int}
    (hI : IvInv n r ivs d.saveAt ps)
    (hsave : ∀ s : Int, 0 ≤ s → s < n → r ≤ s → (∃ qs, Refine ivs (ps ++ (s, (n : Int)) :: qs)) →
      ∃ D', ops.save d.data proc sig (idx - 1 - (n - s), idx - 1) (s, n) = .ok D') :
    ∃ d', saveOne ops proc sig idx n last d = .ok d' := by
  obtain ⟨h1, h2, h3⟩ := hI
  rcases h3 with ⟨h3, h4, h5⟩ | ⟨done, dp, cp, a, s, e, g1, g2, g3, g4, g5, g6, g7, g8, g9, g10, g11⟩
  · unfold saveOne
    rw [h4]
    exact ⟨d, rfl⟩
  · have href : ∀ (ms : List (Int × Int)), s < n → Chain (n : Int) ms e →
        Refine ivs (ps ++ (s, (n : Int)) :: (ms ++ d.saveAt.rest)) := by
      intro ms hsn hms
      have hc : Chain a (cp ++ (s, (n : Int)) :: ms) e := by
        refine g6.append ?_
        exact ⟨rfl, hsn, hms⟩
      have := g5.append (Refine.cons hc (Refine.self g11))
      rw [g1, g4]
      simpa [List.append_assoc] using this
    unfold saveOne
    rw [g2, g3]
    simp only
    split
    · have hen : e = n := by omega
      subst hen
      obtain ⟨D', hD⟩ := hsave s g10 g7 g9 ⟨_, href [] g7 rfl⟩
      have e1 : idx - ((n : Int) - n) - 1 = idx - 1 := by omega
      rw [e1, hD]
      have hprog : d.saveAt.progress (n : Int) = .ok (IvCounter.next d.saveAt.rest n) := by
        unfold IvCounter.progress
        rw [g3]
        simp
      rw [hprog]
      exact ⟨_, rfl⟩
    · split
      · rename_i hne hl
        simp only [Bool.and_eq_true, decide_eq_true_eq] at hl
        obtain ⟨hl1, hl2⟩ := hl
        obtain ⟨D', hD⟩ := hsave s g10 hl2 g9 ⟨_, href [((n : Int), e)] hl2 (Chain.single (by omega))⟩
        have e1 : idx - ((n : Int) - s) - 1 = idx - 1 - (n - s) := by omega
        rw [e1, hD]
        have hprog : d.saveAt.progress (n : Int) =
            .ok { d.saveAt with savedUntil := n, start := some (n : Int) } := by
          unfold IvCounter.progress
          rw [g3]
          simp only
          rw [if_neg (by omega), if_neg (by omega)]
          rw [← g3]
        rw [hprog]
        exact ⟨_, rfl⟩
      · exact ⟨_, rfl⟩

/-! ### exporting -/

/-- Every output that may be due now can be computed. -/
def Diag.CanExport (ops : DiagOps R P D O) (d : Diag D) : Prop :=
  ∀ e ∈ d.exportAt.left, e ≤ d.saveAt.savedUntil → ∃ o, ops.output d.data e = .ok o

theorem exportOne_ok {ops : DiagOps R P D O} {d : Diag D} (h : d.CanExport ops) :
    ∃ d' ev, exportOne ops d = .ok (d', ev) ∧ d'.CanExport ops := by
  unfold exportOne
  by_cases hr : d.ready
  · rw [if_pos hr]
    unfold Diag.ready at hr
    unfold Diag.CanExport IxCounter.left at h
    cases hu : d.exportAt.up with
    | none => rw [hu] at hr; cases hr
    | some e =>
      rw [hu] at hr h
      simp only [decide_eq_true_eq] at hr h
      obtain ⟨o, ho⟩ := h e (by simp) hr
      simp only [ho]
      refine ⟨_, _, rfl, ?_⟩
      intro x hx hle
      refine h x ?_ hle
      unfold IxCounter.progress IxCounter.left at hx
      cases hrest : d.exportAt.rest with
      | nil => rw [hrest] at hx; cases hx
      | cons y ys =>
        rw [hrest] at hx
        simp only [IxCounter.init] at hx
        exact List.mem_cons_of_mem _ hx
  · rw [if_neg hr]
    exact ⟨_, _, rfl, h⟩

theorem exportRound_ok {ops : DiagOps R P D O} : ∀ {ds : List (Diag D)},
    (∀ d ∈ ds, d.CanExport ops) →
    ∃ ds' evs, exportRound ops ds = .ok (ds', evs) ∧ ∀ d ∈ ds', d.CanExport ops
  | [], _ => ⟨[], [], rfl, by simp⟩
  | d :: ds, h => by
    obtain ⟨d', ev, h1, h2⟩ := exportOne_ok (h d (by simp))
    obtain ⟨ds', evs, h3, h4⟩ := exportRound_ok (ds := ds) fun d hd => h d (by simp [hd])
    refine ⟨d' :: ds', ev ++ evs, by simp [exportRound, h1, h3], ?_⟩
    intro x hx
    rcases List.mem_cons.1 hx with rfl | hx
    · exact h2
    · exact h4 x hx

theorem dispatchLoop_ok {ops : DiagOps R P D O} : ∀ (fuel : Nat) {ds : List (Diag D)}
    (log : List (Event O)), (∀ d ∈ ds, d.CanExport ops) →
    (∃ r, dispatchLoop ops fuel ds log = .ok r) ∨ dispatchLoop ops fuel ds log = .error .diverges
  | 0, ds, log, _ => by
    unfold dispatchLoop
    split
    · exact .inr rfl
    · exact .inl ⟨_, rfl⟩
  | fuel + 1, ds, log, h => by
    unfold dispatchLoop
    split
    · obtain ⟨ds', evs, h1, h2⟩ := exportRound_ok h
      rw [h1]
      exact dispatchLoop_ok fuel _ h2
    · exact .inl ⟨_, rfl⟩

theorem dispatch_ok {ops : DiagOps R P D O} (hdiv : ∀ d x, ops.output d x ≠ .error .diverges)
    (plotNone : Bool) {ds : List (Diag D)} (log : List (Event O)) (h : ∀ d ∈ ds, d.CanExport ops) :
    ∃ ds' log', dispatch ops plotNone ds log = .ok (ds', log') := by
  unfold dispatch
  cases plotNone with
  | true => exact ⟨_, _, rfl⟩
  | false =>
    simp only [Bool.false_eq_true, if_false]
    rcases dispatchLoop_ok (ops := ops) ((ds.map fun d => d.exportAt.remaining).sum) log h with
      ⟨r, hr⟩ | hr
    · exact ⟨r.1, r.2, hr⟩
    · exact absurd hr (dispatchLoop_enough ops _ _ _ (le_refl _) fun d _ x => hdiv d.data x)

end

/-! ### the main loop -/

section
variable {R IR F S A P D O : Type} (cfg : SimCfg R IR F S A P D O)

/-- A diagnostic whose saves and exports succeed up to step `N`, whatever the
signals are. -/
def Diag.Live (pf : Nat → Option P) (N : Nat) (d0 : Diag D) : Prop :=
  d0.Fresh ∧ ∀ T ps qs, Refine d0.saveAt.left (ps ++ qs) →
    (∀ q ∈ ps, 0 ≤ q.1 ∧ q.1 < q.2 ∧ q.2 < (N : Int)) →
    ∃ dd, savePieces cfg.diag cfg.dims T pf ps d0.data = .ok dd ∧
      ∀ e ∈ d0.exportAt.left, e ≤ lastEnd 0 ps → ∃ o, cfg.diag.output dd e = .ok o

theorem DInv.canExport {T : Tape R} {pf : Nat → Option P} {k r : Int} {N : Nat}
    {log : List (Event O)} {d0 d : Diag D} {ps : List (Int × Int)} {xs : List Int}
    (h : DInv cfg T pf k r log d0 d ps xs) (hk : k ≤ N) (hl : d0.Live cfg pf N) :
    d.CanExport cfg.diag := by
  intro e he hle
  obtain ⟨qs, hqs⟩ := h.iv.prefix
  obtain ⟨dd, h1, h2⟩ := hl.2 T ps qs hqs (fun q hq => by
    have := h.iv.2.1 q hq; exact ⟨this.1, this.2.1, by omega⟩)
  rw [h.data] at h1
  cases h1
  refine h2 e ?_ (by rw [← h.iv.1]; exact hle)
  rw [h.left]
  exact List.mem_append_right _ he

variable [Zero R] [Add R] {lp : ProcView R P}

/-- One iteration succeeds. -/
theorem LoopInv.step_ok {e0 : Eng (Tape R) F S A P} {ds0 : List (Diag D)} {k N : Nat}
    {st : SimSt R F S A P D O} {te te' : Eng (Tape R) F S A P} {off r : Int}
    (had : Admissible cfg lp) (hl : cfg.diag.Local cfg.dims)
    (hdiv : ∀ d x, cfg.diag.output d x ≠ .error .diverges)
    (hlive : ∀ d ∈ ds0, d.Live cfg (cfg.procAfter lp e0) N) (hkN : k < N)
    (h : LoopInv cfg lp e0 ds0 k st te off r) (hte : cfg.tEngine lp k te = .ok te') :
    ∃ st', cfg.step st = .ok st' := by
  unfold SimCfg.step
  rw [h.engine cfg lp had, hte]
  simp only [Except.map]
  have htape : cfg.tSteps lp (k + 1) e0 = .ok te' := by
    simp only [SimCfg.tSteps, h.tape]; exact hte
  have hpf : (if cfg.proc.isSome then some (conc cfg.dims off (cfg.B + cfg.C) te').proc else none) =
      cfg.procAfter lp e0 k := by
    unfold SimCfg.procAfter; rw [htape]; rfl
  have hlt := h.pos.idx_lt had.block had.chunk
  have hpast : ∀ nm c t, t < (k : Int) → te'.sig nm c t = te.sig nm c t :=
    fun nm c t ht => tEngine_past cfg lp hte nm c t ht
  -- per diagnostic
  have hone : ∀ d0 d, d0 ∈ ds0 → (d.name = d0.name ∧ (d0.Fresh → ∃ ps xs,
      DInv cfg te.sig (cfg.procAfter lp e0) k r st.log d0 d ps xs ∧
        (cfg.plotNone = false → 0 < k → d.ready = false))) →
      ∃ d', saveOne cfg.diag (cfg.procAfter lp e0 k) (cut cfg.dims te'.sig off (cfg.B + cfg.C)) st.idx k
        (cfg.lastBlock st.idx) d = .ok d' ∧ d'.CanExport cfg.diag := by
    intro d0 d hd0 hd
    have hL := hlive d0 hd0
    obtain ⟨ps, xs, hD, hrd⟩ := hd.2 hL.1
    obtain ⟨d', hd'⟩ := saveOne_ok (ops := cfg.diag) (proc := cfg.procAfter lp e0 k)
      (sig := cut cfg.dims te'.sig off (cfg.B + cfg.C)) (idx := st.idx) (last := cfg.lastBlock st.idx)
      hD.iv (by
        intro s hs0 hsn hrs hq
        obtain ⟨qs, hq⟩ := hq
        obtain ⟨dd, g1, _⟩ := hL.2 te'.sig (ps ++ [(s, (k : Int))]) qs
          (by rw [List.append_assoc]; exact hq)
          (by
            intro q hq
            rcases List.mem_append.1 hq with hq | hq
            · have := hD.iv.2.1 q hq; exact ⟨this.1, this.2.1, by omega⟩
            · rw [List.mem_singleton] at hq; subst hq; exact ⟨hs0, hsn, by simpa using hkN⟩)
        have hcongr : savePieces cfg.diag cfg.dims te'.sig (cfg.procAfter lp e0) ps d0.data =
            .ok d.data := by
          rw [← hD.data]
          apply savePieces_congr
          intro q hq k c t ht
          have := hD.iv.2.1 q hq
          exact hpast k c t (by omega)
        rw [savePieces_append, hcongr] at g1
        simp only [Except.bind, savePieces, List.foldlM_cons, List.foldlM_nil, Int.toNat_natCast] at g1
        refine ⟨dd, ?_⟩
        have hback := h.pos.back
        rw [hl.save_eq te'.sig off (cfg.B + cfg.C) d.data _ st.idx s k hsn h.pos.sync (by omega)
          (by push_cast; omega)]
        generalize cfg.diag.save d.data _ _ _ _ = z at g1
        cases z with
        | error x => cases g1
        | ok z => exact g1)
    refine ⟨d', hd', ?_⟩
    obtain ⟨ps', _, hD'⟩ := hD.save cfg (off := off) (idx := st.idx) (L := cfg.B + cfg.C)
      (last := cfg.lastBlock st.idx) (T' := te'.sig) hl hpast h.pos.rk h.pos.sync h.pos.back
      (by push_cast; omega) hrd hd'
    exact hD'.canExport cfg (by omega) hL
  have hall : ∀ (a b : List (Diag D)), (∀ d0 ∈ a, d0 ∈ ds0) →
      List.Forall₂ (fun d0 d => d.name = d0.name ∧ (d0.Fresh → ∃ ps xs,
        DInv cfg te.sig (cfg.procAfter lp e0) k r st.log d0 d ps xs ∧
          (cfg.plotNone = false → 0 < k → d.ready = false))) a b →
      ∃ ds, b.mapM (saveOne cfg.diag (cfg.procAfter lp e0 k)
        (cut cfg.dims te'.sig off (cfg.B + cfg.C)) st.idx k (cfg.lastBlock st.idx)) = .ok ds ∧
        ∀ d ∈ ds, d.CanExport cfg.diag := by
    intro a b hmem hf
    induction hf with
    | nil => exact ⟨[], rfl, by simp⟩
    | cons h1 _ ih =>
      obtain ⟨d', i1, i2⟩ := hone _ _ (hmem _ (by simp)) h1
      obtain ⟨ds, i3, i4⟩ := ih fun d hd => hmem d (by simp [hd])
      refine ⟨d' :: ds, by rw [List.mapM_cons, i1, i3]; rfl, ?_⟩
      intro x hx
      rcases List.mem_cons.1 hx with rfl | hx
      · exact i2
      · exact i4 x hx
  obtain ⟨ds, hds, hcan⟩ := hall _ _ (fun _ hd => hd) h.diags
  have hds' : saveData cfg.diag
      (if cfg.proc.isSome then some (conc cfg.dims off (cfg.B + cfg.C) te').proc else none)
      (conc cfg.dims off (cfg.B + cfg.C) te').sig st.idx st.n (cfg.lastBlock st.idx) st.diags = .ok ds := by
    rw [hpf, h.n]; exact hds
  simp only [hds']
  obtain ⟨ds', log', hd⟩ := dispatch_ok hdiv cfg.plotNone st.log hcan
  rw [hd]
  exact ⟨_, rfl⟩

/-- If the simulation succeeds on the tape and the diagnostics are live, the
buffered simulator runs to its end. -/
theorem run_ok {srcs : String → S} {arr : A} {proc : P} {f0 : F} {ds0 : List (Diag D)}
    {e0 : Eng (Tape R) F S A P} (had : Admissible cfg lp) (hl : cfg.diag.Local cfg.dims)
    (hdiv : ∀ d x, cfg.diag.output d x ≠ .error .diverges)
    (hsn : (cfg.signalList.map (·.1)).Nodup) (hnd : (ds0.map Diag.name).Nodup)
    (hinit : cfg.tInit srcs arr proc f0 = .ok e0)
    (hsteps : ∀ k te, cfg.tSteps lp k e0 = .ok te → ∃ te', cfg.tEngine lp k te = .ok te')
    (hlive : ∀ d ∈ ds0, d.Live cfg (cfg.procAfter lp e0) (cfg.tot + cfg.mbs)) :
    ∃ fin, cfg.run srcs arr proc f0 ds0 = .ok fin := by
  unfold SimCfg.run
  rw [init_conc cfg (by have := had.buffer; omega) hsn, hinit]
  simp only [Except.map]
  have hstart := LoopInv.start cfg lp (ds0 := ds0) had (tInit_zero cfg hinit)
  have hst : ∀ k ≤ cfg.tot + cfg.mbs, ∃ st, cfg.steps k
      { eng := conc cfg.dims (-(cfg.B : Int)) (cfg.B + cfg.C) e0
        idx := cfg.B, n := 0, diags := ds0, log := [] } = .ok st := by
    intro k
    induction k with
    | zero => intro _; exact ⟨_, rfl⟩
    | succ k ih =>
      intro hk
      obtain ⟨st, hs⟩ := ih (by omega)
      obtain ⟨te, off, r, hI⟩ := LoopInv.steps cfg lp had hl hnd hstart _ hs
      obtain ⟨te', hte⟩ := hsteps k te hI.tape
      obtain ⟨st', hs'⟩ := hI.step_ok cfg had hl hdiv hlive (by omega) hte
      exact ⟨st', by simp only [SimCfg.steps, hs]; exact hs'⟩
  obtain ⟨st, hs⟩ := hst _ (le_refl _)
  rw [hs]
  simp only
  obtain ⟨te, off, r, hI⟩ := LoopInv.steps cfg lp had hl hnd hstart _ hs
  have hcan : ∀ d ∈ st.diags, d.CanExport cfg.diag := by
    have : ∀ (a b : List (Diag D)), (∀ d0 ∈ a, d0 ∈ ds0) →
      List.Forall₂ (fun d0 d => d.name = d0.name ∧ (d0.Fresh → ∃ ps xs,
        DInv cfg te.sig (cfg.procAfter lp e0) ((cfg.tot + cfg.mbs : Nat) : Int) r st.log d0 d ps xs ∧
          (cfg.plotNone = false → 0 < cfg.tot + cfg.mbs → d.ready = false))) a b →
      ∀ d ∈ b, d.CanExport cfg.diag := by
      intro a b hmem hf
      induction hf with
      | nil => intro d hd; cases hd
      | cons h1 _ ih =>
        intro d hd
        rcases List.mem_cons.1 hd with rfl | hd
        · have hL := hlive _ (hmem _ List.mem_cons_self)
          obtain ⟨ps, xs, hD, _⟩ := h1.2 hL.1
          exact hD.canExport cfg (le_refl _) hL
        · exact ih (fun d hd => hmem d (by simp [hd])) d hd
    exact this _ _ (fun _ hd => hd) hI.diags
  obtain ⟨ds', log', hd⟩ := dispatch_ok hdiv cfg.plotNone st.log hcan
  rw [hd]
  exact ⟨_, rfl⟩

end
end Verif

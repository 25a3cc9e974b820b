import Verif.Lemmas.Run

namespace Verif

theorem IvCounter.left_init (ivs : List (Int × Int)) : (IvCounter.init ivs).left = ivs := by
  cases ivs <;> rfl

theorem forall₂_comp {α β γ : Type} {R : α → β → Prop} {S : β → γ → Prop} {T : α → γ → Prop}
    (H : ∀ x y z, R x y → S y z → T x z) :
    ∀ {a : List α} {b : List β} {c : List γ}, List.Forall₂ R a b → List.Forall₂ S b c →
      List.Forall₂ T a c
  | [], _, _, .nil, .nil => .nil
  | _ :: _, _, _, .cons h1 t1, .cons h2 t2 => .cons (H _ _ _ h1 h2) (forall₂_comp H t1 t2)

section
variable {R IR F S A P D O : Type} (cfg : SimCfg R IR F S A P D O)

/-- Saving a piece from the buffer is saving it from the tape. -/
theorem DiagOps.Local.save_eq {ops : DiagOps R P D O} {dims : String → Option Nat}
    (hl : ops.Local dims) (T : Tape R) (off : Int) (L : Nat) (d : D) (pr : Option P) (i s : Int)
    (n : Nat) (hs : s < n) (hsync : off + i = n) (h0 : 0 ≤ i - 1 - (n - s)) (h1 : i ≤ L) :
    ops.save d pr (cut dims T off L) (i - 1 - (n - s), i - 1) (s, n) =
      ops.save d pr (cut dims T (s - 1) ((n : Int) - s).toNat) (0, n - s) (s, n) := by
  have e0 : cut dims T off L = cut dims (fun k c t => T k c (off + t)) 0 L := by
    apply cut_congr
    intro k num c p _ _ _
    show _ = T k c (off + (0 + p))
    rw [Int.zero_add]
  obtain ⟨a, ha⟩ := Int.eq_ofNat_of_zero_le h0
  obtain ⟨b, hb⟩ := Int.eq_ofNat_of_zero_le (show 0 ≤ i - 1 by omega)
  have ha' : i - 1 - ((n : Int) - s) = (a : Int) := ha
  have hb' : i - 1 = (b : Int) := hb
  rw [e0, ha', hb', hl d pr _ a b L (s, n) (by omega) (by omega)]
  have e1 : (b : Int) - a = n - s := by omega
  have e2 : ((n : Int) - s).toNat = b - a := by omega
  rw [e1, e2]
  congr 1
  apply cut_congr
  intro k num c p _ _ _
  show T k c (off + (a + p)) = T k c (s - 1 + p)
  congr 1
  omega

/-- One iteration of a diagnostic: data, saved pieces, exported indices. -/
structure DInv (T : Tape R) (pf : Nat → Option P) (k r : Int) (log : List (Event O))
    (d0 d : Diag D) (ps : List (Int × Int)) (xs : List Int) : Prop where
  name : d.name = d0.name
  iv : IvInv k r d0.saveAt.left d.saveAt ps
  data : savePieces cfg.diag cfg.dims T pf ps d0.data = .ok d.data
  left : d0.exportAt.left = xs ++ d.exportAt.left
  times : (evOf d0.name log).map Event.time = xs
  outs : ∀ ev ∈ evOf d0.name log, ∃ qs, qs <+: ps ∧ ∃ dd,
    savePieces cfg.diag cfg.dims T pf qs d0.data = .ok dd ∧
    cfg.diag.output dd ev.time = .ok ev.out ∧ ev.time ≤ lastEnd 0 qs ∧
    (cfg.plotNone = false → d0.exportAt.left.Pairwise (· < ·) →
      ev.time ≤ 0 ∨ lastEnd 0 qs.dropLast < ev.time)
  next : cfg.plotNone = false → d0.exportAt.left.Pairwise (· < ·) →
    ∀ x ∈ d.exportAt.left, x ≤ 0 ∨ lastEnd 0 ps.dropLast < x

theorem Diag.not_ready {d : Diag D} (h : d.ready = false) (hl : d.exportAt.left.Pairwise (· < ·)) :
    ∀ x ∈ d.exportAt.left, d.saveAt.savedUntil < x := by
  intro x hx
  unfold Diag.ready at h
  unfold IxCounter.left at hx hl
  cases hu : d.exportAt.up with
  | none => rw [hu] at hx; cases hx
  | some e =>
    rw [hu] at h hx hl
    simp only [decide_eq_false_iff_not, not_le] at h
    simp only at hx hl
    rcases List.mem_cons.1 hx with rfl | hx
    · exact h
    · have := (List.pairwise_cons.1 hl).1 x hx
      omega

/-- Saving all diagnostics of one iteration. -/
theorem DInv.save {T T' : Tape R} {pf : Nat → Option P} {n : Nat} {r : Int} {log : List (Event O)}
    {d0 d d' : Diag D} {ps : List (Int × Int)} {xs : List Int} {off idx : Int} {L : Nat} {last : Bool}
    (h : DInv cfg T pf n r log d0 d ps xs) (hl : cfg.diag.Local cfg.dims)
    (hT : ∀ k c t, t < (n : Int) → T' k c t = T k c t)
    (hr : 0 ≤ r ∧ r ≤ n) (hsync : off + idx = n) (hback : 1 ≤ idx - n + r) (hL : idx ≤ L)
    (hrd : cfg.plotNone = false → 0 < n → d.ready = false)
    (hs : saveOne cfg.diag (pf n) (cut cfg.dims T' off L) idx n last d = .ok d') :
    ∃ ps', ps <+: ps' ∧
      DInv cfg T' pf (n + 1) (if last then n else r) log d0 d' ps' xs := by
  have hcongr : ∀ qs, qs <+: ps → savePieces cfg.diag cfg.dims T' pf qs d0.data =
      savePieces cfg.diag cfg.dims T pf qs d0.data := by
    intro qs hqs
    apply savePieces_congr
    intro q hq k c t ht
    have := h.iv.2.1 q (hqs.subset hq)
    exact hT k c t (by omega)
  obtain ⟨s1, s2, new, s3, s4⟩ := saveOne_inv h.iv hr.2 hs
  refine ⟨ps ++ new, List.prefix_append _ _, ?_⟩
  refine ⟨s1.trans h.name, s3, ?_, by rw [s2]; exact h.left, h.times, ?_, ?_⟩
  · rw [savePieces_append, hcongr ps (List.prefix_refl _), h.data]
    rcases s4 with ⟨rfl, s4⟩ | ⟨s, rfl, g1, g2, g3, g4⟩
    · rw [s4]; rfl
    · rw [hl.save_eq T' off L d.data (pf n) idx s n g3 hsync (by omega) hL] at g4
      simp only [Except.bind, savePieces, List.foldlM_cons, List.foldlM_nil, Int.toNat_natCast]
      rw [g4]; rfl
  · intro ev hev
    obtain ⟨qs, i1, dd, i2, i3⟩ := h.outs ev hev
    exact ⟨qs, i1.trans (List.prefix_append _ _), dd, by rw [hcongr qs i1]; exact i2, i3⟩
  · intro hp hpw x hx
    rw [s2] at hx
    rcases s4 with ⟨rfl, _⟩ | ⟨s, rfl, _, g2, g3, _⟩
    · rw [List.append_nil]
      exact h.next hp hpw x hx
    · have hpw' : d.exportAt.left.Pairwise (· < ·) := by
        rw [h.left] at hpw
        exact (List.pairwise_append.1 hpw).2.1
      right
      rw [List.dropLast_concat, ← h.iv.1]
      exact Diag.not_ready (hrd hp (by omega)) hpw' x hx

theorem DInv.disp {T : Tape R} {pf : Nat → Option P} {k r : Int} {log evs : List (Event O)}
    {d0 d d' : Diag D} {ps : List (Int × Int)} {xs : List Int} (h : DInv cfg T pf k r log d0 d ps xs)
    (hd : Disp cfg.diag d d' (evOf d.name evs)) :
    ∃ xs', DInv cfg T pf k r (log ++ evs) d0 d' ps (xs ++ xs') := by
  obtain ⟨n1, n2, n3, xs', n4, n5, n6⟩ := hd
  rw [h.name] at n6
  have hf := mapM_ok_forall₂ n6
  have hall : ∀ ev ∈ evOf d0.name evs, ev.time ∈ xs' ∧ cfg.diag.output d.data ev.time = .ok ev.out := by
    generalize evOf d0.name evs = es at hf
    clear n5 n6
    clear n4
    induction hf with
    | nil => intro ev hev; cases hev
    | cons h1 _ ih =>
      intro ev hev
      rcases List.mem_cons.1 hev with rfl | hev
      · rename_i x _ _ _
        cases ho : cfg.diag.output d.data x with
        | error e => rw [ho] at h1; cases h1
        | ok o =>
          rw [ho] at h1
          simp only [Except.map, Except.ok.injEq] at h1
          subst h1
          exact ⟨by simp, ho⟩
      · obtain ⟨i1, i2⟩ := ih ev hev
        exact ⟨by simp [i1], i2⟩
  refine ⟨xs', n1.trans h.name, by rw [n2]; exact h.iv, by rw [n3]; exact h.data, ?_, ?_, ?_, ?_⟩
  · rw [h.left, n5, List.append_assoc]
  · rw [evOf_append, List.map_append, h.times]
    congr 1
    generalize evOf d0.name evs = es at hf
    clear n4 n5 n6 hall
    induction hf with
    | nil => rfl
    | cons h1 _ ih =>
      rename_i x _ _ _ _
      cases ho : cfg.diag.output d.data x with
      | error e => rw [ho] at h1; cases h1
      | ok o =>
        rw [ho] at h1
        simp only [Except.map, Except.ok.injEq] at h1
        subst h1
        rw [List.map_cons, ih]
  · intro ev hev
    rw [evOf_append] at hev
    rcases List.mem_append.1 hev with hev | hev
    · exact h.outs ev hev
    · obtain ⟨i1, i2⟩ := hall ev hev
      refine ⟨ps, List.prefix_refl _, d.data, h.data, i2, ?_, ?_⟩
      · rw [← h.iv.1]
        exact n4 _ i1
      · intro hp hpw
        exact h.next hp hpw _ (by rw [n5]; exact List.mem_append_left _ i1)
  · intro hp hpw x hx
    exact h.next hp hpw x (by rw [n5]; exact List.mem_append_right _ hx)

theorem saveOne_name {ops : DiagOps R P D O} {proc : Option P} {sig : Sigs R} {idx glob : Int}
    {last : Bool} {d d' : Diag D} (h : saveOne ops proc sig idx glob last d = .ok d') :
    d'.name = d.name := by
  have aux : ∀ (x : Except PyErr D) (y : Except PyErr IvCounter), (match x with
      | .error x => .error x
      | .ok data =>
        match y with
        | .error x => .error x
        | .ok c => .ok { d with data := data, saveAt := c } : Except PyErr (Diag D)) = .ok d' →
      d'.name = d.name := by
    intro x y hxy
    cases x with
    | error e => cases hxy
    | ok data =>
      cases y with
      | error e => cases hxy
      | ok c => cases hxy; rfl
  unfold saveOne at h
  split at h
  · split at h
    · exact aux _ _ h
    · split at h
      · exact aux _ _ h
      · cases h; rfl
  · split at h
    · exact aux _ _ h
    · cases h; rfl
  · cases h; rfl

variable [Zero R] [Add R] (lp : ProcView R P)

/-- The invariant of the main loop. -/
structure LoopInv (e0 : Eng (Tape R) F S A P) (ds0 : List (Diag D)) (k : Nat)
    (st : SimSt R F S A P D O) (te : Eng (Tape R) F S A P) (off r : Int) : Prop where
  n : st.n = k
  tape : cfg.tSteps lp k e0 = .ok te
  eng : st.eng = conc cfg.dims off (cfg.B + cfg.C) te
  pos : PosInv cfg.B cfg.C cfg.mbs k st.idx off r
  zero : ∀ nm c t, off + cfg.B + cfg.C ≤ t → te.sig nm c t = 0
  diags : List.Forall₂ (fun d0 d => d.name = d0.name ∧ (d0.Fresh → ∃ ps xs,
    DInv cfg te.sig (cfg.procAfter lp e0) k r st.log d0 d ps xs ∧
      (cfg.plotNone = false → 0 < k → d.ready = false))) ds0 st.diags

theorem forall₂_map_name {ds0 ds : List (Diag D)} {Q : Diag D → Diag D → Prop}
    (h : List.Forall₂ Q ds0 ds) (H : ∀ a b, Q a b → b.name = a.name) :
    ds.map Diag.name = ds0.map Diag.name := by
  induction h with
  | nil => rfl
  | cons h1 _ ih => rw [List.map_cons, List.map_cons, ih, H _ _ h1]

theorem LoopInv.start {e0 : Eng (Tape R) F S A P} {ds0 : List (Diag D)} (had : Admissible cfg lp)
    (h0 : ∀ nm c t, 0 ≤ t → e0.sig nm c t = 0) :
    LoopInv cfg lp e0 ds0 0
      { eng := conc cfg.dims (-(cfg.B : Int)) (cfg.B + cfg.C) e0
        idx := cfg.B, n := 0, diags := ds0, log := [] } e0 (-(cfg.B : Int)) 0 := by
  refine ⟨rfl, rfl, rfl, PosInv.start had.block had.buffer, ?_, ?_⟩
  · intro nm c t ht
    exact h0 nm c t (by omega)
  · show List.Forall₂ _ ds0 ds0
    rw [List.forall₂_same]
    intro d hd
    refine ⟨rfl, ?_⟩
    rintro ⟨ivs, h1, h2⟩
    refine ⟨[], [], ⟨rfl, ?_, rfl, rfl, rfl, by simp [evOf], ?_⟩, by simp⟩
    · rw [h1, IvCounter.left_init]
      exact IvInv.start h2
    · intro _ _ x _
      show x ≤ 0 ∨ 0 < x
      omega

/-- The engine part of an iteration acts on the tape. -/
theorem LoopInv.engine {e0 : Eng (Tape R) F S A P} {ds0 : List (Diag D)} {k : Nat}
    {st : SimSt R F S A P D O} {te : Eng (Tape R) F S A P} {off r : Int} (had : Admissible cfg lp)
    (h : LoopInv cfg lp e0 ds0 k st te off r) :
    cfg.engine st.n st.idx st.eng =
      (cfg.tEngine lp k te).map (conc cfg.dims off (cfg.B + cfg.C)) := by
  have hlow : 0 ≤ st.idx := by have := h.pos.low; have := had.buffer; omega
  obtain ⟨i, hi⟩ := Int.eq_ofNat_of_zero_le hlow
  have hlt := h.pos.idx_lt had.block had.chunk
  have hidx : st.idx = (i : Int) := hi
  rw [h.n, hidx, h.eng]
  refine engine_conc cfg lp had.valid off (cfg.B + cfg.C) i k (by rw [← hidx]; exact h.pos.sync)
    (by omega) ?_ te
  intro p hp hmod
  have hm : cfg.mbs = p.bs := by unfold SimCfg.mbs; rw [hp]
  obtain ⟨q1, q2⟩ := had.proc p hp
  have hb := had.block
  have := h.pos.block_fits had.block (by have := had.chunk; rw [hm]; omega) (by rw [hm]; exact hmod)
  have := h.pos.low
  omega

/-- One iteration of the main loop preserves the invariant. -/
theorem LoopInv.step {e0 : Eng (Tape R) F S A P} {ds0 : List (Diag D)} {k : Nat}
    {st st' : SimSt R F S A P D O} {te : Eng (Tape R) F S A P} {off r : Int}
    (had : Admissible cfg lp) (hl : cfg.diag.Local cfg.dims) (hnd : (ds0.map Diag.name).Nodup)
    (h : LoopInv cfg lp e0 ds0 k st te off r) (hs : cfg.step st = .ok st') :
    ∃ te' off' r', LoopInv cfg lp e0 ds0 (k + 1) st' te' off' r' := by
  unfold SimCfg.step at hs
  rw [h.engine cfg lp had] at hs
  cases hte : cfg.tEngine lp k te with
  | error x => rw [hte] at hs; cases hs
  | ok te' =>
    rw [hte] at hs
    simp only [Except.map] at hs
    have htape : cfg.tSteps lp (k + 1) e0 = .ok te' := by
      simp only [SimCfg.tSteps, h.tape]; exact hte
    have hpf : (if cfg.proc.isSome then some (conc cfg.dims off (cfg.B + cfg.C) te').proc else none) =
        cfg.procAfter lp e0 k := by
      unfold SimCfg.procAfter; rw [htape]; rfl
    split at hs
    · cases hs
    · rename_i ds hds
      split at hs
      · cases hs
      · rename_i ds' log' hdisp
        simp only [Except.ok.injEq] at hs
        rw [hpf, h.n] at hds
        have hlt := h.pos.idx_lt had.block had.chunk
        have hsave := mapM_ok_forall₂ (f := saveOne cfg.diag (cfg.procAfter lp e0 k)
          (cut cfg.dims te'.sig off (cfg.B + cfg.C)) st.idx k (cfg.lastBlock st.idx)) hds
        have hF1 : List.Forall₂ (fun d0 d => d.name = d0.name ∧ (d0.Fresh → ∃ ps xs,
            DInv cfg te'.sig (cfg.procAfter lp e0) (k + 1)
              (if cfg.lastBlock st.idx then (k : Int) else r) st.log d0 d ps xs)) ds0 ds := by
          refine forall₂_comp ?_ h.diags hsave
          rintro d0 d d1 ⟨hname, hD⟩ hd
          refine ⟨(saveOne_name hd).trans hname, fun hfr => ?_⟩
          obtain ⟨ps, xs, hD, hrd⟩ := hD hfr
          obtain ⟨ps', _, hD'⟩ := hD.save cfg (off := off) (idx := st.idx) (L := cfg.B + cfg.C)
            (last := cfg.lastBlock st.idx) (T' := te'.sig) hl
            (fun nm c t ht => tEngine_past cfg lp hte nm c t ht) h.pos.rk h.pos.sync h.pos.back
            (by push_cast; omega) hrd hd
          exact ⟨ps', xs, hD'⟩
        have hnames : ds.map Diag.name = ds0.map Diag.name :=
          forall₂_map_name hF1 (fun _ _ hD => hD.1)
        obtain ⟨hready, evs, hlog, _, hdispF, _⟩ :=
          dispatch_spec cfg.diag (by rw [hnames]; exact hnd) hdisp
        have hF2 : List.Forall₂ (fun d0 d => d.name = d0.name ∧ (d0.Fresh → ∃ ps xs,
            DInv cfg te'.sig (cfg.procAfter lp e0) (k + 1)
              (if cfg.lastBlock st.idx then (k : Int) else r) log' d0 d ps xs)) ds0 ds' := by
          refine forall₂_comp ?_ hF1 hdispF
          rintro d0 d d1 ⟨hname, hD⟩ hd
          refine ⟨hd.1.trans hname, fun hfr => ?_⟩
          obtain ⟨ps, xs, hD⟩ := hD hfr
          obtain ⟨xs', hD'⟩ := hD.disp cfg hd
          rw [← hlog] at hD'
          exact ⟨ps, _, hD'⟩
        have hF3 : List.Forall₂ (fun d0 d => d.name = d0.name ∧ (d0.Fresh → ∃ ps xs,
            DInv cfg te'.sig (cfg.procAfter lp e0) ((k + 1 : Nat) : Int)
              (if cfg.lastBlock st.idx then (k : Int) else r) log' d0 d ps xs ∧
              (cfg.plotNone = false → 0 < k + 1 → d.ready = false))) ds0 ds' := by
          refine forall₂_imp_mem hF2 ?_
          rintro a b _ hb ⟨hname, hD⟩
          refine ⟨hname, fun hfr => ?_⟩
          obtain ⟨ps, xs, hD⟩ := hD hfr
          exact ⟨ps, xs, by push_cast; exact hD, fun hp _ => hready hp b hb⟩
        have hpos := h.pos.next had.buffer
        -- the tape is still empty beyond the buffer
        have hz : ∀ nm c t, off + cfg.B + cfg.C ≤ t → te'.sig nm c t = 0 := by
          intro nm c t ht
          have hsync := h.pos.sync
          rcases tEngine_same cfg lp hte with ⟨p, hp, hb, hmod, hsame⟩ | hsame
          · have hm : cfg.mbs = p.bs := by unfold SimCfg.mbs; rw [hp]
            obtain ⟨q1, q2⟩ := had.proc p hp
            have := h.pos.block_fits had.block (by have := had.chunk; rw [hm]; omega)
              (by rw [hm]; exact hmod)
            rw [hsame nm c t (by right; omega)]
            exact h.zero nm c t ht
          · rw [hsame nm c t (by right; push_cast; omega)]
            exact h.zero nm c t ht
        subst hs
        by_cases hlast : st.idx + cfg.mbs ≥ cfg.C + cfg.B
        · have hlb : cfg.lastBlock st.idx = true := by
            unfold SimCfg.lastBlock; exact decide_eq_true hlast
          rw [hlb] at hF3
          simp only [hlb, if_true] at hF3 ⊢
          refine ⟨te', off + cfg.C, k, ?_, htape, ?_, hpos.1 hlast, ?_, hF3⟩
          · simp [h.n]
          · show _ = conc cfg.dims (off + cfg.C) (cfg.B + cfg.C) te'
            simp only [conc]
            rw [resetSigs_cut te'.sig off cfg.B cfg.C (by have := had.buffer; omega) hz]
          · intro nm c t ht
            exact hz nm c t (by omega)
        · have hlb : cfg.lastBlock st.idx = false := by
            unfold SimCfg.lastBlock; exact decide_eq_false hlast
          rw [hlb] at hF3
          simp only [hlb, Bool.false_eq_true, if_false] at hF3 ⊢
          exact ⟨te', off, r, by simp [h.n], htape, rfl, hpos.2 hlast, hz, hF3⟩

theorem LoopInv.steps {e0 : Eng (Tape R) F S A P} {ds0 : List (Diag D)}
    {st0 : SimSt R F S A P D O} (had : Admissible cfg lp) (hl : cfg.diag.Local cfg.dims)
    (hnd : (ds0.map Diag.name).Nodup)
    (h : LoopInv cfg lp e0 ds0 0 st0 e0 (-(cfg.B : Int)) 0) :
    ∀ k {st : SimSt R F S A P D O}, cfg.steps k st0 = .ok st →
      ∃ te off r, LoopInv cfg lp e0 ds0 k st te off r
  | 0, st, hs => by cases hs; exact ⟨_, _, _, h⟩
  | k + 1, st, hs => by
    simp only [SimCfg.steps] at hs
    split at hs
    · cases hs
    · rename_i st1 hs1
      obtain ⟨te, off, r, h1⟩ := LoopInv.steps had hl hnd h k hs1
      exact h1.step cfg lp had hl hnd hs

/-- What is known after `run_simulation` has returned. -/
structure RunInv (e0 : Eng (Tape R) F S A P) (ds0 : List (Diag D)) (fin : SimSt R F S A P D O)
    (te : Eng (Tape R) F S A P) : Prop where
  tape : cfg.tSteps lp (cfg.tot + cfg.mbs) e0 = .ok te
  proc : fin.eng.proc = te.proc
  n : fin.n = cfg.tot + cfg.mbs
  diags : List.Forall₂ (fun d0 d => d.name = d0.name ∧ (d0.Fresh → ∃ ps xs r,
    DInv cfg te.sig (cfg.procAfter lp e0) ((cfg.tot + cfg.mbs : Nat) : Int) r fin.log d0 d ps xs ∧
      (cfg.plotNone = false → d.ready = false))) ds0 fin.diags

theorem run_spec {srcs : String → S} {arr : A} {proc : P} {f0 : F} {ds0 : List (Diag D)}
    {fin : SimSt R F S A P D O} (had : Admissible cfg lp) (hl : cfg.diag.Local cfg.dims)
    (hnd : (ds0.map Diag.name).Nodup) (hrun : cfg.run srcs arr proc f0 ds0 = .ok fin) :
    ∃ e0 te, cfg.tInit srcs arr proc f0 = .ok e0 ∧ RunInv cfg lp e0 ds0 fin te := by
  unfold SimCfg.run at hrun
  split at hrun
  · cases hrun
  · rename_i st0 hinit
    have hsn := init_nodup cfg hinit
    rw [init_conc cfg (by have := had.buffer; omega) hsn] at hinit
    cases he : cfg.tInit srcs arr proc f0 with
    | error x => rw [he] at hinit; cases hinit
    | ok e0 =>
      rw [he] at hinit
      simp only [Except.map, Except.ok.injEq] at hinit
      have hstart := LoopInv.start cfg lp (ds0 := ds0) had (tInit_zero cfg he)
      rw [hinit] at hstart
      split at hrun
      · cases hrun
      · rename_i st1 hst1
        obtain ⟨te, off, r, hI⟩ := LoopInv.steps cfg lp had hl hnd hstart _ hst1
        split at hrun
        · cases hrun
        · rename_i ds log hdisp
          simp only [Except.ok.injEq] at hrun
          subst hrun
          have hnames : st1.diags.map Diag.name = ds0.map Diag.name :=
            forall₂_map_name hI.diags (fun _ _ hD => hD.1)
          obtain ⟨hready, evs, hlog, _, hdispF, _⟩ :=
            dispatch_spec cfg.diag (by rw [hnames]; exact hnd) hdisp
          refine ⟨e0, te, rfl, hI.tape, ?_, hI.n, ?_⟩
          · show st1.eng.proc = te.proc
            rw [hI.eng]; rfl
          · have h2 : List.Forall₂ (fun d0 d => d.name = d0.name ∧ (d0.Fresh → ∃ ps xs,
                DInv cfg te.sig (cfg.procAfter lp e0) ((cfg.tot + cfg.mbs : Nat) : Int) r log d0 d ps xs))
                ds0 ds := by
              refine forall₂_comp ?_ hI.diags hdispF
              rintro d0 d d1 ⟨hname, hD⟩ hd
              refine ⟨hd.1.trans hname, fun hfr => ?_⟩
              obtain ⟨ps, xs, hD, _⟩ := hD hfr
              obtain ⟨xs', hD'⟩ := hD.disp cfg hd
              rw [← hlog] at hD'
              exact ⟨ps, _, hD'⟩
            refine forall₂_imp_mem h2 ?_
            rintro a b _ hb ⟨hname, hD⟩
            refine ⟨hname, fun hfr => ?_⟩
            obtain ⟨ps, xs, hD⟩ := hD hfr
            exact ⟨ps, xs, r, hD, fun hp => hready hp b hb⟩

end
end Verif

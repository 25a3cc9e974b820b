import Verif.Lemmas.Engine
import Verif.Spec.Run

namespace Verif
section
variable {R IR F S A P D O : Type} (cfg : SimCfg R IR F S A P D O)

theorem StreamAt.of_isStream {σ : Type} {get : σ → Nat → Except PyErr (σ × List (List R))} {s : σ} {ch : Nat}
    {x : Nat → Nat → R} (h : IsStream get s ch x) : StreamAt get s ch 0 x := h

/-- The same state with other source objects. -/
def Eng.withSrcs {Sg : Type} (s : String → S) (e : Eng Sg F S A P) : Eng Sg F S A P := { e with srcs := s }

def SimSt.withSrcs (s : String → S) (st : SimSt R F S A P D O) : SimSt R F S A P D O :=
  { st with eng := st.eng.withSrcs s }

theorem stepUpdate_srcs {Sg : Type} (s : String → S) (e : Eng Sg F S A P) (p : ArrInfo × ArrInfo) :
    cfg.stepUpdate (e.withSrcs s) p = (cfg.stepUpdate e p).map (Eng.withSrcs s) := by
  unfold SimCfg.stepUpdate
  simp only [Eng.withSrcs]
  split_ifs
  · cases cfg.arrPath e.arr p.1.name p.2.name with
    | error x => rfl
    | ok ir =>
      simp only
      cases cfg.filt.updateIr (e.filts p.1.name p.2.name) ir with
      | error x => rfl
      | ok f' => rfl
  · rfl

theorem stepPair_srcs [Add R] (s : String → S) (i : Int) (e : Eng (Sigs R) F S A P)
    (p : ArrInfo × ArrInfo) :
    cfg.stepPair i (e.withSrcs s) p = (cfg.stepPair i e p).map (Eng.withSrcs s) := by
  unfold SimCfg.stepPair
  simp only [Eng.withSrcs]
  cases sigGet e.sig p.1.name i (i + 1) with
  | error x => rfl
  | ok x =>
    simp only
    cases cfg.filt.process (e.filts p.1.name p.2.name) x with
    | error x => rfl
    | ok r =>
      obtain ⟨f', y⟩ := r
      simp only
      cases sigAdd e.sig p.2.name i (i + 1) y with
      | error x => rfl
      | ok sig =>
        simp only
        cases (if cfg.contrib then sigAssign sig (contribName p.1 p.2) i (i + 1) y else .ok sig) with
        | error x => rfl
        | ok sig => rfl

theorem prepPair_srcs [Add R] (s : String → S) (num : Nat) (e : Eng (Sigs R) F S A P)
    (p : ArrInfo × ArrInfo) :
    cfg.prepPair num (e.withSrcs s) p = (cfg.prepPair num e p).map (Eng.withSrcs s) := by
  unfold SimCfg.prepPair
  simp only [Eng.withSrcs]
  cases sigGet e.sig p.1.name ((cfg.B : Int) - num) cfg.B with
  | error x => rfl
  | ok x =>
    simp only
    cases cfg.filt.process (e.filts p.1.name p.2.name) x with
    | error x => rfl
    | ok r =>
      obtain ⟨f', y⟩ := r
      simp only
      cases sigAdd e.sig p.2.name 0 cfg.B y with
      | error x => rfl
      | ok sig =>
        simp only
        cases (if cfg.contrib then
            sigAssign sig (contribName p.1 p.2) ((cfg.B : Int) - num) cfg.B y else .ok sig) with
        | error x => rfl
        | ok sig => rfl

theorem callProc_srcs (s : String → S) (n : Nat) (i : Int) (e : Eng (Sigs R) F S A P) :
    cfg.callProc n i (e.withSrcs s) = (cfg.callProc n i e).map (Eng.withSrcs s) := by
  unfold SimCfg.callProc
  cases cfg.proc with
  | none => rfl
  | some p =>
    simp only [Eng.withSrcs]
    split_ifs
    · rfl
    · cases p.process e.proc e.sig i with
      | error x => rfl
      | ok r => rfl
    · rfl

/-- The two kinds of source steps in one. -/
def SimCfg.anySource (num : Nat) (lo hi : Int) (e : Eng (Sigs R) F S A P) (a : ArrInfo) :
    Except PyErr (Eng (Sigs R) F S A P) :=
  match cfg.srcGet (e.srcs a.name) num with
  | .error x => .error x
  | .ok (s', v) =>
    match sigAssign e.sig a.name lo hi v with
    | .error x => .error x
    | .ok sig => .ok { e with sig := sig, srcs := fun k => if k = a.name then s' else e.srcs k }

theorem prepSource_any (num : Nat) : cfg.prepSource num = cfg.anySource num ((cfg.B : Int) - num) cfg.B := rfl
theorem stepSource_any (i : Int) : cfg.stepSource i = cfg.anySource 1 i (i + 1) := rfl

/-- Source fold: `e` and `e` with other sources deliver the same samples. -/
theorem sources_causal {x x' : String → Nat → Nat → R} {off num : Nat} {lo hi : Int}
    (hagree : ∀ a ∈ freeOf cfg.arrays, ∀ c < a.num, ∀ j < off + num, x a.name c j = x' a.name c j) :
    ∀ (l : List ArrInfo) (_ : ∀ a ∈ l, a ∈ freeOf cfg.arrays) (_ : (l.map ArrInfo.name).Nodup)
      (e e1 : Eng (Sigs R) F S A P) (s : String → S),
      (∀ a ∈ l, StreamAt cfg.srcGet (e.srcs a.name) a.num off (x a.name)) →
      (∀ a ∈ l, StreamAt cfg.srcGet (s a.name) a.num off (x' a.name)) →
      l.foldlM (cfg.anySource num lo hi) e = .ok e1 →
      ∃ s', l.foldlM (cfg.anySource num lo hi) (e.withSrcs s) = .ok (e1.withSrcs s') ∧
        (∀ a ∈ l, StreamAt cfg.srcGet (e1.srcs a.name) a.num (off + num) (x a.name)) ∧
        (∀ a ∈ l, StreamAt cfg.srcGet (s' a.name) a.num (off + num) (x' a.name)) ∧
        ∀ k, (∀ a ∈ l, k ≠ a.name) → e1.srcs k = e.srcs k ∧ s' k = s k
  | [], _, _, e, e1, s, _, _, h => by
    cases h
    exact ⟨s, rfl, by simp, by simp, fun k _ => ⟨rfl, rfl⟩⟩
  | a :: l, hmem, hnd, e, e1, s, h1, h2, h => by
    rw [List.map_cons, List.nodup_cons] at hnd
    have hna : ∀ b ∈ l, b.name ≠ a.name := fun b hb he => hnd.1 (he ▸ List.mem_map_of_mem hb)
    obtain ⟨t1, g1, g2⟩ := (h1 a (by simp)).next num
    obtain ⟨t2, g3, g4⟩ := (h2 a (by simp)).next num
    have hb : blockOf (x' a.name) a.num off num = blockOf (x a.name) a.num off num := by
      refine List.map_congr_left fun c hc => List.map_congr_left fun k hk => ?_
      exact (hagree a (hmem a (by simp)) c (by simpa using hc) (off + k) (by
        have : k < num := by simpa using hk
        omega)).symm
    rw [List.foldlM_cons] at h
    cases hs : sigAssign e.sig a.name lo hi (blockOf (x a.name) a.num off num) with
    | error y =>
      have : cfg.anySource num lo hi e a = .error y := by unfold SimCfg.anySource; rw [g1]; simp only; rw [hs]
      rw [this] at h; cases h
    | ok sig =>
      have q1 : cfg.anySource num lo hi e a = .ok { e with
          sig := sig, srcs := fun k => if k = a.name then t1 else e.srcs k } := by
        unfold SimCfg.anySource; rw [g1]; simp only; rw [hs]
      have q2 : cfg.anySource num lo hi (e.withSrcs s) a = .ok (Eng.withSrcs
          (fun k => if k = a.name then t2 else s k) { e with
          sig := sig, srcs := fun k => if k = a.name then t1 else e.srcs k }) := by
        unfold SimCfg.anySource Eng.withSrcs; simp only; rw [g3, hb]; simp only; rw [hs]
      rw [q1] at h
      obtain ⟨s', r1, r2, r3, r4⟩ := sources_causal hagree l (fun b hb => hmem b (by simp [hb])) hnd.2
        { e with sig := sig, srcs := fun k => if k = a.name then t1 else e.srcs k } e1
        (fun k => if k = a.name then t2 else s k)
        (fun b hb => by simp only [if_neg (hna b hb)]; exact h1 b (by simp [hb]))
        (fun b hb => by simp only [if_neg (hna b hb)]; exact h2 b (by simp [hb])) h
      obtain ⟨u1, u2⟩ := r4 a.name fun b hb he => hna b hb he.symm
      simp only [if_true] at u1 u2
      refine ⟨s', ?_, ?_, ?_, ?_⟩
      · rw [List.foldlM_cons, q2]; exact r1
      · intro b hb
        rcases List.mem_cons.1 hb with rfl | hb
        · rw [u1]; exact g2
        · exact r2 b hb
      · intro b hb
        rcases List.mem_cons.1 hb with rfl | hb
        · rw [u2]; exact g4
        · exact r3 b hb
      · intro k hk
        obtain ⟨w1, w2⟩ := r4 k fun b hb => hk b (by simp [hb])
        simp only [if_neg (hk a (by simp))] at w1 w2
        exact ⟨w1, w2⟩

/-- Two simulator states that differ only in the sources, which are at the same
position of their streams. -/
def Twin (cfg : SimCfg R IR F S A P D O) (x x' : String → Nat → Nat → R) (off : Nat)
    (e : Eng (Sigs R) F S A P) (s : String → S) : Prop :=
  (∀ a ∈ freeOf cfg.arrays, StreamAt cfg.srcGet (e.srcs a.name) a.num off (x a.name)) ∧
  ∀ a ∈ freeOf cfg.arrays, StreamAt cfg.srcGet (s a.name) a.num off (x' a.name)

variable {cfg}

theorem engine_causal [Add R] (hN : Names cfg) {x x' : String → Nat → Nat → R} {off n : Nat} {i : Int}
    (hagree : ∀ a ∈ freeOf cfg.arrays, ∀ c < a.num, ∀ j < off + 1, x a.name c j = x' a.name c j)
    {e e1 : Eng (Sigs R) F S A P} {s : String → S} (ht : Twin cfg x x' off e s)
    (h : cfg.engine n i e = .ok e1) :
    ∃ s', cfg.engine n i (e.withSrcs s) = .ok (e1.withSrcs s') ∧ Twin cfg x x' (off + 1) e1 s' := by
  unfold SimCfg.engine at h ⊢
  rw [show (e.withSrcs s).arr = e.arr from rfl]
  cases harr : cfg.arrUpdate e.arr n with
  | error y => rw [harr] at h; cases h
  | ok arr =>
    rw [harr] at h
    simp only at h ⊢
    have e0 : ({ e.withSrcs s with arr := arr } : Eng (Sigs R) F S A P) = ({ e with arr := arr } : Eng _ _ _ _ _).withSrcs s := rfl
    rw [e0, callProc_srcs]
    cases hp : cfg.callProc n i { e with arr := arr } with
    | error y => rw [hp] at h; cases h
    | ok ep =>
      rw [hp] at h
      simp only [Except.map] at h ⊢
      have hsrc : ep.srcs = e.srcs := by
        unfold SimCfg.callProc at hp
        split at hp
        · cases hp; rfl
        · split_ifs at hp
          · split at hp
            · cases hp
            · cases hp; rfl
          · cases hp; rfl
      unfold SimCfg.propagate at h ⊢
      rw [stepSource_any] at h ⊢
      cases hf : (freeOf cfg.arrays).foldlM (cfg.anySource 1 i (i + 1)) ep with
      | error y => rw [hf] at h; cases h
      | ok ef =>
        rw [hf] at h
        obtain ⟨s', r1, r2, r3, r4⟩ := sources_causal cfg hagree (freeOf cfg.arrays) (fun _ h => h) hN.freeNames
          ep ef s (by rw [hsrc]; exact ht.1) ht.2 hf
        rw [r1]
        simp only at h ⊢
        rw [foldlM_map (Eng.withSrcs s') _ cfg.stepUpdate _ _ fun t x _ => stepUpdate_srcs cfg s' t x]
        cases hu : (combosOf cfg.arrays).foldlM cfg.stepUpdate ef with
        | error y => rw [hu] at h; cases h
        | ok eu =>
          rw [hu] at h
          simp only [Except.map] at h ⊢
          rw [foldlM_map (Eng.withSrcs s') _ (cfg.stepPair i) _ _ fun t x _ => stepPair_srcs cfg s' i t x, h]
          have hs1 : e1.srcs = ef.srcs := by
            have a1 : eu.srcs = ef.srcs := foldlM_inv (fun t => t.srcs = ef.srcs) _ _ _ _
              (fun t x t' _ hI hst => by
                unfold SimCfg.stepUpdate at hst
                split_ifs at hst
                · split at hst
                  · cases hst
                  · split at hst
                    · cases hst
                    · cases hst; exact hI
                · cases hst; exact hI) rfl hu
            refine foldlM_inv (fun t => t.srcs = ef.srcs) _ _ _ _ (fun t x t' _ hI hst => ?_) a1 h
            unfold SimCfg.stepPair at hst
            split at hst
            · cases hst
            · split at hst
              · cases hst
              · split at hst
                · cases hst
                · split at hst
                  · cases hst
                  · cases hst; exact hI
          exact ⟨s', rfl, by rw [Twin, hs1]; exact ⟨r2, r3⟩⟩

theorem step_causal [Zero R] [Add R] (hN : Names cfg) {x x' : String → Nat → Nat → R} {off : Nat}
    (hagree : ∀ a ∈ freeOf cfg.arrays, ∀ c < a.num, ∀ j < off + 1, x a.name c j = x' a.name c j)
    {st st1 : SimSt R F S A P D O} {s : String → S} (ht : Twin cfg x x' off st.eng s)
    (h : cfg.step st = .ok st1) :
    ∃ s', cfg.step (st.withSrcs s) = .ok (st1.withSrcs s') ∧ Twin cfg x x' (off + 1) st1.eng s' := by
  unfold SimCfg.step at h ⊢
  cases he : cfg.engine st.n st.idx st.eng with
  | error y => rw [he] at h; cases h
  | ok e1 =>
    rw [he] at h
    obtain ⟨s', g1, g2⟩ := engine_causal hN hagree ht he
    rw [show (st.withSrcs s).eng = st.eng.withSrcs s from rfl, show (st.withSrcs s).n = st.n from rfl,
      show (st.withSrcs s).idx = st.idx from rfl, show (st.withSrcs s).diags = st.diags from rfl,
      show (st.withSrcs s).log = st.log from rfl, g1]
    simp only at h ⊢
    rw [show (e1.withSrcs s').proc = e1.proc from rfl, show (e1.withSrcs s').sig = e1.sig from rfl]
    cases hs : saveData cfg.diag (if cfg.proc.isSome then some e1.proc else none) e1.sig st.idx
      st.n (cfg.lastBlock st.idx) st.diags with
    | error y => rw [hs] at h; cases h
    | ok ds =>
      rw [hs] at h
      simp only at h ⊢
      cases hd : dispatch cfg.diag cfg.plotNone ds st.log with
      | error y => rw [hd] at h; cases h
      | ok r =>
        obtain ⟨ds', log⟩ := r
        rw [hd] at h
        cases h
        refine ⟨s', ?_, ?_⟩
        · cases cfg.lastBlock st.idx <;> rfl
        · cases cfg.lastBlock st.idx <;> exact g2

theorem steps_causal [Zero R] [Add R] (hN : Names cfg) {x x' : String → Nat → Nat → R} {off : Nat}
    {st0 : SimSt R F S A P D O} {s : String → S} (ht : Twin cfg x x' off st0.eng s) :
    ∀ k {st}, (∀ a ∈ freeOf cfg.arrays, ∀ c < a.num, ∀ j < off + k, x a.name c j = x' a.name c j) →
      cfg.steps k st0 = .ok st →
      ∃ s', cfg.steps k (st0.withSrcs s) = .ok (st.withSrcs s') ∧ Twin cfg x x' (off + k) st.eng s'
  | 0, st, _, h => by cases h; exact ⟨s, rfl, ht⟩
  | k + 1, st, hag, h => by
    simp only [SimCfg.steps] at h ⊢
    cases h1 : cfg.steps k st0 with
    | error y => rw [h1] at h; cases h
    | ok st1 =>
      rw [h1] at h
      obtain ⟨s1, g1, g2⟩ := steps_causal hN ht k (fun a ha c hc j hj => hag a ha c hc j (by omega)) h1
      rw [g1]
      exact step_causal hN (off := off + k) (fun a ha c hc j hj => hag a ha c hc j (by omega)) g2 h

theorem init_causal [Zero R] [Add R] {x x' : String → Nat → Nat → R} {srcs srcs' : String → S} {arr : A}
    {proc : P} {f0 : F} {ds0 : List (Diag D)} {st0 : SimSt R F S A P D O}
    (hagree : ∀ a ∈ freeOf cfg.arrays, ∀ c < a.num, ∀ j < cfg.prepNum, x a.name c j = x' a.name c j)
    (hx : ∀ a ∈ freeOf cfg.arrays, IsStream cfg.srcGet (srcs a.name) a.num (x a.name))
    (hx' : ∀ a ∈ freeOf cfg.arrays, IsStream cfg.srcGet (srcs' a.name) a.num (x' a.name))
    (hN : Names cfg) (h : cfg.init srcs arr proc f0 ds0 = .ok st0) :
    ∃ s, cfg.init srcs' arr proc f0 ds0 = .ok (st0.withSrcs s) ∧ Twin cfg x x' cfg.prepNum st0.eng s := by
  unfold SimCfg.init at h ⊢
  cases h1 : cfg.createSignals with
  | error y => rw [h1] at h; cases h
  | ok sig =>
    rw [h1] at h
    simp only at h ⊢
    cases h2 : cfg.createFilters arr (fun _ _ => f0) with
    | error y => rw [h2] at h; cases h
    | ok fs =>
      rw [h2] at h
      simp only at h ⊢
      unfold SimCfg.prepare at h ⊢
      rw [prepSource_any] at h ⊢
      cases hf : (freeOf cfg.arrays).foldlM (cfg.anySource cfg.prepNum ((cfg.B : Int) - cfg.prepNum) cfg.B)
          { sig := sig, srcs := srcs, filts := fs, arr := arr, proc := proc } with
      | error y => rw [hf] at h; cases h
      | ok ef =>
        rw [hf] at h
        obtain ⟨s', r1, r2, r3, r4⟩ := sources_causal cfg (off := 0) (by rw [Nat.zero_add]; exact hagree)
          (freeOf cfg.arrays) (fun _ h => h) hN.freeNames
          { sig := sig, srcs := srcs, filts := fs, arr := arr, proc := proc } ef srcs'
          (fun a ha => StreamAt.of_isStream (hx a ha)) (fun a ha => StreamAt.of_isStream (hx' a ha)) hf
        change (freeOf cfg.arrays).foldlM (cfg.anySource cfg.prepNum ((cfg.B : Int) - cfg.prepNum) cfg.B)
          { sig := sig, srcs := srcs', filts := fs, arr := arr, proc := proc } = _ at r1
        rw [r1]
        simp only at h ⊢
        rw [foldlM_map (Eng.withSrcs s') _ (cfg.prepPair cfg.prepNum) _ _ fun t x _ => prepPair_srcs cfg s' _ t x]
        cases hp : (combosOf cfg.arrays).foldlM (cfg.prepPair cfg.prepNum) ef with
        | error y => rw [hp] at h; cases h
        | ok e1 =>
          rw [hp] at h
          cases h
          refine ⟨s', rfl, ?_⟩
          have hs1 : e1.srcs = ef.srcs := by
            refine foldlM_inv (fun t => t.srcs = ef.srcs) _ _ _ _ (fun t x t' _ hI hst => ?_) rfl hp
            unfold SimCfg.prepPair at hst
            split at hst
            · cases hst
            · split at hst
              · cases hst
              · split at hst
                · cases hst
                · split at hst
                  · cases hst
                  · cases hst; exact hI
          rw [Nat.zero_add] at r2 r3
          show Twin cfg x x' cfg.prepNum e1 s'
          rw [Twin, hs1]
          exact ⟨r2, r3⟩

end
end Verif

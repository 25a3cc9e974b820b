import Verif.Lemmas.Logger
import Mathlib.Tactic.LinearCombination

namespace Verif

/-! ### preparation -/

section
variable {R IR F S A P D O : Type} (cfg : SimCfg R IR F S A P D O)

theorem createSignals_aux [Zero R] (len : Nat) : ∀ (l : List (String × Nat)) (S0 : Sigs R),
    ((l.map (·.1)).Nodup ∧ (∀ q ∈ l, S0 q.1 = none) →
      l.foldlM (createSignal len) S0 = .ok fun k =>
        match l.find? (fun q => q.1 == k) with
        | some q => some (List.replicate q.2 (List.replicate len 0))
        | none => S0 k) ∧
    (∀ S', l.foldlM (createSignal len) S0 = .ok S' →
      (l.map (·.1)).Nodup ∧ (∀ q ∈ l, S0 q.1 = none))
  | [], S0 => by
    refine ⟨fun _ => rfl, fun S' _ => ⟨by simp, by simp⟩⟩
  | q :: l, S0 => by
    have ih := createSignals_aux len l (S0.set q.1 (List.replicate q.2 (List.replicate len 0)))
    constructor
    · rintro ⟨hnd, hnone⟩
      simp only [List.map_cons, List.nodup_cons] at hnd
      have h0 := hnone q (by simp)
      have hnone' : ∀ x ∈ l, (S0.set q.1 (List.replicate q.2 (List.replicate len 0))) x.1 = none := by
        intro x hx
        unfold Sigs.set
        rw [if_neg, hnone x (by simp [hx])]
        intro h; apply hnd.1; rw [← h]; exact List.mem_map_of_mem hx
      have := ih.1 ⟨hnd.2, hnone'⟩
      simp only [List.foldlM_cons]
      have hc : createSignal len S0 q = .ok (S0.set q.1 (List.replicate q.2 (List.replicate len 0))) := by
        unfold createSignal; rw [h0]
      rw [hc]
      refine Eq.trans this ?_
      congr 1
      funext k
      rw [List.find?_cons]
      by_cases hk : q.1 = k
      · subst hk
        have : l.find? (fun x => x.1 == q.1) = none := by
          rw [List.find?_eq_none]
          intro x hx h
          apply hnd.1
          have : x.1 = q.1 := by simpa using h
          rw [← this]; exact List.mem_map_of_mem hx
        simp [this, Sigs.set]
      · have hk' : (q.1 == k) = false := by simpa using hk
        rw [hk']
        cases hf : l.find? (fun x => x.1 == k) with
        | none => simp only; unfold Sigs.set; rw [if_neg (fun h => hk h.symm)]
        | some x => rfl
    · intro S' h
      simp only [List.foldlM_cons] at h
      cases h0 : S0 q.1 with
      | some m =>
        have hc : createSignal len S0 q = .error .assertion := by unfold createSignal; rw [h0]
        rw [hc] at h; cases h
      | none =>
        have hc : createSignal len S0 q = .ok (S0.set q.1 (List.replicate q.2 (List.replicate len 0))) := by
          unfold createSignal; rw [h0]
        rw [hc] at h
        obtain ⟨i1, i2⟩ := ih.2 S' h
        refine ⟨?_, ?_⟩
        · simp only [List.map_cons, List.nodup_cons]
          refine ⟨?_, i1⟩
          intro hm
          obtain ⟨x, hx, hx'⟩ := List.mem_map.1 hm
          have := i2 x hx
          unfold Sigs.set at this
          rw [if_pos hx'] at this
          cases this
        · intro x hx
          rcases List.mem_cons.1 hx with rfl | hx
          · exact h0
          · have := i2 x hx
            unfold Sigs.set at this
            split at this
            · cases this
            · exact this

/-- `Signals` creation succeeds exactly when all signal names are distinct. -/
theorem createSignals_eq [Zero R] (off : Int) (h : (cfg.signalList.map (·.1)).Nodup) :
    cfg.createSignals = .ok (cut cfg.dims (fun _ _ _ => (0 : R)) off (cfg.B + cfg.C)) := by
  unfold SimCfg.createSignals
  rw [(createSignals_aux (R := R) (cfg.B + cfg.C) cfg.signalList (fun _ => none)).1 ⟨h, by simp⟩]
  congr 1
  funext k
  unfold cut SimCfg.dims
  cases cfg.signalList.find? (fun q => q.1 == k) with
  | none => rfl
  | some q =>
    simp only [Option.map_some, Option.some.injEq]
    unfold matOf
    apply List.ext_getElem <;> simp

theorem createSignals_nodup [Zero R] {S' : Sigs R} (h : cfg.createSignals = .ok S') :
    (cfg.signalList.map (·.1)).Nodup :=
  ((createSignals_aux (R := R) (cfg.B + cfg.C) cfg.signalList (fun _ => none)).2 S' h).1

theorem prepSource_conc [Zero R] (num : Nat) (hn : num ≤ cfg.B) (e : Eng (Tape R) F S A P)
    (a : ArrInfo) :
    cfg.prepSource num (conc cfg.dims (-(cfg.B : Int)) (cfg.B + cfg.C) e) a =
      (cfg.tPrepSource num e a).map (conc cfg.dims (-(cfg.B : Int)) (cfg.B + cfg.C)) := by
  unfold SimCfg.prepSource SimCfg.tPrepSource
  simp only [conc]
  cases cfg.srcGet (e.srcs a.name) num with
  | error x => rfl
  | ok r =>
    obtain ⟨s', v⟩ := r
    have := sigAssign_cut (dims := cfg.dims) e.sig (-(cfg.B : Int)) (cfg.B + cfg.C) a.name
      (cfg.B - num) num (by omega) v
    have e1 : ((cfg.B - num : Nat) : Int) = (cfg.B : Int) - num := by omega
    have e2 : (cfg.B : Int) - num + num = cfg.B := by omega
    have e3 : -(cfg.B : Int) + ((cfg.B : Int) - num) = -(num : Int) := by omega
    rw [e1, e2, e3] at this
    simp only [this]
    cases tAssign cfg.dims e.sig a.name (-(num : Int)) num v <;> rfl

theorem prepPair_conc [Zero R] [Add R] (num : Nat) (hn : num ≤ cfg.B) (e : Eng (Tape R) F S A P)
    (p : ArrInfo × ArrInfo) :
    cfg.prepPair num (conc cfg.dims (-(cfg.B : Int)) (cfg.B + cfg.C) e) p =
      (cfg.tPrepPair num e p).map (conc cfg.dims (-(cfg.B : Int)) (cfg.B + cfg.C)) := by
  have e1 : ((cfg.B - num : Nat) : Int) = (cfg.B : Int) - num := by omega
  have e2 : (cfg.B : Int) - num + num = cfg.B := by omega
  have e3 : -(cfg.B : Int) + ((cfg.B : Int) - num) = -(num : Int) := by omega
  unfold SimCfg.prepPair SimCfg.tPrepPair
  simp only [conc]
  have h1 := sigGet_cut (dims := cfg.dims) e.sig (-(cfg.B : Int)) (cfg.B + cfg.C) p.1.name
    (cfg.B - num) num (by omega)
  rw [e1, e2, e3] at h1
  rw [h1]
  cases tGet cfg.dims e.sig p.1.name (-(num : Int)) num with
  | error x => rfl
  | ok x =>
    dsimp only
    cases cfg.filt.process (e.filts p.1.name p.2.name) x with
    | error x => rfl
    | ok r =>
      obtain ⟨f', y⟩ := r
      dsimp only
      have h2 := sigAdd_cut (dims := cfg.dims) e.sig (-(cfg.B : Int)) (cfg.B + cfg.C) p.2.name 0
        cfg.B (by omega) y
      simp only [Nat.cast_zero, zero_add, add_zero] at h2
      rw [h2]
      cases tAdd cfg.dims e.sig p.2.name (-(cfg.B : Int)) cfg.B y with
      | error x => rfl
      | ok T1 =>
        simp only [Except.map]
        by_cases hc : cfg.contrib
        · simp only [hc, if_true]
          have h3 := sigAssign_cut (dims := cfg.dims) T1 (-(cfg.B : Int)) (cfg.B + cfg.C)
            (contribName p.1 p.2) (cfg.B - num) num (by omega) y
          rw [e1, e2, e3] at h3
          rw [h3]
          cases tAssign cfg.dims T1 (contribName p.1 p.2) (-(num : Int)) num y <;> rfl
        · simp only [hc]; rfl

theorem prepare_conc [Zero R] [Add R] (hB : 1 ≤ cfg.B) (e : Eng (Tape R) F S A P) :
    cfg.prepare (conc cfg.dims (-(cfg.B : Int)) (cfg.B + cfg.C) e) =
      (cfg.tPrepare e).map (conc cfg.dims (-(cfg.B : Int)) (cfg.B + cfg.C)) := by
  have hn : cfg.prepNum ≤ cfg.B := by unfold SimCfg.prepNum; split <;> omega
  unfold SimCfg.prepare SimCfg.tPrepare
  rw [foldlM_map (conc cfg.dims _ _) _ (cfg.tPrepSource cfg.prepNum) _ _
    (fun t x _ => prepSource_conc cfg _ hn t x)]
  cases (freeOf cfg.arrays).foldlM (cfg.tPrepSource cfg.prepNum) e with
  | error x => rfl
  | ok e1 =>
    simp only [Except.map]
    rw [foldlM_map (conc cfg.dims _ _) _ (cfg.tPrepPair cfg.prepNum) _ _
      (fun t x _ => prepPair_conc cfg _ hn t x)]
    rfl

/-- The buffered simulator starts as a window of the tape. -/
theorem init_conc [Zero R] [Add R] (hB : 1 ≤ cfg.B) (hnd : (cfg.signalList.map (·.1)).Nodup)
    (srcs : String → S) (arr : A) (proc : P) (f0 : F) (diags : List (Diag D)) :
    cfg.init srcs arr proc f0 diags =
      (cfg.tInit srcs arr proc f0).map fun e =>
        { eng := conc cfg.dims (-(cfg.B : Int)) (cfg.B + cfg.C) e
          idx := cfg.B, n := 0, diags := diags, log := [] } := by
  unfold SimCfg.init SimCfg.tInit
  rw [createSignals_eq cfg (-(cfg.B : Int)) hnd]
  dsimp only
  cases cfg.createFilters arr (fun _ _ => f0) with
  | error x => rfl
  | ok fs =>
    dsimp only
    have := prepare_conc cfg hB
      { sig := fun _ _ _ => 0, srcs := srcs, filts := fs, arr := arr, proc := proc }
    simp only [conc] at this
    rw [this]
    cases cfg.tPrepare { sig := fun _ _ _ => 0, srcs := srcs, filts := fs, arr := arr, proc := proc }
    <;> rfl

theorem init_nodup [Zero R] [Add R] {srcs : String → S} {arr : A} {proc : P} {f0 : F}
    {diags : List (Diag D)} {st} (h : cfg.init srcs arr proc f0 diags = .ok st) :
    (cfg.signalList.map (·.1)).Nodup := by
  unfold SimCfg.init at h
  split at h
  · cases h
  · rename_i S' hS
    exact createSignals_nodup cfg hS

theorem tPrepSource_zero [Zero R] {num : Nat} {e e' : Eng (Tape R) F S A P} {a : ArrInfo}
    (h : cfg.tPrepSource num e a = .ok e') (h0 : ∀ k c t, 0 ≤ t → e.sig k c t = 0) :
    ∀ k c t, 0 ≤ t → e'.sig k c t = 0 := by
  unfold SimCfg.tPrepSource at h
  split at h
  · cases h
  · split at h
    · cases h
    · rename_i T1 h1
      cases h
      intro k c t ht
      show T1 k c t = 0
      rw [tAssign_same h1 k c t (by omega)]
      exact h0 k c t ht

theorem tPrepPair_zero [Zero R] [Add R] {num : Nat} {e e' : Eng (Tape R) F S A P}
    {p : ArrInfo × ArrInfo} (h : cfg.tPrepPair num e p = .ok e')
    (h0 : ∀ k c t, 0 ≤ t → e.sig k c t = 0) : ∀ k c t, 0 ≤ t → e'.sig k c t = 0 := by
  unfold SimCfg.tPrepPair at h
  split at h
  · cases h
  · split at h
    · cases h
    · split at h
      · cases h
      · rename_i T1 h1
        split at h
        · cases h
        · rename_i T2 h2
          cases h
          intro k c t ht
          have a1 : T1 k c t = 0 := by
            rw [tAdd_same h1 k c t (by omega)]; exact h0 k c t ht
          show T2 k c t = 0
          split at h2
          · rw [tAssign_same h2 k c t (by omega)]; exact a1
          · cases h2; exact a1

theorem tInit_zero [Zero R] [Add R] {srcs : String → S} {arr : A} {proc : P} {f0 : F}
    {e0 : Eng (Tape R) F S A P} (h : cfg.tInit srcs arr proc f0 = .ok e0) :
    ∀ k c t, 0 ≤ t → e0.sig k c t = 0 := by
  unfold SimCfg.tInit at h
  split at h
  · cases h
  · unfold SimCfg.tPrepare at h
    split at h
    · cases h
    · rename_i e1 h1
      have a1 := foldlM_inv (fun x : Eng (Tape R) F S A P => ∀ k c t, 0 ≤ t → x.sig k c t = 0) _ _ _ _
        (fun t x t' _ hI hs => tPrepSource_zero cfg hs hI) (fun _ _ _ _ => rfl) h1
      exact foldlM_inv (fun x : Eng (Tape R) F S A P => ∀ k c t, 0 ≤ t → x.sig k c t = 0) _ _ _ _
        (fun t x t' _ hI hs => tPrepPair_zero cfg hs hI) a1 h

/-! ### the position in the buffer -/

/-- What is known about the buffer position at the start of iteration `k`:
`off` is the step of the first buffer entry, `r` the step of the last reset. -/
structure PosInv (B C m : Nat) (k : Nat) (idx off r : Int) : Prop where
  sync : off + idx = k
  low : (B : Int) - m + 1 ≤ idx
  up : idx + m ≤ C + B ∨ idx = B + k - C * k
  rk : 0 ≤ r ∧ r ≤ k
  back : 1 ≤ idx - k + r

theorem PosInv.start {B C m : Nat} (hm : 1 ≤ m) (hB : m + 1 ≤ B) : PosInv B C m 0 B (-(B : Int)) 0 :=
  { sync := by omega, low := by omega, up := by right; simp, rk := by omega, back := by omega }

theorem PosInv.idx_lt {B C m k : Nat} {idx off r : Int} (h : PosInv B C m k idx off r)
    (hm : 1 ≤ m) (hC : 1 ≤ C) : idx + 1 ≤ B + C := by
  rcases h.up with h | h
  · omega
  · have : (k : Int) ≤ C * k := by
      have : (1 : Int) ≤ C := by omega
      nlinarith
    omega

theorem PosInv.next {B C m k : Nat} {idx off r : Int} (h : PosInv B C m k idx off r)
    (hB : m + 1 ≤ B) :
    (idx + m ≥ C + B → PosInv B C m (k + 1) (idx - C + 1) (off + C) k) ∧
    (¬ idx + m ≥ C + B → PosInv B C m (k + 1) (idx + 1) off r) := by
  obtain ⟨h1, h2, h3, h4, h5⟩ := h
  constructor
  · intro hl
    refine ⟨by push_cast; omega, by omega, ?_, by omega, by push_cast; omega⟩
    rcases h3 with h3 | h3
    · left; omega
    · right; push_cast; rw [h3]; ring
  · intro hl
    exact ⟨by push_cast; omega, by omega, by left; omega, by omega, by push_cast; omega⟩

/-- When the processor is called its block fits in the buffer. -/
theorem PosInv.block_fits {B C m k : Nat} {idx off r : Int} (h : PosInv B C m k idx off r)
    (hm : 1 ≤ m) (hC : 2 ≤ C ∨ (1 ≤ C ∧ m ≤ C)) (hk : k % m = m - 1) : idx + m ≤ B + C := by
  rcases h.up with h | h
  · omega
  · have hk' : m - 1 ≤ k := by rw [← hk]; exact Nat.mod_le _ _
    rcases hC with hC | ⟨hC, hmC⟩
    · have h1 : (m : Int) - 1 ≤ k := by omega
      have h2 : (2 : Int) ≤ C := by omega
      have : (m : Int) - 1 ≤ k * (C - 1) := by nlinarith
      have e : (B : Int) + k - C * k = B - k * (C - 1) := by ring
      omega
    · have : (k : Int) ≤ C * k := by
        have : (1 : Int) ≤ C := by omega
        nlinarith
      omega

/-! ### the interval counter -/

/-- State of an interval counter at the start of iteration `k`; `ps` are the
pieces saved so far. -/
def IvInv (k r : Int) (ivs : List (Int × Int)) (c : IvCounter) (ps : List (Int × Int)) : Prop :=
  c.savedUntil = lastEnd 0 ps ∧ (∀ q ∈ ps, 0 ≤ q.1 ∧ q.1 < q.2 ∧ q.2 < k) ∧
  ((Refine ivs ps ∧ c.start = none ∧ c.stop = none) ∨
   ∃ done dp cp a s e, ivs = done ++ (a, e) :: c.rest ∧ c.start = some s ∧ c.stop = some e ∧
     ps = dp ++ cp ∧ Refine done dp ∧ Chain a cp s ∧ s < e ∧ k ≤ e ∧ r ≤ s ∧ 0 ≤ s ∧
     Increasing e c.rest)

theorem IvInv.start {ivs : List (Int × Int)} (h : Increasing 0 ivs) :
    IvInv 0 0 ivs (IvCounter.init ivs) [] := by
  cases ivs with
  | nil => exact ⟨rfl, by simp, .inl ⟨.nil, rfl, rfl⟩⟩
  | cons q ivs =>
    obtain ⟨h1, h2, h3⟩ := h
    exact ⟨rfl, by simp, .inr ⟨[], [], [], q.1, q.1, q.2, rfl, rfl, rfl, rfl, .nil, rfl, h2, by omega, h1,
      h1, h3⟩⟩

theorem IvInv.later {k r : Int} {ivs : List (Int × Int)} {c : IvCounter} {ps : List (Int × Int)}
    (h : IvInv k r ivs c ps) {r' : Int}
    (hk : ∀ s e, c.start = some s → c.stop = some e → k + 1 ≤ e ∧ r' ≤ s) :
    IvInv (k + 1) r' ivs c ps := by
  obtain ⟨h1, h2, h3⟩ := h
  refine ⟨h1, fun q hq => by have := h2 q hq; omega, ?_⟩
  rcases h3 with h3 | ⟨done, dp, cp, a, s, e, g1, g2, g3, g4, g5, g6, g7, g8, g9, g10, g11⟩
  · exact .inl h3
  · obtain ⟨i1, i2⟩ := hk s e g2 g3
    exact .inr ⟨done, dp, cp, a, s, e, g1, g2, g3, g4, g5, g6, g7, i1, i2, g10, g11⟩

/-- One `save_data` for one diagnostic: nothing, or one piece ending now. -/
theorem saveOne_inv {ops : DiagOps R P D O} {proc : Option P} {sig : Sigs R} {idx : Int} {n : Nat}
    {last : Bool} {d d' : Diag D} {ivs ps : List (Int × Int)} {r : Int}
    (hI : IvInv n r ivs d.saveAt ps) (hr : r ≤ n)
    (h : saveOne ops proc sig idx n last d = .ok d') :
    d'.name = d.name ∧ d'.exportAt = d.exportAt ∧
    ∃ new, IvInv (n + 1) (if last then n else r) ivs d'.saveAt (ps ++ new) ∧
      ((new = [] ∧ d'.data = d.data) ∨
       ∃ s : Int, new = [(s, (n : Int))] ∧ r ≤ s ∧ 0 ≤ s ∧ s < n ∧
        ops.save d.data proc sig (idx - 1 - (n - s), idx - 1) (s, n) = .ok d'.data) := by
  have hI' := hI
  obtain ⟨h1, h2, h3⟩ := hI'
  rcases h3 with ⟨h3, h4, h5⟩ | ⟨done, dp, cp, a, s, e, g1, g2, g3, g4, g5, g6, g7, g8, g9, g10, g11⟩
  · unfold saveOne at h
    rw [h4] at h
    simp only at h
    cases h
    refine ⟨rfl, rfl, [], ?_, .inl ⟨rfl, rfl⟩⟩
    rw [List.append_nil]
    exact hI.later (fun s e hs _ => by rw [h4] at hs; cases hs)
  · unfold saveOne at h
    rw [g2, g3] at h
    simp only at h
    split at h
    · rename_i hge
      have hen : e = n := by omega
      subst hen
      split at h
      · cases h
      · rename_i data hsave
        have hprog : d.saveAt.progress (n : Int) = .ok (IvCounter.next d.saveAt.rest n) := by
          unfold IvCounter.progress
          rw [g3]
          simp
        rw [hprog] at h
        simp only at h
        cases h
        refine ⟨rfl, rfl, [(s, (n : Int))], ?_, .inr ⟨s, rfl, g9, g10, g7, ?_⟩⟩
        · refine ⟨?_, ?_, ?_⟩
          · rw [lastEnd_append]
            cases d.saveAt.rest <;> rfl
          · intro q hq
            rcases List.mem_append.1 hq with hq | hq
            · have := h2 q hq; omega
            · rw [List.mem_singleton] at hq; subst hq; exact ⟨g10, g7, by simp⟩
          · have href : Refine (done ++ [(a, (n : Int))]) (ps ++ [(s, (n : Int))]) := by
              rw [g4, List.append_assoc]
              exact g5.snoc (g6.append (Chain.single g7))
            cases hrest : d.saveAt.rest with
            | nil =>
              left
              refine ⟨?_, rfl, rfl⟩
              rw [g1, hrest]; exact href
            | cons q rest =>
              right
              rw [hrest] at g11
              obtain ⟨i1, i2, i3⟩ := g11
              refine ⟨done ++ [(a, (n : Int))], ps ++ [(s, (n : Int))], [], q.1, q.1, q.2, ?_, rfl, rfl,
                by simp, href, rfl, i2, by omega, by split <;> omega, by omega, i3⟩
              rw [g1, hrest]
              simp [IvCounter.next]
        · have e1 : idx - ((n : Int) - n) - 1 = idx - 1 := by omega
          rw [e1] at hsave
          exact hsave
    · rename_i hlt
      split at h
      · rename_i hl
        simp only [Bool.and_eq_true, decide_eq_true_eq] at hl
        obtain ⟨hl1, hl2⟩ := hl
        split at h
        · cases h
        · rename_i data hsave
          have hprog : d.saveAt.progress (n : Int) =
              .ok { d.saveAt with savedUntil := n, start := some (n : Int) } := by
            unfold IvCounter.progress
            rw [g3]
            simp only
            rw [if_neg (by omega), if_neg (by omega)]
            rw [← g3]
          rw [hprog] at h
          simp only at h
          cases h
          refine ⟨rfl, rfl, [(s, (n : Int))], ?_, .inr ⟨s, rfl, g9, g10, hl2, ?_⟩⟩
          · refine ⟨?_, ?_, .inr ⟨done, dp, cp ++ [(s, (n : Int))], a, n, e, g1, rfl, g3, ?_, g5,
              g6.append (Chain.single hl2), by omega, by omega, by split <;> omega, by omega, g11⟩⟩
            · rw [lastEnd_append]; rfl
            · intro q hq
              rcases List.mem_append.1 hq with hq | hq
              · have := h2 q hq; omega
              · rw [List.mem_singleton] at hq; subst hq; exact ⟨g10, hl2, by simp⟩
            · rw [g4, List.append_assoc]
          · have e1 : idx - ((n : Int) - s) - 1 = idx - 1 - (n - s) := by omega
            rw [e1] at hsave
            exact hsave
      · rename_i hl
        cases h
        refine ⟨rfl, rfl, [], ?_, .inl ⟨rfl, rfl⟩⟩
        rw [List.append_nil]
        refine hI.later (fun s' e' hs he => ?_)
        rw [g2] at hs; rw [g3] at he
        cases hs; cases he
        refine ⟨by omega, ?_⟩
        split
        · rename_i hlast
          simp only [hlast, Bool.true_and, decide_eq_true_eq, not_lt] at hl
          omega
        · exact g9

end
end Verif

import Verif.Lemmas.Tape

namespace Verif

/-- Running a fold in two representations related by `f`. -/
theorem foldlM_map {ε α β γ : Type} (f : α → β) (step : β → γ → Except ε β)
    (tstep : α → γ → Except ε α) :
    ∀ (l : List γ) (t : α), (∀ t x, x ∈ l → step (f t) x = (tstep t x).map f) →
      l.foldlM step (f t) = (l.foldlM tstep t).map f
  | [], t, _ => rfl
  | x :: l, t, H => by
    simp only [List.foldlM_cons, H t x (by simp)]
    cases tstep t x with
    | error e => rfl
    | ok t' => exact foldlM_map f step tstep l t' fun t x hx => H t x (by simp [hx])

/-- An invariant of a successful fold. -/
theorem foldlM_inv {ε α γ : Type} (I : α → Prop) (step : α → γ → Except ε α) :
    ∀ (l : List γ) (t t' : α), (∀ t x t', x ∈ l → I t → step t x = .ok t' → I t') →
      I t → l.foldlM step t = .ok t' → I t'
  | [], t, t', _, h0, h => by cases h; exact h0
  | x :: l, t, t', H, h0, h => by
    simp only [List.foldlM_cons] at h
    cases hx : step t x with
    | error e => rw [hx] at h; cases h
    | ok t1 =>
      rw [hx] at h
      exact foldlM_inv I step l t1 t' (fun t x t' hm => H t x t' (by simp [hm]))
        (H t x t1 (by simp) h0 hx) h

section
variable {R IR F S A P D O : Type}

/-- A tape state seen through a buffer of length `L` starting at step `off`. -/
def conc (dims : String → Option Nat) (off : Int) (L : Nat) (e : Eng (Tape R) F S A P) :
    Eng (Sigs R) F S A P :=
  { sig := cut dims e.sig off L, srcs := e.srcs, filts := e.filts, arr := e.arr, proc := e.proc }

variable (cfg : SimCfg R IR F S A P D O)

theorem stepSource_conc [Zero R] (off : Int) (L i : Nat) (n : Nat) (hn : off + i = n) (hi : i + 1 ≤ L)
    (e : Eng (Tape R) F S A P) (a : ArrInfo) :
    cfg.stepSource i (conc cfg.dims off L e) a = (cfg.tSource n e a).map (conc cfg.dims off L) := by
  unfold SimCfg.stepSource SimCfg.tSource
  simp only [conc]
  cases cfg.srcGet (e.srcs a.name) 1 with
  | error x => rfl
  | ok r =>
    obtain ⟨s', v⟩ := r
    have := sigAssign_cut (dims := cfg.dims) e.sig off L a.name i 1 hi v
    simp only [Nat.cast_one, hn] at this
    simp only [this]
    cases tAssign cfg.dims e.sig a.name n 1 v <;> rfl

theorem stepUpdate_conc (off : Int) (L : Nat) (e : Eng (Tape R) F S A P) (p : ArrInfo × ArrInfo) :
    cfg.stepUpdate (conc cfg.dims off L e) p = (cfg.stepUpdate e p).map (conc cfg.dims off L) := by
  unfold SimCfg.stepUpdate
  simp only [conc]
  split_ifs
  · cases cfg.arrPath e.arr p.1.name p.2.name with
    | error x => rfl
    | ok ir =>
      dsimp only
      cases cfg.filt.updateIr (e.filts p.1.name p.2.name) ir <;> rfl
  · rfl

theorem stepPair_conc [Zero R] [Add R] (off : Int) (L i : Nat) (n : Nat) (hn : off + i = n)
    (hi : i + 1 ≤ L) (e : Eng (Tape R) F S A P) (p : ArrInfo × ArrInfo) :
    cfg.stepPair i (conc cfg.dims off L e) p = (cfg.tPair n e p).map (conc cfg.dims off L) := by
  unfold SimCfg.stepPair SimCfg.tPair
  simp only [conc]
  have h1 := sigGet_cut (dims := cfg.dims) e.sig off L p.1.name i 1 hi
  simp only [Nat.cast_one, hn] at h1
  rw [h1]
  cases tGet cfg.dims e.sig p.1.name n 1 with
  | error x => rfl
  | ok x =>
    dsimp only
    cases cfg.filt.process (e.filts p.1.name p.2.name) x with
    | error x => rfl
    | ok r =>
      obtain ⟨f', y⟩ := r
      dsimp only
      have h2 := sigAdd_cut (dims := cfg.dims) e.sig off L p.2.name i 1 hi y
      simp only [Nat.cast_one, hn] at h2
      rw [h2]
      cases tAdd cfg.dims e.sig p.2.name n 1 y with
      | error x => rfl
      | ok T1 =>
        simp only [Except.map]
        by_cases hc : cfg.contrib
        · simp only [hc, if_true]
          have h3 := sigAssign_cut (dims := cfg.dims) T1 off L (contribName p.1 p.2) i 1 hi y
          simp only [Nat.cast_one, hn] at h3
          rw [h3]
          cases tAssign cfg.dims T1 (contribName p.1 p.2) n 1 y <;> rfl
        · simp only [hc]; rfl

theorem propagate_conc [Zero R] [Add R] (off : Int) (L i : Nat) (n : Nat) (hn : off + i = n)
    (hi : i + 1 ≤ L) (e : Eng (Tape R) F S A P) :
    cfg.propagate i (conc cfg.dims off L e) = (cfg.tPropagate n e).map (conc cfg.dims off L) := by
  unfold SimCfg.propagate SimCfg.tPropagate
  rw [foldlM_map (conc cfg.dims off L) _ (cfg.tSource n) _ _
    (fun t x _ => stepSource_conc cfg off L i n hn hi t x)]
  cases (freeOf cfg.arrays).foldlM (cfg.tSource n) e with
  | error x => rfl
  | ok e1 =>
    simp only [Except.map]
    rw [foldlM_map (conc cfg.dims off L) _ cfg.stepUpdate _ _
      (fun t x _ => stepUpdate_conc cfg off L t x)]
    cases (combosOf cfg.arrays).foldlM cfg.stepUpdate e1 with
    | error x => rfl
    | ok e2 =>
      simp only [Except.map]
      rw [foldlM_map (conc cfg.dims off L) _ (cfg.tPair n) _ _
        (fun t x _ => stepPair_conc cfg off L i n hn hi t x)]
      rfl

theorem callProc_conc (lp : ProcView R P) (hlp : lp.Valid cfg.dims cfg.proc) (off : Int) (L i : Nat) (n : Nat)
    (hn : off + i = n)
    (hp : ∀ p, cfg.proc = some p → n % p.bs = p.bs - 1 → lp.H ≤ i ∧ i + p.bs ≤ L)
    (e : Eng (Tape R) F S A P) :
    cfg.callProc n i (conc cfg.dims off L e) = (cfg.tProc lp n e).map (conc cfg.dims off L) := by
  unfold SimCfg.callProc SimCfg.tProc
  cases hc : cfg.proc with
  | none => rfl
  | some p =>
    simp only [conc]
    split_ifs with h0 h1
    · rfl
    · obtain ⟨hH, hL⟩ := hp p hc h1
      have := hlp p hc e.proc (fun k c t => e.sig k c (off + t)) i L hH hL
      have e1 : cut cfg.dims (fun k c t => e.sig k c (off + t)) 0 L = cut cfg.dims e.sig off L :=
        cut_congr fun k num c q _ _ _ => by simp
      have e2 : cut cfg.dims (fun k c t => e.sig k c (off + t)) ((i : Int) - lp.H) (lp.H + p.bs) =
          cut cfg.dims e.sig ((n : Int) - lp.H) (lp.H + p.bs) :=
        cut_congr fun k num c q _ _ _ => by
          show e.sig k c (off + ((i : Int) - lp.H + q)) = _
          have : off + ((i : Int) - lp.H + q) = (n : Int) - lp.H + q := by omega
          rw [this]
      rw [e1, e2] at this
      rw [this]
      cases lp.act e.proc (cut cfg.dims e.sig ((n : Int) - lp.H) (lp.H + p.bs)) with
      | error x => rfl
      | ok r =>
        obtain ⟨p', out⟩ := r
        simp only [Except.map]
        congr 1
        simp only [conc]
        congr 1
        refine cut_congr fun k num c q _ _ _ => ?_
        unfold Tape.paste
        simp only [zero_add]
        by_cases hq : (i : Int) ≤ q ∧ (q : Int) < i + p.bs
        · rw [if_pos hq, if_pos (by omega)]
          congr 1; omega
        · rw [if_neg hq, if_neg (by omega)]
    · rfl

theorem engine_conc [Zero R] [Add R] (lp : ProcView R P)
    (hlp : lp.Valid cfg.dims cfg.proc) (off : Int) (L i : Nat)
    (n : Nat) (hn : off + i = n) (hi : i + 1 ≤ L)
    (hp : ∀ p, cfg.proc = some p → n % p.bs = p.bs - 1 → lp.H ≤ i ∧ i + p.bs ≤ L)
    (e : Eng (Tape R) F S A P) :
    cfg.engine n i (conc cfg.dims off L e) = (cfg.tEngine lp n e).map (conc cfg.dims off L) := by
  unfold SimCfg.engine SimCfg.tEngine
  have harr : (conc cfg.dims off L e).arr = e.arr := rfl
  rw [harr]
  cases cfg.arrUpdate e.arr n with
  | error x => rfl
  | ok arr =>
    dsimp only
    have := callProc_conc cfg lp hlp off L i n hn hp { e with arr := arr }
    have h2 : { conc cfg.dims off L e with arr := arr } =
      conc cfg.dims off L { e with arr := arr } := rfl
    rw [h2, this]
    cases cfg.tProc lp n { e with arr := arr } with
    | error x => rfl
    | ok e1 =>
      simp only [Except.map]
      exact propagate_conc cfg off L i n hn hi e1

/-! ### A step only changes the present -/

/-- Equal outside the steps `n, ..., n+w-1`. -/
def SameOutside (n : Int) (w : Nat) (T T' : Tape R) : Prop :=
  ∀ k c t, (t < n ∨ n + w ≤ t) → T' k c t = T k c t

theorem SameOutside.refl (n : Int) (w : Nat) (T : Tape R) : SameOutside n w T T :=
  fun _ _ _ _ => rfl

theorem SameOutside.trans {n : Int} {w : Nat} {T T' T'' : Tape R} (h : SameOutside n w T T')
    (h' : SameOutside n w T' T'') : SameOutside n w T T'' :=
  fun k c t ht => (h' k c t ht).trans (h k c t ht)

theorem SameOutside.mono {n : Int} {w w' : Nat} {T T' : Tape R} (h : SameOutside n w T T')
    (hw : w ≤ w') : SameOutside n w' T T' :=
  fun k c t ht => h k c t (by omega)

theorem tAssign_same [Zero R] {dims : String → Option Nat} {T T' : Tape R} {name : String} {n : Int}
    {w : Nat} {v : Mat R} (h : tAssign dims T name n w v = .ok T') : SameOutside n w T T' := by
  unfold tAssign at h
  split at h
  · cases h
  · split at h
    · cases h
    · cases h
      intro k c t ht
      unfold Tape.write
      rw [if_neg (by omega)]

theorem tAdd_same [Zero R] [Add R] {dims : String → Option Nat} {T T' : Tape R} {name : String}
    {n : Int} {w : Nat} {v : Mat R} (h : tAdd dims T name n w v = .ok T') : SameOutside n w T T' := by
  unfold tAdd at h
  split at h
  · cases h
  · split at h
    · cases h
    · cases h
      intro k c t ht
      unfold Tape.addOn
      rw [if_neg (by omega)]

theorem tSource_same [Zero R] {n : Nat} {e e' : Eng (Tape R) F S A P} {a : ArrInfo}
    (h : cfg.tSource n e a = .ok e') : SameOutside n 1 e.sig e'.sig := by
  unfold SimCfg.tSource at h
  split at h
  · cases h
  · split at h
    · cases h
    · rename_i h1
      cases h
      exact tAssign_same h1

theorem stepUpdate_sig {Sg : Type} {e e' : Eng Sg F S A P} {p : ArrInfo × ArrInfo}
    (h : cfg.stepUpdate e p = .ok e') : e'.sig = e.sig := by
  unfold SimCfg.stepUpdate at h
  split at h
  · split at h
    · cases h
    · split at h
      · cases h
      · cases h; rfl
  · cases h; rfl

theorem tPair_same [Zero R] [Add R] {n : Nat} {e e' : Eng (Tape R) F S A P} {p : ArrInfo × ArrInfo}
    (h : cfg.tPair n e p = .ok e') : SameOutside n 1 e.sig e'.sig := by
  unfold SimCfg.tPair at h
  split at h
  · cases h
  · split at h
    · cases h
    · split at h
      · cases h
      · rename_i T1 h1
        split at h
        · cases h
        · rename_i T2 h2
          cases h
          have a1 := tAdd_same h1
          split at h2
          · exact a1.trans (tAssign_same h2)
          · cases h2; exact a1

theorem tPropagate_same [Zero R] [Add R] {n : Nat} {e e' : Eng (Tape R) F S A P}
    (h : cfg.tPropagate n e = .ok e') : SameOutside n 1 e.sig e'.sig := by
  unfold SimCfg.tPropagate at h
  split at h
  · cases h
  · rename_i e1 h1
    split at h
    · cases h
    · rename_i e2 h2
      have a1 := foldlM_inv (fun x : Eng (Tape R) F S A P => SameOutside n 1 e.sig x.sig) _ _ _ _
        (fun t x t' _ hI hs => hI.trans (tSource_same cfg hs)) (SameOutside.refl _ _ _) h1
      have a2 := foldlM_inv (fun x : Eng (Tape R) F S A P => SameOutside n 1 e.sig x.sig) _ _ _ _
        (fun t x t' _ hI hs => by rw [stepUpdate_sig cfg hs]; exact hI) a1 h2
      exact foldlM_inv (fun x : Eng (Tape R) F S A P => SameOutside n 1 e.sig x.sig) _ _ _ _
        (fun t x t' _ hI hs => hI.trans (tPair_same cfg hs)) a2 h

theorem tProc_same (lp : ProcView R P) {n : Nat} {e e' : Eng (Tape R) F S A P}
    (h : cfg.tProc lp n e = .ok e') :
    (∃ p, cfg.proc = some p ∧ 0 < p.bs ∧ n % p.bs = p.bs - 1 ∧ SameOutside n p.bs e.sig e'.sig) ∨
      e' = e := by
  unfold SimCfg.tProc at h
  cases hc : cfg.proc with
  | none => rw [hc] at h; cases h; exact .inr rfl
  | some p =>
    rw [hc] at h
    simp only at h
    split_ifs at h with h0 h1
    · split at h
      · cases h
      · cases h
        refine .inl ⟨p, rfl, by omega, h1, ?_⟩
        intro k c t ht
        simp only [Tape.paste]
        rw [if_neg (by omega)]
    · cases h; exact .inr rfl

/-- Step `n` changes nothing before step `n`, and nothing after the block the
processor may write. -/
theorem tEngine_same [Zero R] [Add R] (lp : ProcView R P) {n : Nat}
    {e e' : Eng (Tape R) F S A P} (h : cfg.tEngine lp n e = .ok e') :
    (∃ p, cfg.proc = some p ∧ 0 < p.bs ∧ n % p.bs = p.bs - 1 ∧ SameOutside n p.bs e.sig e'.sig) ∨
      SameOutside n 1 e.sig e'.sig := by
  unfold SimCfg.tEngine at h
  split at h
  · cases h
  · split at h
    · cases h
    · rename_i e1 h1
      have a2 := tPropagate_same cfg h
      rcases tProc_same cfg lp h1 with ⟨p, hp, h0, hm, hs⟩ | rfl
      · exact .inl ⟨p, hp, h0, hm, hs.trans (a2.mono h0)⟩
      · exact .inr a2

theorem tEngine_past [Zero R] [Add R] (lp : ProcView R P) {n : Nat}
    {e e' : Eng (Tape R) F S A P} (h : cfg.tEngine lp n e = .ok e') (k : String) (c : Nat) (t : Int)
    (ht : t < n) : e'.sig k c t = e.sig k c t := by
  rcases tEngine_same cfg lp h with ⟨p, _, _, _, hs⟩ | hs
  · exact hs k c t (.inl ht)
  · exact hs k c t (.inl ht)

theorem tSteps_past [Zero R] [Add R] (lp : ProcView R P) {n : Nat}
    {e0 e : Eng (Tape R) F S A P} (h : cfg.tSteps lp n e0 = .ok e) :
    ∀ m {e'}, cfg.tSteps lp (n + m) e0 = .ok e' → ∀ k c t, t < (n : Int) →
      e'.sig k c t = e.sig k c t
  | 0, e', h', k, c, t, _ => by rw [Nat.add_zero, h] at h'; cases h'; rfl
  | m + 1, e', h', k, c, t, ht => by
    rw [← Nat.add_assoc] at h'
    simp only [SimCfg.tSteps] at h'
    split at h'
    · cases h'
    · rename_i e1 h1
      rw [tEngine_past cfg lp h' k c t (by push_cast; omega)]
      exact tSteps_past lp h m h1 k c t ht

/-- Every prefix of a successful tape run is successful. -/
theorem tSteps_prefix [Zero R] [Add R] (lp : ProcView R P) {n : Nat}
    {e0 : Eng (Tape R) F S A P} : ∀ m {e'}, cfg.tSteps lp (n + m) e0 = .ok e' →
      ∃ e, cfg.tSteps lp n e0 = .ok e
  | 0, e', h => ⟨e', h⟩
  | m + 1, e', h => by
    rw [← Nat.add_assoc] at h
    simp only [SimCfg.tSteps] at h
    split at h
    · cases h
    · rename_i e1 h1
      exact tSteps_prefix lp m h1

end
end Verif

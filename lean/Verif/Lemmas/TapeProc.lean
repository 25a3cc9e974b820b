/-
Simulations with a processor that also writes into the past of its own signals:
the buffered simulator against the tape.
-/
import Verif.Lemmas.Produced
namespace Verif

section
variable {R IR F S A P D O : Type}

/-- A processor described by what it does on the tape.  It may write anywhere before
the end of its block.  Its next call looks back `H` samples, and raises `ValueError` if the buffer
does not go back so far. -/
structure TapeProc (dims : String → Option Nat) (p : Proc R P) where
  M : Nat
  H : P → Nat
  good : P → Prop
  act : P → Tape R → Int → P × Tape R
  conc : ∀ q T off (i L : Nat), good q → H q ≤ i → i + p.bs ≤ L →
    p.process q (cut dims T off L) i = .ok ((act q T (off + i)).1, cut dims (act q T (off + i)).2 off L)
  fails : ∀ q T off (i L : Nat), good q → M ≤ L → i < H q → i + p.bs ≤ L → p.process q (cut dims T off L) i = .error .value
  keep : ∀ q T n, good q → good (act q T n).1
  future : ∀ q T (n : Int) k c (t : Int), good q → n + p.bs ≤ t → (act q T n).2 k c t = T k c t

/-- The processor part of a step on the tape. -/
def SimCfg.gProc (cfg : SimCfg R IR F S A P D O) {p : Proc R P} (tp : TapeProc cfg.dims p) (n : Nat) (e : Eng (Tape R) F S A P) :
    Eng (Tape R) F S A P :=
  if n % p.bs = p.bs - 1 then { e with proc := (tp.act e.proc e.sig n).1, sig := (tp.act e.proc e.sig n).2 } else e

def SimCfg.gEngine [Zero R] [Add R] (cfg : SimCfg R IR F S A P D O) {p : Proc R P} (tp : TapeProc cfg.dims p) (n : Nat) (e : Eng (Tape R) F S A P) :
    Except PyErr (Eng (Tape R) F S A P) :=
  match cfg.arrUpdate e.arr n with
  | .error x => .error x
  | .ok arr => cfg.tPropagate n (cfg.gProc tp n { e with arr := arr })

def SimCfg.gSteps [Zero R] [Add R] (cfg : SimCfg R IR F S A P D O) {p : Proc R P} (tp : TapeProc cfg.dims p) : Nat → Eng (Tape R) F S A P →
    Except PyErr (Eng (Tape R) F S A P)
  | 0, e => .ok e
  | n + 1, e =>
    match cfg.gSteps tp n e with
    | .error x => .error x
    | .ok e' => cfg.gEngine tp n e'

variable {cfg : SimCfg R IR F S A P D O}

theorem gEngine_conc [Zero R] [Add R] {p : Proc R P} (tp : TapeProc cfg.dims p) (hp : cfg.proc = some p) (hbs : 0 < p.bs)
    (off : Int) (L i n : Nat) (hn : off + i = n) (hi : i + 1 ≤ L) (e : Eng (Tape R) F S A P)
    (hf : n % p.bs = p.bs - 1 → tp.H e.proc ≤ i ∧ i + p.bs ≤ L) (hg : tp.good e.proc) :
    cfg.engine n i (conc cfg.dims off L e) = (cfg.gEngine tp n e).map (conc cfg.dims off L) := by
  unfold SimCfg.engine SimCfg.gEngine
  have harr : (conc cfg.dims off L e).arr = e.arr := rfl
  rw [harr]
  cases cfg.arrUpdate e.arr n with
  | error x => rfl
  | ok arr =>
    dsimp only
    have hc : cfg.callProc n i { conc cfg.dims off L e with arr := arr } =
        .ok (conc cfg.dims off L (cfg.gProc tp n { e with arr := arr })) := by
      unfold SimCfg.callProc SimCfg.gProc
      rw [hp]
      simp only [conc]
      rw [if_neg (by omega)]
      by_cases hm : n % p.bs = p.bs - 1
      · rw [if_pos hm, if_pos hm, tp.conc e.proc e.sig off i L hg (hf hm).1 (hf hm).2, hn]
      · rw [if_neg hm, if_neg hm]
    rw [hc]
    exact propagate_conc cfg off L i n hn hi _

/-- With a buffer that does not go back far enough the step raises. -/
theorem gEngine_fails [Zero R] [Add R] {p : Proc R P} (tp : TapeProc cfg.dims p) (hp : cfg.proc = some p) (hbs : 0 < p.bs)
    (off : Int) (L i n : Nat) (hM : tp.M ≤ L) (e : Eng (Tape R) F S A P) (hm : n % p.bs = p.bs - 1) (hi : i < tp.H e.proc)
    (hL : i + p.bs ≤ L) (hg : tp.good e.proc) : ∃ x, cfg.engine n i (conc cfg.dims off L e) = .error x := by
  unfold SimCfg.engine
  cases cfg.arrUpdate (conc cfg.dims off L e).arr n with
  | error x => exact ⟨x, rfl⟩
  | ok arr =>
    dsimp only
    unfold SimCfg.callProc
    rw [hp]
    simp only [conc]
    rw [if_neg (by omega), if_pos hm]
    rw [tp.fails e.proc e.sig off i L hg hM hi hL]
    exact ⟨_, rfl⟩

theorem tPropagate_proc [Zero R] [Add R] {n : Nat} {e e' : Eng (Tape R) F S A P} (h : cfg.tPropagate n e = .ok e') :
    e'.proc = e.proc := by
  unfold SimCfg.tPropagate at h
  split at h
  · cases h
  · rename_i e1 h1
    split at h
    · cases h
    · rename_i e2 h2
      refine foldlM_inv (fun x : Eng (Tape R) F S A P => x.proc = e.proc) _ _ _ _ ?_ (foldlM_inv
        (fun x : Eng (Tape R) F S A P => x.proc = e.proc) _ _ _ _ ?_ (foldlM_inv
          (fun x : Eng (Tape R) F S A P => x.proc = e.proc) _ _ _ _ ?_ rfl h1) h2) h
      · intro t x t' _ hI hs
        unfold SimCfg.tPair at hs
        split at hs
        · cases hs
        · split at hs
          · cases hs
          · split at hs
            · cases hs
            · split at hs
              · cases hs
              · cases hs; exact hI
      · intro t x t' _ hI hs
        unfold SimCfg.stepUpdate at hs
        split at hs
        · split at hs
          · cases hs
          · split at hs
            · cases hs
            · cases hs; exact hI
        · cases hs; exact hI
      · intro t x t' _ hI hs
        unfold SimCfg.tSource at hs
        split at hs
        · cases hs
        · split at hs
          · cases hs
          · cases hs; exact hI

theorem tAssign_other [Zero R] {dims : String → Option Nat} {T T' : Tape R} {name : String} {n : Int} {w : Nat}
    {v : Mat R} (h : tAssign dims T name n w v = .ok T') {k : String} (hk : k ≠ name) : T' k = T k := by
  unfold tAssign at h
  split at h
  · cases h
  · split at h
    · cases h
    · cases h
      funext c t
      unfold Tape.write
      rw [if_neg (fun hh => hk hh.1)]

theorem tAdd_other [Zero R] [Add R] {dims : String → Option Nat} {T T' : Tape R} {name : String} {n : Int} {w : Nat}
    {v : Mat R} (h : tAdd dims T name n w v = .ok T') {k : String} (hk : k ≠ name) : T' k = T k := by
  unfold tAdd at h
  split at h
  · cases h
  · split at h
    · cases h
    · cases h
      funext c t
      unfold Tape.addOn
      rw [if_neg (fun hh => hk hh.1)]

/-- The signal is written neither by a free source nor by a path. -/
structure Unwritten (cfg : SimCfg R IR F S A P D O) (k : String) : Prop where
  src : ∀ a ∈ freeOf cfg.arrays, k ≠ a.name
  mic : ∀ p ∈ combosOf cfg.arrays, k ≠ p.2.name
  con : cfg.contrib = true → ∀ p ∈ combosOf cfg.arrays, k ≠ contribName p.1 p.2

theorem tPropagate_keeps [Zero R] [Add R] {n : Nat} {e e' : Eng (Tape R) F S A P} (h : cfg.tPropagate n e = .ok e')
    {k : String} (hk : Unwritten cfg k) : e'.sig k = e.sig k := by
  unfold SimCfg.tPropagate at h
  split at h
  · cases h
  · rename_i e1 h1
    split at h
    · cases h
    · rename_i e2 h2
      refine foldlM_inv (fun x : Eng (Tape R) F S A P => x.sig k = e.sig k) _ _ _ _ ?_ (foldlM_inv
        (fun x : Eng (Tape R) F S A P => x.sig k = e.sig k) _ _ _ _ ?_ (foldlM_inv
          (fun x : Eng (Tape R) F S A P => x.sig k = e.sig k) _ _ _ _ ?_ rfl h1) h2) h
      · intro t x t' hx hI hs
        unfold SimCfg.tPair at hs
        split at hs
        · cases hs
        · split at hs
          · cases hs
          · split at hs
            · cases hs
            · rename_i T1 g1
              split at hs
              · cases hs
              · rename_i T2 g2
                cases hs
                have a1 := tAdd_other g1 (hk.mic x hx)
                split at g2
                · rename_i hc
                  exact (tAssign_other g2 (hk.con hc x hx)).trans (a1.trans hI)
                · cases g2; exact a1.trans hI
      · intro t x t' _ hI hs
        rw [stepUpdate_sig cfg hs]; exact hI
      · intro t x t' hx hI hs
        unfold SimCfg.tSource at hs
        split at hs
        · cases hs
        · split at hs
          · cases hs
          · rename_i T1 g1
            cases hs
            exact (tAssign_other g1 (hk.src x hx)).trans hI

/-- What holds after `k` steps. -/
structure GInv [Zero R] [Add R] {p : Proc R P} (tp : TapeProc cfg.dims p) (e0 : Eng (Tape R) F S A P) (k : Nat)
    (st : SimSt R F S A P D O) (te : Eng (Tape R) F S A P) (off r : Int) : Prop where
  n : st.n = k
  tape : cfg.gSteps tp k e0 = .ok te
  eng : st.eng = conc cfg.dims off (cfg.B + cfg.C) te
  pos : PosInv cfg.B cfg.C cfg.mbs k st.idx off r
  zero : ∀ nm c t, off + cfg.B + cfg.C ≤ t → te.sig nm c t = 0
  good : tp.good te.proc

/-- Sizes for which the buffered simulator works with such a processor. -/
structure GSizes (cfg : SimCfg R IR F S A P D O) {p : Proc R P} (tp : TapeProc cfg.dims p) : Prop where
  proc : cfg.proc = some p
  block : 1 ≤ p.bs
  buffer : p.bs + 1 ≤ cfg.B
  chunk : 1 ≤ cfg.C
  fits : 2 ≤ cfg.C ∨ p.bs ≤ cfg.C
  look : tp.M ≤ cfg.B + cfg.C

theorem GSizes.mbs {p : Proc R P} {tp : TapeProc cfg.dims p} (h : GSizes cfg tp) : cfg.mbs = p.bs := by
  unfold SimCfg.mbs; rw [h.proc]

/-- If the buffer goes back far enough, a step does what it does on the tape. -/
theorem GInv.engine [Zero R] [Add R] {p : Proc R P} {tp : TapeProc cfg.dims p} {e0 : Eng (Tape R) F S A P} {k : Nat}
    {st : SimSt R F S A P D O} {te : Eng (Tape R) F S A P} {off r : Int} (hs : GSizes cfg tp)
    (h : GInv tp e0 k st te off r) (hH : k % p.bs = p.bs - 1 → (tp.H te.proc : Int) ≤ st.idx) :
    cfg.engine st.n st.idx st.eng = (cfg.gEngine tp k te).map (conc cfg.dims off (cfg.B + cfg.C)) := by
  have hm := hs.mbs
  have hb := hs.block
  have hlow : 0 ≤ st.idx := by have := h.pos.low; have := hs.buffer; omega
  obtain ⟨i, hi⟩ := Int.eq_ofNat_of_zero_le hlow
  have hlt := h.pos.idx_lt (by omega) hs.chunk
  have hidx : st.idx = (i : Int) := hi
  rw [hidx] at hH
  rw [h.n, hidx, h.eng]
  refine gEngine_conc tp hs.proc (by omega) off (cfg.B + cfg.C) i k (by rw [← hidx]; exact h.pos.sync)
    (by omega) te ?_ h.good
  intro hmod
  have := h.pos.block_fits (by omega) (by have := hs.chunk; have := hs.fits; rw [hm]; omega) (by rw [hm]; exact hmod)
  have := hH hmod
  omega

/-- If a step succeeds, the buffer goes back far enough. -/
theorem GInv.reach [Zero R] [Add R] {p : Proc R P} {tp : TapeProc cfg.dims p} {e0 : Eng (Tape R) F S A P} {k : Nat}
    {st : SimSt R F S A P D O} {te : Eng (Tape R) F S A P} {off r : Int} (hs : GSizes cfg tp)
    (h : GInv tp e0 k st te off r) {e : Eng (Sigs R) F S A P} (he : cfg.engine st.n st.idx st.eng = .ok e)
    (hmod : k % p.bs = p.bs - 1) : (tp.H te.proc : Int) ≤ st.idx := by
  by_contra hlt
  have hm := hs.mbs
  have hb := hs.block
  have hlow : 0 ≤ st.idx := by have := h.pos.low; have := hs.buffer; omega
  obtain ⟨i, hi⟩ := Int.eq_ofNat_of_zero_le hlow
  have hidx : st.idx = (i : Int) := hi
  have := h.pos.block_fits (by omega) (by have := hs.chunk; have := hs.fits; rw [hm]; omega) (by rw [hm]; exact hmod)
  rw [h.n, hidx, h.eng] at he
  obtain ⟨x, hx⟩ := gEngine_fails tp hs.proc (by omega) off (cfg.B + cfg.C) i k hs.look te hmod (by omega) (by omega) h.good
  rw [hx] at he
  cases he

/-- A step that succeeds does what it does on the tape. -/
theorem GInv.engine_ok [Zero R] [Add R] {p : Proc R P} {tp : TapeProc cfg.dims p} {e0 : Eng (Tape R) F S A P} {k : Nat}
    {st : SimSt R F S A P D O} {te : Eng (Tape R) F S A P} {off r : Int} (hs : GSizes cfg tp)
    (h : GInv tp e0 k st te off r) {e : Eng (Sigs R) F S A P} (he : cfg.engine st.n st.idx st.eng = .ok e) :
    ∃ te', cfg.gEngine tp k te = .ok te' ∧ e = conc cfg.dims off (cfg.B + cfg.C) te' := by
  rw [h.engine hs (h.reach hs he)] at he
  cases hte : cfg.gEngine tp k te with
  | error x => rw [hte] at he; cases he
  | ok te' =>
    rw [hte] at he
    cases he
    exact ⟨te', rfl, rfl⟩

theorem gEngine_good [Zero R] [Add R] {p : Proc R P} {tp : TapeProc cfg.dims p} {k : Nat} {te te' : Eng (Tape R) F S A P}
    (h : cfg.gEngine tp k te = .ok te') (hg : tp.good te.proc) : tp.good te'.proc := by
  unfold SimCfg.gEngine at h
  split at h
  · cases h
  · rw [tPropagate_proc h]
    unfold SimCfg.gProc
    split
    · exact tp.keep _ _ _ hg
    · exact hg

/-- A step writes nothing beyond the end of its block. -/
theorem gEngine_future [Zero R] [Add R] {p : Proc R P} {tp : TapeProc cfg.dims p} {k : Nat}
    {te te' : Eng (Tape R) F S A P} (h : cfg.gEngine tp k te = .ok te') (hg : tp.good te.proc) (nm : String) (c : Nat)
    (t : Int) (h1 : (k : Int) + 1 ≤ t) (ht : k % p.bs = p.bs - 1 → (k : Int) + p.bs ≤ t) : te'.sig nm c t = te.sig nm c t := by
  unfold SimCfg.gEngine at h
  split at h
  · cases h
  · rw [tPropagate_same cfg h nm c t (.inr (by push_cast; omega))]
    unfold SimCfg.gProc
    split
    · rename_i hmod
      exact tp.future _ _ _ _ _ _ hg (ht hmod)
    · rfl

theorem GInv.step [Zero R] [Add R] {p : Proc R P} {tp : TapeProc cfg.dims p} {e0 : Eng (Tape R) F S A P} {k : Nat}
    {st st' : SimSt R F S A P D O} {te : Eng (Tape R) F S A P} {off r : Int} (hsz : GSizes cfg tp)
    (h : GInv tp e0 k st te off r) (hs : cfg.step st = .ok st') :
    ∃ te' off' r', GInv tp e0 (k + 1) st' te' off' r' ∧
      r' = if cfg.lastBlock st.idx then (k : Int) else r := by
  have hm := hsz.mbs
  have hbl := hsz.block
  have hbu := hsz.buffer
  unfold SimCfg.step at hs
  cases he : cfg.engine st.n st.idx st.eng with
  | error x => rw [he] at hs; cases hs
  | ok e =>
    obtain ⟨te', hte, rfl⟩ := h.engine_ok hsz he
    rw [he] at hs
    simp only at hs
    have htape : cfg.gSteps tp (k + 1) e0 = .ok te' := by
      simp only [SimCfg.gSteps, h.tape]; exact hte
    split at hs
    · cases hs
    · split at hs
      · cases hs
      · simp only [Except.ok.injEq] at hs
        have hpos := h.pos.next (by omega)
        have hlt := h.pos.idx_lt (by omega) hsz.chunk
        have hz : ∀ nm c t, off + cfg.B + cfg.C ≤ t → te'.sig nm c t = 0 := by
          intro nm c t ht
          have hsync := h.pos.sync
          rw [gEngine_future hte h.good nm c t (by push_cast at hlt; omega) ?_]
          · exact h.zero nm c t ht
          · intro hmod
            have := h.pos.block_fits (by omega) (by have := hsz.chunk; have := hsz.fits; rw [hm]; omega)
              (by rw [hm]; exact hmod)
            omega
        have hg := gEngine_good hte h.good
        subst hs
        by_cases hlast : st.idx + cfg.mbs ≥ cfg.C + cfg.B
        · have hlb : cfg.lastBlock st.idx = true := by
            unfold SimCfg.lastBlock; exact decide_eq_true hlast
          simp only [hlb, if_true]
          refine ⟨te', off + cfg.C, k, ⟨by simp [h.n], htape, ?_, hpos.1 hlast, ?_, hg⟩, rfl⟩
          · show _ = conc cfg.dims (off + cfg.C) (cfg.B + cfg.C) te'
            simp only [conc]
            rw [resetSigs_cut te'.sig off cfg.B cfg.C (by omega) hz]
          · intro nm c t ht
            exact hz nm c t (by omega)
        · have hlb : cfg.lastBlock st.idx = false := by
            unfold SimCfg.lastBlock; exact decide_eq_false hlast
          simp only [hlb, Bool.false_eq_true, if_false]
          exact ⟨te', off, r, ⟨by simp [h.n], htape, rfl, hpos.2 hlast, hz, hg⟩, rfl⟩

theorem GInv.steps [Zero R] [Add R] {p : Proc R P} {tp : TapeProc cfg.dims p} {e0 : Eng (Tape R) F S A P}
    {st0 : SimSt R F S A P D O} (hsz : GSizes cfg tp) {off r : Int} (h : GInv tp e0 0 st0 e0 off r) :
    ∀ k {st : SimSt R F S A P D O}, cfg.steps k st0 = .ok st → ∃ te off r, GInv tp e0 k st te off r
  | 0, st, hs => by cases hs; exact ⟨_, _, _, h⟩
  | k + 1, st, hs => by
    simp only [SimCfg.steps] at hs
    split at hs
    · cases hs
    · rename_i st1 hs1
      obtain ⟨te, off, r, h1⟩ := GInv.steps hsz h k hs1
      obtain ⟨te', off', r', h2, _⟩ := h1.step hsz hs
      exact ⟨te', off', r', h2⟩

/-- The processor does not write into the past of the signal. -/
def TapeProc.Past {dims : String → Option Nat} {p : Proc R P} (tp : TapeProc dims p) (name : String) : Prop :=
  ∀ q T (n : Int) c (t : Int), t < n → (tp.act q T n).2 name c t = T name c t

theorem gEngine_past [Zero R] [Add R] {p : Proc R P} {tp : TapeProc cfg.dims p} {n : Nat} {e e' : Eng (Tape R) F S A P}
    (h : cfg.gEngine tp n e = .ok e') {name : String} (hp : tp.Past name) (c : Nat) (t : Int) (ht : t < n) :
    e'.sig name c t = e.sig name c t := by
  unfold SimCfg.gEngine at h
  split at h
  · cases h
  · rw [tPropagate_same cfg h name c t (.inl ht)]
    unfold SimCfg.gProc
    split
    · exact hp _ _ _ _ _ ht
    · rfl

theorem gSteps_past [Zero R] [Add R] {p : Proc R P} {tp : TapeProc cfg.dims p} {n : Nat} {e0 e : Eng (Tape R) F S A P}
    (h : cfg.gSteps tp n e0 = .ok e) {name : String} (hp : tp.Past name) :
    ∀ m {e'}, cfg.gSteps tp (n + m) e0 = .ok e' → ∀ c t, t < (n : Int) → e'.sig name c t = e.sig name c t
  | 0, e', h', c, t, _ => by rw [Nat.add_zero, h] at h'; cases h'; rfl
  | m + 1, e', h', c, t, ht => by
    rw [← Nat.add_assoc] at h'
    simp only [SimCfg.gSteps] at h'
    split at h'
    · cases h'
    · rename_i e1 h1
      rw [gEngine_past h' hp c t (by push_cast; omega)]
      exact gSteps_past h hp m h1 c t ht

theorem gSteps_prefix [Zero R] [Add R] {p : Proc R P} {tp : TapeProc cfg.dims p} {n : Nat} {e0 : Eng (Tape R) F S A P} :
    ∀ m {e'}, cfg.gSteps tp (n + m) e0 = .ok e' → ∃ e, cfg.gSteps tp n e0 = .ok e
  | 0, e', h => ⟨e', h⟩
  | m + 1, e', h => by
    rw [← Nat.add_assoc] at h
    simp only [SimCfg.gSteps] at h
    split at h
    · cases h
    · rename_i e1 h1
      exact gSteps_prefix m h1

theorem gProduced_iff [Zero R] [Add R] {p : Proc R P} {tp : TapeProc cfg.dims p} (hsz : GSizes cfg tp)
    {st0 stk : SimSt R F S A P D O} {e0 te : Eng (Tape R) F S A P} {r0 : Int}
    (hI0 : GInv tp e0 0 st0 e0 (-(cfg.B : Int)) r0) {k : Nat} (hk : cfg.steps k st0 = .ok stk)
    (hte : cfg.gSteps tp k e0 = .ok te) {t : Nat} (ht : t ≤ k) {name : String} (hp : tp.Past name) {c : Nat} {v : R} :
    cfg.Produced st0 name c t v ↔
      ∃ num, cfg.dims name = some num ∧ c < num ∧ te.sig name c ((t : Int) - 1) = v := by
  have hB := hsz.buffer
  cases t with
  | zero =>
    unfold SimCfg.Produced
    rw [hI0.eng]
    show (cut cfg.dims e0.sig (-(cfg.B : Int)) (cfg.B + cfg.C)).At name c (cfg.B - 1) v ↔ _
    rw [cut_at]
    have e1 : -(cfg.B : Int) + ((cfg.B - 1 : Nat) : Int) = ((0 : Nat) : Int) - 1 := by omega
    rw [e1]
    have hpast := gSteps_past (n := 0) (e := e0) rfl hp k (e' := te) (by rw [Nat.zero_add]; exact hte)
      c (((0 : Nat) : Int) - 1) (by simp)
    rw [hpast]
    constructor
    · rintro ⟨num, h1, h2, _, h4⟩; exact ⟨num, h1, h2, h4⟩
    · rintro ⟨num, h1, h2, h4⟩; exact ⟨num, h1, h2, by omega, h4⟩
  | succ n =>
    obtain ⟨m, rfl⟩ := Nat.exists_eq_add_of_le ht
    obtain ⟨st', hst'⟩ := steps_prefix cfg (n := n + 1) m hk
    simp only [SimCfg.steps] at hst'
    cases hn : cfg.steps n st0 with
    | error x => rw [hn] at hst'; cases hst'
    | ok st =>
      rw [hn] at hst'
      simp only at hst'
      obtain ⟨tn, off, r, hI⟩ := GInv.steps hsz hI0 n hn
      cases heng : cfg.engine st.n st.idx st.eng with
      | error x =>
        unfold SimCfg.step at hst'
        rw [heng] at hst'
        cases hst'
      | ok e1 =>
        obtain ⟨tn', htn, rfl⟩ := hI.engine_ok hsz heng
        have htape : cfg.gSteps tp (n + 1) e0 = .ok tn' := by
          simp only [SimCfg.gSteps, hI.tape]; exact htn
        have hpast := gSteps_past htape hp m hte c (((n + 1 : Nat) : Int) - 1) (by push_cast; omega)
        rw [hpast]
        have hlow : 0 ≤ st.idx := by have := hI.pos.low; rw [hsz.mbs] at this; omega
        have hlt := hI.pos.idx_lt (by rw [hsz.mbs]; exact hsz.block) hsz.chunk
        have hsync := hI.pos.sync
        have e1 : off + (st.idx.toNat : Int) = ((n + 1 : Nat) : Int) - 1 := by push_cast; omega
        unfold SimCfg.Produced
        constructor
        · rintro ⟨st2, e, g1, g2, g3, g4⟩
          rw [hn] at g1
          cases g1
          rw [heng] at g2
          cases g2
          change (cut cfg.dims tn'.sig off (cfg.B + cfg.C)).At _ _ _ _ at g4
          rw [cut_at, e1] at g4
          obtain ⟨num, a1, a2, _, a4⟩ := g4
          exact ⟨num, a1, a2, a4⟩
        · rintro ⟨num, a1, a2, a4⟩
          refine ⟨st, _, hn, heng, hlow, ?_⟩
          show (cut cfg.dims tn'.sig off (cfg.B + cfg.C)).At _ _ _ _
          rw [cut_at, e1]
          exact ⟨num, a1, a2, by omega, a4⟩

end
end Verif

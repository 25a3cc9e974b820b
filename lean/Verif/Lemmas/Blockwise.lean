/-
Processors that read one block, transform it and write one block.
-/
import Verif.Model.Examples
import Verif.Lemmas.Debug

namespace Verif

/-- The last block of `inp`, if any. -/
def blockRead {R : Type} (inp : Option String) (bs : Nat) (sig : Sigs R) (idx : Int) : Except PyErr (Mat R) :=
  match inp with
  | none => .ok []
  | some nm => sigGet sig nm (idx - bs) idx

/-- Read the last block of `inp` (if any), transform it, write the next block of
`out`. -/
def blockProcess {R P : Type} (inp : Option String) (out : String) (bs : Nat)
    (step : P → Mat R → Except PyErr (P × Mat R)) (p : P) (sig : Sigs R) (idx : Int) :
    Except PyErr (P × Sigs R) :=
  match blockRead inp bs sig idx with
  | .error x => .error x
  | .ok v =>
    match step p v with
    | .error x => .error x
    | .ok (p', y) =>
      match sigAssign sig out idx (idx + bs) y with
      | .error x => .error x
      | .ok sig => .ok (p', sig)

def blockProc {R P : Type} (inp : Option String) (out : String) (bs : Nat)
    (step : P → Mat R → Except PyErr (P × Mat R)) : Proc R P where
  bs := bs
  process := blockProcess inp out bs step
  extra := []

theorem play_eq {R S : Type} (get : S → Nat → Except PyErr (S × Mat R)) (out : String) (bs : Nat) :
    playProc get out bs = blockProc none out bs fun s _ => get s bs := by
  unfold playProc blockProc
  rfl

theorem anc_eq {R : Type} [Zero R] [Add R] [Mul R] (inp out : String) (bs : Nat) :
    ancProc (R := R) inp out bs = blockProc (some inp) out bs Fir.process := by
  unfold ancProc blockProc
  congr 1
  funext f sig idx
  unfold ancProcess blockProcess
  show _ = match sigGet sig inp (idx - bs) idx with
    | .error x => _
    | .ok v => _
  cases sigGet sig inp (idx - bs) idx with
  | error x => rfl
  | ok v =>
    simp only
    cases f.process v with
    | error x => rfl
    | ok r => rfl

section
variable {R P : Type} [Zero R]

/-- The number of channels such a processor reads. -/
def ReadsNum (dims : String → Option Nat) (inp : Option String) (nin : Nat) : Prop :=
  match inp with
  | none => nin = 0
  | some nm => dims nm = some nin

/-- What such a processor reads, on the tape. -/
def tRead (dims : String → Option Nat) (T : Tape R) (inp : Option String) (a : Int) (n : Nat) :
    Except PyErr (Mat R) :=
  match inp with
  | none => .ok []
  | some nm => tGet dims T nm a n

theorem blockProcess_cut {dims : String → Option Nat} {inp : Option String} {out : String} {bs : Nat}
    {step : P → Mat R → Except PyErr (P × Mat R)} {p : P} (T : Tape R) (off : Int) (L i : Nat)
    (hi : bs ≤ i) (hL : i + bs ≤ L) :
    blockProcess inp out bs step p (cut dims T off L) i =
      match tRead dims T inp (off + i - bs) bs with
      | .error x => .error x
      | .ok v =>
        match step p v with
        | .error x => .error x
        | .ok (p', y) =>
          match tAssign dims T out (off + i) bs y with
          | .error x => .error x
          | .ok T' => .ok (p', cut dims T' off L) := by
  unfold blockProcess
  have hr : blockRead inp bs (cut dims T off L) i = tRead dims T inp (off + i - bs) bs := by
    unfold blockRead
    cases inp with
    | none => rfl
    | some nm =>
      obtain ⟨a, rfl⟩ := Nat.exists_eq_add_of_le' hi
      have g := sigGet_cut (dims := dims) T off L nm a bs (by omega)
      have e1 : (((a + bs : Nat) : Int) - bs) = (a : Int) := by omega
      have e2 : (((a + bs : Nat) : Int)) = (a : Int) + bs := by omega
      have e3 : off + ((a + bs : Nat) : Int) - bs = off + a := by omega
      simp only [tRead]
      rw [e1, e2, g, ← e2, e3]
  rw [hr]
  cases tRead dims T inp (off + i - bs) bs with
  | error x => rfl
  | ok v =>
    simp only
    cases step p v with
    | error x => rfl
    | ok r =>
      obtain ⟨p', y⟩ := r
      simp only
      rw [sigAssign_cut (dims := dims) T off L out i bs (by omega) y]
      cases tAssign dims T out (off + i) bs y with
      | error x => rfl
      | ok T' => rfl

/-- Blockwise processors meet the processor contract with a look-back of one
block. -/
theorem block_valid (dims : String → Option Nat) (inp : Option String) (out : String) (bs : Nat)
    (step : P → Mat R → Except PyErr (P × Mat R)) :
    ((blockProc inp out bs step).view bs).Valid dims (some (blockProc inp out bs step)) := by
  intro p hp q T i L hi hL
  cases hp
  change bs ≤ i at hi
  change i + bs ≤ L at hL
  show blockProcess inp out bs step q (cut dims T 0 L) i = _
  show _ = ((blockProcess inp out bs step q (cut dims T ((i : Int) - bs) (bs + bs)) (bs : Nat)).map _).map _
  rw [blockProcess_cut T 0 L i hi hL, blockProcess_cut T _ (bs + bs) bs (le_refl _) (le_refl _)]
  have e1 : (i : Int) - bs + bs - bs = 0 + i - bs := by omega
  have e2 : (i : Int) - bs + bs = 0 + i := by omega
  rw [e1, e2]
  cases tRead dims T inp (0 + i - bs) bs with
  | error x => rfl
  | ok v =>
    simp only
    cases step q v with
    | error x => rfl
    | ok r =>
      obtain ⟨p', y⟩ := r
      simp only
      cases hT : tAssign dims T out (0 + i) bs y with
      | error x => rfl
      | ok T' =>
        have hsame := tAssign_same hT
        simp only [Except.map, Except.ok.injEq, Prod.mk.injEq, true_and]
        apply cut_congr
        intro k num c p hk hc hp
        unfold Tape.paste
        show T' k c (0 + (p : Int)) = if (i : Int) ≤ 0 + (p : Int) ∧
          0 + (p : Int) < (i : Int) + bs then _ else _
        split
        · rename_i hin
          beta_reduce
          rw [show (cut dims T' ((i : Int) - bs) (bs + bs) k) = some (matOf num (bs + bs)
            fun c p => T' k c ((i : Int) - bs + p)) by simp [cut, hk], Option.getD_some,
            matVal_matOf _ _ _ hc (by omega)]
          congr 1
          omega
        · rename_i hout
          exact hsame k c _ (by omega)

omit [Zero R] in
theorem block_keeps (inp : Option String) (out : String) (bs : Nat)
    (step : P → Mat R → Except PyErr (P × Mat R)) {name : String} (h : name ≠ out) :
    (blockProc inp out bs step).Keeps name := by
  intro q S i q' S' hp
  change blockProcess inp out bs step q S i = _ at hp
  unfold blockProcess at hp
  split at hp
  · cases hp
  · split at hp
    · cases hp
    · split at hp
      · cases hp
      · rename_i sig hs
        cases hp
        unfold sigAssign at hs
        split at hs
        · cases hs
        · split at hs
          · cases hs
          · cases hs
            unfold Sigs.set
            rw [if_neg h]

end

section
variable {R P : Type}

/-- The state after `j` blocks of the input `u`. -/
def feed (step : P → Mat R → Except PyErr (P × Mat R)) (bs nin : Nat) (u : Nat → Nat → R) (p0 : P) :
    Nat → Except PyErr P
  | 0 => .ok p0
  | j + 1 =>
    match feed step bs nin u p0 j with
    | .error x => .error x
    | .ok p => (step p (matOf nin bs fun c k => u c (j * bs + k))).map Prod.fst

/-- The transformation applied block by block is the operator `Φ` on signals. -/
def Realises (step : P → Mat R → Except PyErr (P × Mat R)) (bs nin nout : Nat) (p0 : P)
    (Φ : (Nat → Nat → R) → Nat → Nat → R) : Prop :=
  ∀ u j, ∃ p p', feed step bs nin u p0 j = .ok p ∧
    step p (matOf nin bs fun c k => u c (j * bs + k)) = .ok (p', matOf nout bs fun c k => Φ u c (j * bs + k))

theorem feed_congr {step : P → Mat R → Except PyErr (P × Mat R)} {bs nin : Nat} {u u' : Nat → Nat → R} {p0 : P} :
    ∀ j, (∀ c i, i < j * bs → u c i = u' c i) → feed step bs nin u p0 j = feed step bs nin u' p0 j
  | 0, _ => rfl
  | j + 1, h => by
    rw [Nat.add_mul, Nat.one_mul] at h
    unfold feed
    rw [feed_congr j fun c i hi => h c i (by omega)]
    have : (matOf nin bs fun c k => u c (j * bs + k)) = matOf nin bs fun c k => u' c (j * bs + k) :=
      matOf_congr fun c k _ hk => h c _ (by omega)
    rw [this]

theorem Realises.congr [Zero R] {step : P → Mat R → Except PyErr (P × Mat R)} {bs nin nout : Nat} {p0 : P}
    {Φ : (Nat → Nat → R) → Nat → Nat → R} (h : Realises step bs nin nout p0 Φ) {u u' : Nat → Nat → R} {j : Nat}
    (hu : ∀ c i, i < (j + 1) * bs → u c i = u' c i) {c k : Nat} (hc : c < nout) (hk : k < bs) :
    Φ u c (j * bs + k) = Φ u' c (j * bs + k) := by
  rw [Nat.add_mul, Nat.one_mul] at hu
  obtain ⟨p, p1, h1, h2⟩ := h u j
  obtain ⟨q, q1, g1, g2⟩ := h u' j
  rw [feed_congr (u' := u') j fun c i hi => hu c i (by omega), g1] at h1
  cases h1
  have : (matOf nin bs fun c k => u c (j * bs + k)) = matOf nin bs fun c k => u' c (j * bs + k) :=
    matOf_congr fun c k _ hk => hu c _ (by omega)
  rw [this, g2] at h2
  have h3 := congrArg (fun m => matVal m c k) (Prod.mk.inj (Except.ok.inj h2)).2
  rw [matVal_matOf _ _ _ hc hk, matVal_matOf _ _ _ hc hk] at h3
  exact h3.symm

end

section
variable {R IR F S A P D O : Type} [AddMonoid R] (cfg : SimCfg R IR F S A P D O)

/-- The input of a blockwise processor as it stands on the tape, from time 0. -/
def tapeIn (inp : Option String) (T : Tape R) : Nat → Nat → R := fun c i =>
  match inp with
  | none => 0
  | some nm => T nm c ((i : Int) - 1)

/-- What holds after `k` steps with a blockwise processor. -/
structure BlockInv (inp : Option String) (out : String) (step : P → Mat R → Except PyErr (P × Mat R))
    (bs nin nout : Nat) (p0 : P) (Φ : (Nat → Nat → R) → Nat → Nat → R) (k : Nat) (e : Eng (Tape R) F S A P) :
    Prop where
  out : ∀ c < nout, ∀ t : Int, t < (k / bs * bs : Nat) + bs - 1 →
    e.sig out c t = if t < (bs : Int) - 1 then 0 else Φ (tapeIn inp e.sig) c (t - (bs - 1)).toNat
  state : feed step bs nin (tapeIn inp e.sig) p0 (k / bs) = .ok e.proc

variable {cfg}

omit [AddMonoid R] in
theorem playedNe (hN : Names cfg) {l : ArrInfo} (hl : l ∈ cfg.arrays) (hk : l.kind = .ctrl) :
    ∀ x ∈ freeOf cfg.arrays, l.name ≠ x.name := by
  intro x hx he
  obtain ⟨h3, h4⟩ := mem_freeOf hx
  have := hN.inj l hl x h3 he
  rw [this, h4] at hk
  cases hk

omit [AddMonoid R] in
theorem playedSource {l : ArrInfo} (hl : l ∈ cfg.arrays) (hk : l.kind = .ctrl) :
    l ∈ sourcesOf cfg.arrays := by
  unfold sourcesOf; rw [List.mem_filter]; exact ⟨hl, by rw [hk]; rfl⟩

theorem blockInv_init (hN : Names cfg) {inp : Option String} {out : String}
    {step : P → Mat R → Except PyErr (P × Mat R)} {bs nin nout : Nat} {p0 : P}
    {Φ : (Nat → Nat → R) → Nat → Nat → R} {l : ArrInfo}
    (hl : l ∈ cfg.arrays) (hk : l.kind = .ctrl) (hln : l.name = out)
    {srcs : String → S} {arr : A} {f0 : F} {e0 : Eng (Tape R) F S A P}
    (hi : cfg.tInit srcs arr p0 f0 = .ok e0) : BlockInv inp out step bs nin nout p0 Φ 0 e0 := by
  obtain ⟨fs, e1, W, g1, g2, g3⟩ := tInit_parts cfg hN hi
  obtain ⟨n1, n2⟩ := src_ne hN (playedSource hl hk)
  have n3 := playedNe hN hl hk
  rw [hln] at n1 n2 n3
  have hz : ∀ c t, e0.sig out c t = 0 := by
    intro c t
    rw [g3.old _ c t (fun hc => .inl (n1 hc)) (.inr (.inr n2)), g2.sig _ c t (.inl n3)]
  have hp : e0.proc = p0 := by rw [g3.proc, g2.proc]
  refine ⟨?_, ?_⟩
  · intro c hc t ht
    rw [hz, if_pos (by simpa using ht)]
  · rw [Nat.zero_div, hp]; rfl

theorem blockInv_step (hN : Names cfg) {inp : Option String} {out : String}
    {step : P → Mat R → Except PyErr (P × Mat R)} {bs nin nout : Nat} {p0 : P}
    {Φ : (Nat → Nat → R) → Nat → Nat → R} {l : ArrInfo}
    (hproc : cfg.proc = some (blockProc inp out bs step)) (hΦ : Realises step bs nin nout p0 Φ)
    (hin : ReadsNum cfg.dims inp nin)
    (hl : l ∈ cfg.arrays) (hk : l.kind = .ctrl) (hln : l.name = out) (hlm : l.num = nout)
    {k : Nat} {e e' : Eng (Tape R) F S A P} (hI : BlockInv inp out step bs nin nout p0 Φ k e)
    (h : cfg.tEngine ((blockProc inp out bs step).view bs) k e = .ok e') :
    BlockInv inp out step bs nin nout p0 Φ (k + 1) e' := by
  have hpast := tEngine_past cfg _ h
  obtain ⟨arr, e1, e2, e3, W, p1, p2, p3, p4, p5⟩ := tEngine_parts cfg hN h
  obtain ⟨n1, n2⟩ := src_ne hN (playedSource hl hk)
  have n3 := playedNe hN hl hk
  rw [hln] at n1 n2 n3
  have hdl : cfg.dims out = some nout := by rw [← hln, hN.arr l hl, hlm]
  have hls : ∀ c t, e'.sig out c t = e1.sig out c t := by
    intro c t
    rw [p5.old _ c t (fun hc => .inl (n1 hc)) (.inr (.inr n2)), p4.sig, p3.sig _ c t (.inl n3)]
  have hpr : e'.proc = e1.proc := by rw [p5.proc, p4.proc, p3.proc]
  have hu : ∀ c i, i ≤ k → tapeIn inp e.sig c i = tapeIn inp e'.sig c i := by
    intro c i hi
    cases inp with
    | none => rfl
    | some nm =>
      simp only [tapeIn]
      rw [hpast nm c _ (by omega)]
  unfold SimCfg.tProc at p2
  rw [hproc] at p2
  simp only at p2
  change (if bs = 0 then _ else if k % bs = bs - 1 then _ else _) = _ at p2
  by_cases hb : bs = 0
  · rw [if_pos hb] at p2; cases p2
  rw [if_neg hb] at p2
  -- the old part of the output in terms of the new tape
  have hold : ∀ c < nout, ∀ t : Int, t < (k / bs * bs : Nat) + bs - 1 → e.sig out c t =
      if t < (bs : Int) - 1 then 0 else Φ (tapeIn inp e'.sig) c (t - (bs - 1)).toNat := by
    intro c hc t ht
    rw [hI.out c hc t ht]
    split
    · rfl
    · rename_i ht2
      set n := (t - (bs - 1)).toNat with hn
      have hnlt : n < k / bs * bs := by omega
      have h1 := Nat.div_add_mod n bs
      rw [Nat.mul_comm] at h1
      have h2 : n / bs < k / bs := (Nat.div_lt_iff_lt_mul (by omega)).2 hnlt
      have h3 : (n / bs + 1) * bs ≤ k / bs * bs := Nat.mul_le_mul_right _ h2
      have h4 : k / bs * bs ≤ k := Nat.div_mul_le_self k bs
      rw [← h1]
      exact hΦ.congr (fun c i hi => hu c i (by omega)) hc (Nat.mod_lt _ (by omega))
  have hstate : feed step bs nin (tapeIn inp e'.sig) p0 (k / bs) = .ok e.proc := by
    rw [← hI.state]
    have h4 : k / bs * bs ≤ k := Nat.div_mul_le_self k bs
    exact (feed_congr _ fun c i hi => hu c i (by omega)).symm
  by_cases hc : k % bs = bs - 1
  · rw [if_pos hc] at p2
    have hdiv : (k + 1) / bs = k / bs + 1 := by
      have h1 := Nat.div_add_mod k bs
      have : k + 1 = bs * (k / bs + 1) := by rw [Nat.mul_add]; omega
      rw [this, Nat.mul_div_cancel_left _ (by omega)]
    have hkb : k = k / bs * bs + (bs - 1) := by
      have h1 := Nat.div_add_mod k bs
      rw [Nat.mul_comm] at h1; omega
    have hnext : (k + 1) / bs * bs = k / bs * bs + bs := by rw [hdiv, Nat.add_mul, Nat.one_mul]
    obtain ⟨p, p', f1, f2⟩ := hΦ (tapeIn inp e'.sig) (k / bs)
    rw [hstate] at f1
    cases f1
    have hread : tRead cfg.dims e.sig inp ((k : Int) - bs + (bs : Nat) - bs) bs =
        .ok (matOf nin bs fun c i => tapeIn inp e'.sig c (k / bs * bs + i)) := by
      cases inp with
      | none =>
        simp only [ReadsNum] at hin
        subst hin
        rfl
      | some nm =>
        simp only [ReadsNum] at hin
        simp only [tRead, tGet, hin, Except.ok.injEq]
        refine matOf_congr fun c i _ hi => ?_
        rw [← hu c _ (by omega)]
        simp only [tapeIn]
        exact congrArg (e.sig nm c) (by omega)
    rw [show (((blockProc inp out bs step).view (R := R) bs).H) = bs from rfl,
      show (blockProc inp out bs step).bs = bs from rfl,
      show (((blockProc inp out bs step).view (R := R) bs).act) = fun q Sg =>
        (blockProcess inp out bs step q Sg (bs : Nat)).map fun r =>
          (r.1, fun k c x => matVal ((r.2 k).getD []) c (bs + x)) from rfl] at p2
    simp only at p2
    rw [blockProcess_cut e.sig _ (bs + bs) bs (le_refl _) (le_refl _), hread] at p2
    simp only at p2
    rw [f2] at p2
    simp only at p2
    unfold tAssign at p2
    rw [hdl] at p2
    simp only at p2
    rw [broadcastMat_self] at p2
    simp only [Except.map, Except.ok.injEq] at p2
    have hls1 : ∀ c < nout, ∀ t : Int, e1.sig out c t =
        if (k : Int) ≤ t ∧ t < k + bs then Φ (tapeIn inp e'.sig) c (k / bs * bs + (t - k).toNat)
        else e.sig out c t := by
      intro c hc t
      rw [← p2]
      simp only [Tape.paste]
      split
      · rename_i ht
        simp only [cut, hdl, Option.map_some, Option.getD_some]
        rw [matVal_matOf _ _ _ hc (by omega)]
        unfold Tape.write
        rw [if_pos ⟨rfl, by push_cast; omega, by push_cast; omega⟩, matVal_matOf _ _ _ hc (by omega)]
        congr 1
        omega
      · rfl
    refine ⟨?_, ?_⟩
    · intro c hc t ht
      rw [hnext] at ht
      rw [hls, hls1 c hc t]
      split
      · rename_i hin'
        rw [if_neg (by omega)]
        congr 1
        omega
      · rename_i hout'
        exact hold c hc t (by omega)
    · rw [hdiv, hpr, ← p2]
      show feed _ _ _ _ _ (k / bs + 1) = .ok p'
      unfold feed
      rw [hstate]
      simp only
      rw [f2]
      rfl
  · rw [if_neg hc] at p2
    cases p2
    have hnext : (k + 1) / bs = k / bs := by
      rw [Nat.succ_div, if_neg, Nat.add_zero]
      intro hdvd
      have h1 : k % bs < bs := Nat.mod_lt _ (by omega)
      have h2 := Nat.div_add_mod k bs
      have h3 : (k % bs + 1) % bs = 0 := by
        rw [Nat.mod_add_mod]
        exact Nat.mod_eq_zero_of_dvd hdvd
      rw [Nat.mod_eq_of_lt (by omega)] at h3
      omega
    refine ⟨?_, ?_⟩
    · intro c hc t ht
      rw [hnext] at ht
      rw [hls]
      exact hold c hc t ht
    · rw [hnext, hpr]
      exact hstate

theorem blockInv_steps (hN : Names cfg) {inp : Option String} {out : String}
    {step : P → Mat R → Except PyErr (P × Mat R)} {bs nin nout : Nat} {p0 : P}
    {Φ : (Nat → Nat → R) → Nat → Nat → R} {l : ArrInfo}
    (hproc : cfg.proc = some (blockProc inp out bs step)) (hΦ : Realises step bs nin nout p0 Φ)
    (hin : ReadsNum cfg.dims inp nin)
    (hl : l ∈ cfg.arrays) (hk : l.kind = .ctrl) (hln : l.name = out) (hlm : l.num = nout)
    {e0 : Eng (Tape R) F S A P} (h0 : BlockInv inp out step bs nin nout p0 Φ 0 e0) :
    ∀ k {e}, cfg.tSteps ((blockProc inp out bs step).view bs) k e0 = .ok e →
      BlockInv inp out step bs nin nout p0 Φ k e
  | 0, e, h => by cases h; exact h0
  | k + 1, e, h => by
    simp only [SimCfg.tSteps] at h
    split at h
    · cases h
    · rename_i e1 h1
      exact blockInv_step hN hproc hΦ hin hl hk hln hlm
        (blockInv_steps hN hproc hΦ hin hl hk hln hlm h0 k h1) h

end
end Verif

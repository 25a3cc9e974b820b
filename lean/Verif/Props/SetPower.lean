/-
C104: changing the power of a source.
C105: powers per channel.
-/
import Verif.Props.SourcePower
namespace Verif

/-! ### Specification -/

/-- The power in effect after a list of calls. -/
def powerAfter (p : PowerArg) : List SrcOp → PowerArg
  | [] => p
  | .get _ :: ops => powerAfter p ops
  | .power q :: ops => powerAfter q ops

/-- The number of samples asked for by a list of calls. -/
def samplesAsked : List SrcOp → Nat
  | [] => 0
  | .get n :: ops => n + samplesAsked ops
  | .power _ :: ops => samplesAsked ops

/-- The number of blocks returned by a list of calls. -/
def blocksAsked : List SrcOp → Nat
  | [] => 0
  | .get _ :: ops => blocksAsked ops + 1
  | .power _ :: ops => blocksAsked ops

/-- The source follows the power: for every list of calls of `get_samples` and `set_power`
with valid powers no exception occurs, and each block consists of the next samples of the
stream that belongs to the power in effect at its time. -/
def FollowsPower {σ : Type} (get : σ → Nat → Except PyErr (σ × List (List ℝ)))
    (setPower : σ → PowerArg → σ × Option PyErr) (s0 : σ) (p0 : PowerArg) (ch : Nat) (valid : PowerArg → Prop)
    (stream : PowerArg → Nat → Nat → ℝ) : Prop :=
  ∀ ops : List SrcOp, (∀ p, SrcOp.power p ∈ ops → valid p) →
    ∃ s' bs, runOps get setPower s0 ops = .ok (s', bs) ∧ bs.length = blocksAsked ops ∧
      ∀ pre n post, ops = pre ++ .get n :: post →
        bs[blocksAsked pre]? = some (blockOf (stream (powerAfter p0 pre)) ch (samplesAsked pre) n)

theorem followsPower_of_inv {σ : Type} {get : σ → Nat → Except PyErr (σ × List (List ℝ))}
    {setPower : σ → PowerArg → σ × Option PyErr} {s0 : σ} {p0 : PowerArg} {ch : Nat} {valid : PowerArg → Prop}
    {stream : PowerArg → Nat → Nat → ℝ} (Inv : σ → PowerArg → Nat → Prop) (h0 : Inv s0 p0 0)
    (hget : ∀ s p off n, Inv s p off → ∃ s', get s n = .ok (s', blockOf (stream p) ch off n) ∧ Inv s' p (off + n))
    (hset : ∀ s p off q, Inv s p off → valid q → ∃ s', setPower s q = (s', none) ∧ Inv s' q off) :
    FollowsPower get setPower s0 p0 ch valid stream := by
  have key : ∀ (ops : List SrcOp) (s : σ) (p : PowerArg) (off : Nat), Inv s p off →
      (∀ q, SrcOp.power q ∈ ops → valid q) →
      ∃ s' bs, runOps get setPower s ops = .ok (s', bs) ∧ bs.length = blocksAsked ops ∧
        ∀ pre n post, ops = pre ++ .get n :: post →
          bs[blocksAsked pre]? = some (blockOf (stream (powerAfter p pre)) ch (off + samplesAsked pre) n) := by
    intro ops
    induction ops with
    | nil =>
      intro s p off _ _
      exact ⟨s, [], rfl, rfl, fun pre n post he => by simp at he⟩
    | cons op ops ih =>
      intro s p off hinv hv
      have hv' : ∀ q, SrcOp.power q ∈ ops → valid q := fun q hq => hv q (List.mem_cons_of_mem _ hq)
      cases op with
      | get m =>
        obtain ⟨s1, h1, h2⟩ := hget s p off m hinv
        obtain ⟨s2, bs, h3, h4, h5⟩ := ih s1 p (off + m) h2 hv'
        refine ⟨s2, blockOf (stream p) ch off m :: bs, by simp only [runOps, h1, h3], by simp [blocksAsked, h4], ?_⟩
        intro pre n post he
        cases pre with
        | nil =>
          cases he
          simp [blocksAsked, powerAfter, samplesAsked]
        | cons o pre =>
          rw [List.cons_append, List.cons.injEq] at he
          obtain ⟨rfl, he⟩ := he
          simp only [blocksAsked, powerAfter, samplesAsked, List.getElem?_cons_succ]
          rw [h5 pre n post he, Nat.add_assoc]
      | power q =>
        obtain ⟨s1, h1, h2⟩ := hset s p off q hinv (hv q (by simp))
        obtain ⟨s2, bs, h3, h4, h5⟩ := ih s1 q off h2 hv'
        refine ⟨s2, bs, by simp only [runOps, h1, h3], by simp [blocksAsked, h4], ?_⟩
        intro pre n post he
        cases pre with
        | nil => cases he
        | cons o pre =>
          rw [List.cons_append, List.cons.injEq] at he
          obtain ⟨rfl, he⟩ := he
          simp only [blocksAsked, powerAfter, samplesAsked]
          exact h5 pre n post he
  intro ops hv
  obtain ⟨s', bs, h1, h2, h3⟩ := key ops s0 p0 0 h0 hv
  exact ⟨s', bs, h1, h2, fun pre n post he => by rw [h3 pre n post he, Nat.zero_add]⟩

/-! ### C104: white noise -/

theorem whiteObj_get (ch : Nat) (power : PowerArg) (std : Nat → ℝ) (hs : whiteStd ch power = some std) (z : Nat → ℝ)
    (p n : Nat) :
    WhiteObj.get ⟨ch, power, ⟨z, p⟩⟩ n =
      .ok (⟨ch, power, ⟨z, p + n * ch⟩⟩, blockOf (fun c k => std c * z (p + (k * ch + c))) ch 0 n) := by
  obtain ⟨s', h⟩ := whiteObj_stream ch power std hs z p [n]
  simp only [runRequests, blocksOf] at h
  split at h
  · cases h
  · rename_i s2 b2 heq
    simp only [Except.ok.injEq, Prod.mk.injEq, List.cons.injEq, and_true] at h
    rw [heq, h.2]
    simp only [WhiteObj.get, hs, WhiteSt.get, Rng.normal] at heq
    cases heq
    rfl

theorem blockOf_shift (f : Nat → Nat → ℝ) (ch off n : Nat) :
    blockOf (fun c k => f c (off + k)) ch 0 n = blockOf f ch off n := by
  simp [blockOf]

/-- **C104** A white noise source follows its power: `set_power` takes effect with the next
sample, and the sequence of the random numbers goes on as if the power had not changed.
`pw p c` is the power that `p` gives to channel `c`. -/
theorem C104_white_partial (ch : Nat) (hch : 0 < ch) (z : Nat → ℝ) (pos : Nat) (p0 : PowerArg) (pw : PowerArg → Nat → ℝ)
    (h0 : ∀ c, c < ch → GivesPower p0 ch c (pw p0 c)) :
    FollowsPower WhiteObj.get WhiteObj.setPower ⟨ch, p0, ⟨z, pos⟩⟩ p0 ch
      (fun p => ∀ c, c < ch → GivesPower p ch c (pw p c))
      fun p c k => Real.sqrt (pw p c) * z (pos + (k * ch + c)) := by
  refine followsPower_of_inv (fun s p off => s = ⟨ch, p, ⟨z, pos + off * ch⟩⟩ ∧
    ∀ c, c < ch → GivesPower p ch c (pw p c)) ⟨by simp, h0⟩ ?_ ?_
  · rintro s p off n ⟨rfl, hp⟩
    obtain ⟨std, hs, hstd⟩ := whiteStd_of_gives (pw p) hch hp
    refine ⟨_, ?_, rfl, hp⟩
    rw [whiteObj_get ch p std hs z _ n]
    congr 2
    · rw [Nat.add_mul, Nat.add_assoc]
    · rw [← blockOf_shift _ ch off n]
      refine List.map_congr_left fun c hc => List.map_congr_left fun k _ => ?_
      simp only [Nat.zero_add]
      rw [hstd c (List.mem_range.1 hc)]
      congr 2
      ring
  · rintro s p off q ⟨rfl, -⟩ hq
    refine ⟨_, ?_, rfl, hq⟩
    have := whiteObj_create (seeded := fun _ _ => 0) hch (pw q) hq (some ⟨z, pos + off * ch⟩)
    unfold WhiteObj.create at this
    simp only [sourceRng, WhiteObj.setPower] at this ⊢
    split at this
    · cases this
    · rename_i heq
      rw [Prod.mk.injEq] at heq
      rw [Prod.mk.injEq]
      exact ⟨rfl, heq.2⟩

/-- A source of two channels, the power changed from 4 to 9 and 1. -/
example : ∃ pw : PowerArg → Nat → ℝ, (∀ c, c < 2 → GivesPower (.num 4) 2 c (pw (.num 4) c)) ∧
    ∀ c, c < 2 → GivesPower (.vec [9, 1]) 2 c (pw (.vec [9, 1]) c) := by
  refine ⟨fun p c => match p with | .num p => p | .vec l => l.getD c 0, fun c _ => Or.inl rfl, fun c hc => ?_⟩
  have : c = 0 ∨ c = 1 := by omega
  rcases this with rfl | rfl <;> exact Or.inr (Or.inr ⟨_, rfl, rfl, rfl⟩)

/-- **C104** is violated for rejected powers: the source keeps the rejected array, and every
later request of samples raises. -/
theorem C104_white_violated (o : WhiteObj) (l : List ℝ) (h1 : l.length ≠ o.ch) (h2 : l.length ≠ 1) :
    (o.setPower (.vec l)).2 = some .assertion ∧ ∀ n, (o.setPower (.vec l)).1.get n = .error .value := by
  constructor
  · simp [WhiteObj.setPower, h1, h2]
  · intro n
    have : whiteStd o.ch (.vec l) = none := by
      rcases l with - | ⟨p, - | ⟨q, l⟩⟩
      · rw [whiteStd, if_neg h1]; simp
      · simp at h2
      · rw [whiteStd, if_neg h1]; simp
    simp only [WhiteObj.setPower, WhiteObj.get, this]

example (o : WhiteObj) (h : o.ch = 2) : ([1, 2, 3] : List ℝ).length ≠ o.ch ∧ ([1, 2, 3] : List ℝ).length ≠ 1 := by
  simp [h]

/-! ### C104: Gold sequences -/

theorem runRequests_append {σ R : Type} {get : σ → Nat → Except PyErr (σ × List (List R))} (ns ms : List Nat) :
    ∀ (s s1 : σ) (bs : List (List (List R))), runRequests get s ns = .ok (s1, bs) →
      runRequests get s (ns ++ ms) = match runRequests get s1 ms with
        | .error e => .error e
        | .ok (s2, cs) => .ok (s2, bs ++ cs) := by
  induction ns with
  | nil =>
    intro s s1 bs h
    simp only [runRequests, Except.ok.injEq, Prod.mk.injEq] at h
    obtain ⟨rfl, rfl⟩ := h
    rw [List.nil_append]
    cases hr : runRequests get s ms with
    | error e => rfl
    | ok q => rfl
  | cons n ns ih =>
    intro s s1 bs h
    simp only [runRequests] at h
    split at h
    · cases h
    · rename_i t b heq
      split at h
      · cases h
      · rename_i t2 bs2 heq2
        simp only [Except.ok.injEq, Prod.mk.injEq] at h
        obtain ⟨rfl, rfl⟩ := h
        simp only [List.cons_append, runRequests, heq, ih t t2 bs2 heq2]
        cases runRequests get t2 ms with
        | error e => rfl
        | ok q => rfl

theorem blocksOf_append {R : Type} (f : Nat → Nat → R) (ch : Nat) (ns ms : List Nat) :
    ∀ off : Nat, blocksOf f ch off (ns ++ ms) = blocksOf f ch off ns ++ blocksOf f ch (off + ns.sum) ms := by
  induction ns with
  | nil => intro off; simp [blocksOf]
  | cons n ns ih => intro off; simp [blocksOf, ih, Nat.add_assoc]

theorem IsStream.step {σ R : Type} {get : σ → Nat → Except PyErr (σ × List (List R))} {s0 : σ} {ch : Nat}
    {f : Nat → Nat → R} (h : IsStream get s0 ch f) {ns : List Nat} {s : σ} {bs : List (List (List R))}
    (hr : runRequests get s0 ns = .ok (s, bs)) (n : Nat) :
    ∃ s' bs', get s n = .ok (s', blockOf f ch ns.sum n) ∧ runRequests get s0 (ns ++ [n]) = .ok (s', bs') := by
  obtain ⟨s1, h1⟩ := h ns
  obtain ⟨s2, h2⟩ := h (ns ++ [n])
  rw [hr] at h1
  simp only [Except.ok.injEq, Prod.mk.injEq] at h1
  obtain ⟨rfl, rfl⟩ := h1
  refine ⟨s2, _, ?_, h2⟩
  rw [runRequests_append ns [n] s0 s _ hr, blocksOf_append] at h2
  simp only [runRequests] at h2
  cases hg : get s n with
  | error e => rw [hg] at h2; cases h2
  | ok q =>
    rw [hg] at h2
    simp only [Except.ok.injEq, Prod.mk.injEq, List.append_cancel_left_eq, blocksOf, List.cons.injEq, and_true,
      Nat.zero_add] at h2
    rw [← h2.1, ← h2.2]

theorem gives_column {p : PowerArg} {ch : Nat} {pw : Nat → ℝ} (hch : 0 < ch)
    (h : ∀ c, c < ch → GivesPower p ch c (pw c)) :
    ∃ col, powerColumn p = col ∧
      ((∃ a, col = [a] ∧ ∀ c, c < ch → pw c = a) ∨ (col.length = ch ∧ ch ≠ 1 ∧ ∀ c, c < ch → col[c]? = some (pw c))) := by
  cases p with
  | num p =>
    refine ⟨[p], rfl, Or.inl ⟨p, rfl, fun c hc => ?_⟩⟩
    rcases h c hc with h1 | h1 | ⟨l, h1, -⟩
    · cases h1; rfl
    · cases h1
    · cases h1
  | vec l =>
    refine ⟨l, rfl, ?_⟩
    rcases h 0 hch with h1 | h1 | ⟨l', h1, h2, h3⟩
    · cases h1
    · cases h1
      refine Or.inl ⟨pw 0, rfl, fun c hc => ?_⟩
      rcases h c hc with h1 | h1 | ⟨l', h1, h2, h3⟩
      · cases h1
      · simp only [PowerArg.vec.injEq, List.cons.injEq, and_true] at h1; exact h1.symm
      · cases h1
        simp only [List.length_cons, List.length_nil] at h2
        have : c = 0 := by omega
        rw [this]
    · cases h1
      by_cases hc1 : ch = 1
      · subst hc1
        rw [List.length_eq_one_iff] at h2
        obtain ⟨a, rfl⟩ := h2
        refine Or.inl ⟨a, rfl, fun c hc => ?_⟩
        have : c = 0 := by omega
        subst this
        simp at h3
        exact h3.symm
      · refine Or.inr ⟨h2, hc1, fun c hc => ?_⟩
        rcases h c hc with h1 | h1 | ⟨l', h1, -, h5⟩
        · cases h1
        · cases h1; simp at h2; omega
        · cases h1; exact h5

theorem scaleRows_blockOf (b : Nat → Nat → ℝ) (ch off n : Nat) (hch : 0 < ch) {p : PowerArg} (pw : Nat → ℝ)
    (h : ∀ c, c < ch → GivesPower p ch c (pw c)) :
    scaleRows (blockOf b ch off n) ((powerColumn p).map Real.sqrt) =
      some (blockOf (fun c k => b c k * Real.sqrt (pw c)) ch off n) := by
  obtain ⟨col, hcol, hcase⟩ := gives_column hch h
  rw [hcol]
  rcases hcase with ⟨a, rfl, ha⟩ | ⟨hl, hne, hc⟩
  · simp only [List.map_cons, List.map_nil, scaleRows, scale2, blockOf, List.map_map]
    congr 1
    refine List.map_congr_left fun c hc => ?_
    simp only [Function.comp, List.map_map, ha c (List.mem_range.1 hc)]
    rfl
  · have hbl : (blockOf b ch off n).length = ch := by simp [blockOf]
    have : scaleRows (blockOf b ch off n) (col.map Real.sqrt) =
        some (List.zipWith (fun row a => row.map (· * a)) (blockOf b ch off n) (col.map Real.sqrt)) := by
      unfold scaleRows
      split
      · rename_i a heq
        have := congrArg List.length heq
        simp at this
        omega
      · rw [if_pos (by simp [hl, hbl])]
    rw [this]
    congr 1
    apply List.ext_getElem?
    intro c
    rw [List.getElem?_zipWith]
    by_cases hcl : c < ch
    · simp [blockOf, List.getElem?_map, List.getElem?_range hcl, hc c hcl]
    · have h1 : (blockOf b ch off n)[c]? = none := by rw [List.getElem?_eq_none_iff, hbl]; omega
      rw [h1]
      symm
      simp only
      rw [List.getElem?_eq_none_iff]
      simp [blockOf]
      omega

/-- **C104** A Gold sequence source follows its power: the ±1 sequences `b` go on whatever
the power, and each sample is scaled with the square root of the power in effect. -/
theorem C104_gold_partial (ch order : Nat) (hch : 0 < ch) (h5 : 5 ≤ order) (h11 : order ≤ 11) (hlen : ch ≤ 2 ^ order - 1)
    (p0 : PowerArg) (pw : PowerArg → Nat → ℝ) (h0 : ∀ c, c < ch → GivesPower p0 ch c (pw p0 c)) :
    ∃ (o : GoldObj) (b : Nat → Nat → ℝ), GoldObj.create ch p0 order = .ok o ∧ (∀ c k, |b c k| = 1) ∧
      FollowsPower GoldObj.get GoldObj.setPower o p0 ch (fun p => ∀ c, c < ch → GivesPower p ch c (pw p c))
        fun p c k => b c k * Real.sqrt (pw p c) := by
  obtain ⟨st, b, h1, h2, h3, -⟩ := C37_gold_power_period ch order 1 h5 h11 hlen
  refine ⟨⟨st, powerColumn p0⟩, b, by simp only [GoldObj.create, h1, GoldObj.setPower],
    fun c k => by rw [h3, Real.sqrt_one], ?_⟩
  refine followsPower_of_inv (fun s p off => s.power = powerColumn p ∧
    (∀ c, c < ch → GivesPower p ch c (pw p c)) ∧ ∃ ns bs, ns.sum = off ∧ runRequests GoldSt.get st ns = .ok (s.st, bs))
    ⟨rfl, h0, [], [], rfl, rfl⟩ ?_ ?_
  · rintro ⟨s, q⟩ p off n ⟨hq, hp, ns, bs, rfl, hr⟩
    dsimp only at hq hr
    obtain ⟨s', bs', hg, hr'⟩ := h2.step hr n
    refine ⟨⟨s', q⟩, ?_, hq, hp, ns ++ [n], bs', by simp, hr'⟩
    simp only [GoldObj.get, hg, hq, scaleRows_blockOf b ch ns.sum n hch (pw p) hp]
  · rintro s p off q ⟨_, _, hr⟩ hq
    exact ⟨⟨s.st, powerColumn q⟩, rfl, rfl, hq, hr⟩

/-- **C104** is violated for powers of the wrong length, which `set_power` of a Gold sequence
source accepts: with several channels the next request raises, with one channel it returns as
many channels as powers. -/
theorem C104_gold_violated (o : GoldObj) (l : List ℝ) (hl : 2 ≤ l.length) {n : Nat} {st : GoldSt} {sig : List (List ℝ)}
    (hg : o.st.get n = .ok (st, sig)) (hne : l.length ≠ sig.length) :
    (o.setPower (.vec l)).2 = none ∧
    (2 ≤ sig.length → (o.setPower (.vec l)).1.get n = .error .value) ∧
    (sig.length = 1 → ∃ o' b, (o.setPower (.vec l)).1.get n = .ok (o', b) ∧ b.length = l.length) := by
  have hsc : ∀ sig : List (List ℝ), l.length ≠ sig.length → scaleRows sig (l.map Real.sqrt) = match sig with
      | [row] => some ((l.map Real.sqrt).map fun a => row.map (· * a))
      | _ => none := by
    intro sig hne
    unfold scaleRows
    split
    · rename_i a heq
      have := congrArg List.length heq
      simp at this
      omega
    · rw [if_neg (by simpa using hne)]
      rcases sig with - | ⟨r, - | ⟨r', s⟩⟩ <;> rfl
  refine ⟨rfl, fun h2 => ?_, fun h1 => ?_⟩
  · have : scaleRows sig (l.map Real.sqrt) = none := by
      rw [hsc sig hne]
      rcases sig with - | ⟨r, - | ⟨r', s⟩⟩
      · simp at h2
      · simp at h2
      · rfl
    simp only [GoldObj.setPower, GoldObj.get, hg, powerColumn, this]
  · rw [List.length_eq_one_iff] at h1
    obtain ⟨row, rfl⟩ := h1
    simp only [GoldObj.setPower, GoldObj.get, hg, powerColumn, hsc _ hne]
    exact ⟨_, _, rfl, by simp⟩

example : ∃ (o : GoldObj) (st : GoldSt) (sig : List (List ℝ)), GoldObj.create 2 (.num 1) 5 = .ok o ∧
    o.st.get 4 = .ok (st, sig) ∧ sig.length = 2 := by
  obtain ⟨st, b, h1, h2, -⟩ := C37_gold_power_period 2 5 1 (by decide) (by decide) (by decide)
  obtain ⟨s', _, hg, -⟩ := h2.step (ns := []) rfl 4
  exact ⟨⟨st, [1]⟩, s', _, by simp only [GoldObj.create, h1, GoldObj.setPower, powerColumn], hg, by simp [blockOf]⟩

/-! ### C105 -/

/-- **C105** A Gold sequence source with an array of powers: every sample of channel `c` has
the square `powers[c]`. -/
theorem C105_gold_partial (ch order : Nat) (hch : 0 < ch) (h5 : 5 ≤ order) (h11 : order ≤ 11) (hlen : ch ≤ 2 ^ order - 1)
    (l : List ℝ) (hl : l.length = ch) (hpos : ∀ p ∈ l, 0 ≤ p) :
    ∃ (o : GoldObj) (x : Nat → Nat → ℝ), GoldObj.create ch (.vec l) order = .ok o ∧ IsStream GoldObj.get o ch x ∧
      ∀ (c k : Nat) (hc : c < l.length), x c k ^ 2 = l[c] := by
  obtain ⟨st, b, h1, h2, h3, -⟩ := C37_gold_power_period ch order 1 h5 h11 hlen
  have hg : ∀ c, c < ch → GivesPower (.vec l) ch c (l.getD c 0) := fun c hc => Or.inr (Or.inr ⟨l, rfl, hl, by
    rw [List.getD_eq_getElem?_getD, List.getElem?_eq_getElem (by omega)]; rfl⟩)
  refine ⟨⟨st, l⟩, fun c k => b c k * Real.sqrt (l.getD c 0), by simp only [GoldObj.create, h1, GoldObj.setPower, powerColumn], ?_,
    fun c k hc => ?_⟩
  · refine isStream_of_inv (fun off s => s.power = l ∧ ∃ ns bs, ns.sum = off ∧ runRequests GoldSt.get st ns = .ok (s.st, bs))
      ⟨rfl, [], [], rfl, rfl⟩ ?_
    rintro off ⟨s, q⟩ n ⟨hq, ns, bs, rfl, hr⟩
    dsimp only at hq hr
    obtain ⟨s', bs', hget, hr'⟩ := h2.step hr n
    refine ⟨⟨s', q⟩, ?_, hq, ns ++ [n], bs', by simp, hr'⟩
    have := scaleRows_blockOf b ch ns.sum n hch (p := .vec l) _ hg
    simp only [powerColumn] at this
    simp only [GoldObj.get, hget, hq, this]
  · dsimp only
    rw [List.getD_eq_getElem?_getD, List.getElem?_eq_getElem hc, Option.getD_some, mul_pow,
      Real.sq_sqrt (hpos _ (List.getElem_mem _)), ← sq_abs, h3, Real.sqrt_one]
    ring

example : ([1, 4, 2] : List ℝ).length = 3 ∧ (∀ p ∈ ([1, 4, 2] : List ℝ), 0 ≤ p) ∧ 3 ≤ 2 ^ 6 - 1 := by norm_num

open MeasureTheory ProbabilityTheory in
/-- **C105** A white noise source with an array of powers: every sample of channel `c` is
normally distributed with variance `powers[c]`. -/
theorem C105_white_partial {Ω : Type} [MeasurableSpace Ω] {P : Measure Ω} {Z : ℕ → Ω → ℝ} (h : NormalDraws P Z)
    (seeded : ℕ → ℕ → ℝ) (ch pos : ℕ) (hch : 0 < ch) (l : List ℝ) (hl : l.length = ch) (hpos : ∀ p ∈ l, 0 ≤ p) :
    ∃ X : ℕ → ℕ → Ω → ℝ,
      (∀ ω, ∃ s, WhiteObj.create seeded ch (.vec l) (some ⟨fun k => Z k ω, pos⟩) = .ok s ∧
        IsStream WhiteObj.get s ch fun c k => X c k ω) ∧
      ∀ (c k : Nat) (hc : c < l.length), P.map (X c k) = gaussianReal 0 (l[c]).toNNReal := by
  have hd : ∀ c (hc : c < l.length), l.getD c 0 = l[c] := fun c hc => by
    rw [List.getD_eq_getElem?_getD, List.getElem?_eq_getElem hc]; rfl
  obtain ⟨X, h1, -, h3⟩ := C102_white h seeded ch pos hch (.vec l) (fun c => l.getD c 0) fun c hc =>
    ⟨Or.inr (Or.inr ⟨l, rfl, hl, by rw [hd c (by omega), List.getElem?_eq_getElem (by omega)]⟩), by
      rw [hd c (by omega)]; exact hpos _ (List.getElem_mem _)⟩
  refine ⟨X, h1, fun c k hc => ?_⟩
  rw [(h3 c k (by omega)).1, hd c hc]

theorem scaleLast_none (f : ℝ → ℝ) (l : List ℝ) (n : Nat) (m : List (List ℝ)) (h1 : l.length ≠ 1) (h2 : l.length ≠ n)
    (h3 : n ≠ 1) : scalePower f (.vec l) n m = none := by
  unfold scalePower scaleLast
  dsimp only
  split
  · rename_i a heq
    have := congrArg List.length heq
    simp at this
    omega
  · rw [if_neg (by simpa using h2), if_neg h3]

/-- **C105** is violated by `SineSource`: with one power per channel, requests raise unless
they are for one sample or exactly as many samples as there are channels; in the latter case
the powers are given to the samples instead of the channels. -/
theorem C105_sine_violated (ch : Nat) (freq samplerate : ℝ) (u : Nat → ℝ) (l : List ℝ) (hl : l.length = ch) (h2 : 2 ≤ ch) :
    (∀ n, n ≠ 1 → n ≠ ch → (SineObj.create ch (.vec l) freq samplerate u).get n = .error .value) ∧
    ∃ o', (SineObj.create ch (.vec l) freq samplerate u).get ch = .ok (o',
      blockOf (fun c k => Real.sqrt (2 * l.getD k 0) *
        Real.cos (2 * Real.pi * freq / samplerate * k + 2 * Real.pi * u c)) ch 0 ch) := by
  constructor
  · intro n h1 hn
    unfold SineObj.get SineObj.create
    rw [scaleLast_none _ l n _ (by omega) (by omega) h1]
  · refine ⟨{ SineObj.create ch (.vec l) freq samplerate u with
        phase := (SineObj.create ch (.vec l) freq samplerate u).phase.map fun p =>
          realMod (p + ch * (SineObj.create ch (.vec l) freq samplerate u).pps) (2 * Real.pi) }, ?_⟩
    · have hsc : ∀ m, scalePower (fun p => Real.sqrt (2 * p)) (.vec l) ch m =
          some (m.map fun row => List.zipWith (· * ·) (l.map fun p => Real.sqrt (2 * p)) row) := by
        intro m
        unfold scalePower scaleLast
        dsimp only
        split
        · rename_i a heq
          have := congrArg List.length heq
          simp at this
          omega
        · rw [if_pos (by simpa using hl)]
      unfold SineObj.get
      have hpow : (SineObj.create ch (.vec l) freq samplerate u).power = .vec l := rfl
      rw [hpow, hsc]
      dsimp only
      congr 2
      simp only [SineObj.create, List.map_map, blockOf]
      refine List.map_congr_left fun c hc => ?_
      apply List.ext_getElem
      · simp [hl]
      · intro k hk1 hk2
        have hk : k < l.length := by simp at hk2; omega
        simp [uniform, hk]

/-- **C105** is violated by `BandlimitedNoiseSource` in the same way. -/
theorem C105_band_violated {Z : Type} (o : BandObj Z) (l : List ℝ) (hl : l.length = o.zi.length) (h2 : 2 ≤ o.zi.length) :
    (o.setPower (.vec l)).2 = none ∧
    ∀ n, n ≠ 1 → n ≠ o.zi.length → (o.setPower (.vec l)).1.get n = .error .value := by
  refine ⟨rfl, fun n h1 hn => ?_⟩
  unfold BandObj.setPower BandObj.get
  dsimp only [Rng.normal]
  rw [scaleLast_none _ l n _ (by omega) (by omega) h1]

example : ([1, 3] : List ℝ).length = (BandObj.mk (.num 1) 1 (fun z x => (z, x)) [0, 0] ⟨fun _ => 0, 0⟩ : BandObj ℝ).zi.length := rfl

end Verif

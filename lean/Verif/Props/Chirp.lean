/-
C198: `LinearChirpSource`.
-/
import Mathlib.Algebra.BigOperators.Group.Finset.Basic
import Mathlib.Tactic.Ring
import Mathlib.Tactic.FieldSimp
import Mathlib.Tactic.Linarith
import Mathlib.Data.Rat.Floor
import Mathlib.Analysis.SpecialFunctions.Trigonometric.Basic
import Verif.Model.Chirp
import Verif.Spec.Chirp
import Verif.Spec.Stream
namespace Verif

section

/-- **C198** is violated: no source can be constructed. -/
theorem C198_violated_create {K : Type} (numChannels : Nat) (amp : K) (freqRange : List K) (sweep : Nat) (samplerate : K) :
    chirpCreate numChannels amp freqRange sweep samplerate = .error .notImplemented := rfl

variable {K : Type} [Field K] [LinearOrder K] [FloorRing K] {p : ChirpPar K} {f0 f1 φ : K}

/-- The state after `j` samples. -/
def chirpAt (p : ChirpPar K) (f0 f1 φ : K) (j : Nat) : ChirpSt K := (chirpStep p)^[j] (chirpStart p f0 f1 φ)

theorem chirpAt_succ (j : Nat) : chirpAt p f0 f1 φ (j + 1) = chirpStep p (chirpAt p f0 f1 φ j) := by
  unfold chirpAt
  rw [Function.iterate_succ_apply']

theorem sweep_succ {S j : Nat} (hS : 0 < S) : ((j % S) + 1 < S → (j + 1) % S = j % S + 1 ∧ (j + 1) / S = j / S) ∧
    (S ≤ (j % S) + 1 → j % S + 1 = S ∧ (j + 1) % S = 0 ∧ (j + 1) / S = j / S + 1) := by
  have h := Nat.div_add_mod j S
  have hm := Nat.mod_lt j hS
  constructor
  · intro hlt
    have e : j + 1 = (j % S + 1) + S * (j / S) := by omega
    rw [e, Nat.add_mul_mod_self_left, Nat.add_mul_div_left _ _ hS, Nat.mod_eq_of_lt hlt, Nat.div_eq_of_lt hlt]
    omega
  · intro hge
    have he : j % S + 1 = S := by omega
    have e : j + 1 = 0 + S * (j / S + 1) := by
      rw [Nat.mul_add]
      omega
    refine ⟨he, ?_, ?_⟩
    · rw [e, Nat.add_mul_mod_self_left, Nat.zero_mod]
    · rw [e, Nat.add_mul_div_left _ _ hS, Nat.zero_div]
      omega

/-- The state of the source after `j` samples. -/
theorem chirpAt_spec [CharZero K] (hS : 0 < p.sweep) (j : Nat) :
    (chirpAt p f0 f1 φ j).count = j % p.sweep ∧
    (chirpAt p f0 f1 φ j).delta = (if (j / p.sweep) % 2 = 0 then (f1 - f0) / p.sweep else -((f1 - f0) / p.sweep)) ∧
    (chirpAt p f0 f1 φ j).freq = sweepFreq f0 f1 p.sweep j ∧
    ∃ z : ℤ, (chirpAt p f0 f1 φ j).phase = sweepPhase f0 f1 p.samplerate φ p.sweep j + z := by
  have hK : (p.sweep : K) ≠ 0 := by exact_mod_cast hS.ne'
  induction j with
  | zero => exact ⟨by simp [chirpAt, chirpStart], by simp [chirpAt, chirpStart], by simp [chirpAt, chirpStart, sweepFreq],
      0, by simp [chirpAt, chirpStart, sweepPhase]⟩
  | succ j ih =>
    obtain ⟨h1, h2, h3, z, h4⟩ := ih
    have hfreq : sweepFreq f0 f1 p.sweep (j + 1) = sweepFreq f0 f1 p.sweep j + (chirpAt p f0 f1 φ j).delta := by
      rw [h2]
      obtain ⟨s1, s2⟩ := sweep_succ (j := j) hS
      unfold sweepFreq
      rcases Nat.lt_or_ge (j % p.sweep + 1) p.sweep with hlt | hge
      · obtain ⟨e1, e2⟩ := s1 hlt
        rw [e1, e2]
        split
        · push_cast; ring
        · push_cast; ring
      · obtain ⟨e0, e1, e2⟩ := s2 hge
        have e0' : ((j % p.sweep : Nat) : K) = p.sweep - 1 := by
          rw [eq_sub_iff_add_eq]
          exact_mod_cast e0
        rw [e1, e2]
        rcases Nat.mod_two_eq_zero_or_one (j / p.sweep) with hp | hp
        · rw [if_neg (by omega), if_pos hp, if_pos hp, e0']
          field_simp
          push_cast
          ring
        · rw [if_pos (by omega), if_neg (by omega), if_neg (by omega), e0']
          field_simp
          push_cast
          ring
    have hphase : sweepPhase f0 f1 p.samplerate φ p.sweep (j + 1) = sweepPhase f0 f1 p.samplerate φ p.sweep j +
        ((chirpAt p f0 f1 φ j).freq / p.samplerate + (chirpAt p f0 f1 φ j).delta / (2 * p.samplerate)) := by
      unfold sweepPhase
      rw [Finset.sum_range_succ, hfreq, ← h3, ← add_assoc]
      congr 1
      have h2' : (2 : K) ≠ 0 := by exact_mod_cast (two_ne_zero : (2 : ℕ) ≠ 0)
      rcases eq_or_ne p.samplerate 0 with hr | hr
      · simp [hr]
      · field_simp
        ring
    obtain ⟨s1, s2⟩ := sweep_succ (j := j) hS
    have hph : ∃ z : ℤ, (chirpNextPhase p (chirpAt p f0 f1 φ j)).phase =
        sweepPhase f0 f1 p.samplerate φ p.sweep (j + 1) + z := by
      refine ⟨z - ⌊(chirpAt p f0 f1 φ j).phase + ((chirpAt p f0 f1 φ j).freq / p.samplerate +
        (chirpAt p f0 f1 φ j).delta / (2 * p.samplerate))⌋, ?_⟩
      change Int.fract _ = _
      rw [Int.fract, hphase]
      push_cast
      rw [h4]
      ring
    rw [chirpAt_succ]
    unfold chirpStep
    dsimp only
    have hc : (chirpNextPhase p (chirpAt p f0 f1 φ j)).count = j % p.sweep := h1
    have hd : (chirpNextPhase p (chirpAt p f0 f1 φ j)).delta = (chirpAt p f0 f1 φ j).delta := rfl
    have hf : (chirpNextPhase p (chirpAt p f0 f1 φ j)).freq = sweepFreq f0 f1 p.sweep (j + 1) := by
      rw [hfreq, ← h3]
      rfl
    rcases Nat.lt_or_ge (j % p.sweep + 1) p.sweep with hlt | hge
    · obtain ⟨e1, e2⟩ := s1 hlt
      rw [if_neg (by rw [hc]; omega)]
      dsimp only
      exact ⟨by rw [hc, e1], by rw [hd, h2, e2], hf, hph⟩
    · obtain ⟨e0, e1, e2⟩ := s2 hge
      rw [if_pos (by rw [hc]; omega)]
      dsimp only
      refine ⟨e1.symm, ?_, hf, hph⟩
      rw [hd, h2, e2]
      rcases Nat.mod_two_eq_zero_or_one (j / p.sweep) with hp | hp
      · rw [if_pos hp, if_neg (by omega)]
      · rw [if_neg (by omega), if_pos (by omega), neg_neg]

theorem chirpBlock_at (n j : Nat) : chirpBlock p n (chirpAt p f0 f1 φ j) =
    (chirpAt p f0 f1 φ (j + n), (List.range n).map fun i => p.wave (chirpAt p f0 f1 φ (j + i)).phase) := by
  induction n generalizing j with
  | zero => rfl
  | succ n ih =>
    rw [chirpBlock, ← chirpAt_succ, ih, List.range_succ_eq_map, List.map_cons, List.map_map]
    dsimp only
    rw [show j + 1 + n = j + (n + 1) by omega]
    congr 2
    apply List.map_congr_left
    intro i _
    dsimp only [Function.comp]
    rw [show j + 1 + i = j + (i + 1) by omega]

/-- How many samples `b` rounds of the loop write. -/
theorem chirpLoop_at [CharZero K] (hS : 0 < p.sweep) (b left j : Nat) :
    chirpLoop p b left (chirpAt p f0 f1 φ j) =
      (chirpAt p f0 f1 φ (j + min left (b * p.sweep - j % p.sweep)),
        (List.range (min left (b * p.sweep - j % p.sweep))).map fun i => p.wave (chirpAt p f0 f1 φ (j + i)).phase) := by
  induction b generalizing left j with
  | zero => simp [chirpLoop]
  | succ b ih =>
    rw [chirpLoop]
    rw [(chirpAt_spec hS j).1, chirpBlock_at]
    dsimp only
    rw [ih]
    have hm := Nat.mod_lt j hS
    have hb : (b + 1) * p.sweep = b * p.sweep + p.sweep := by ring
    have hlen : min left (p.sweep - j % p.sweep) + min (left - min left (p.sweep - j % p.sweep))
        (b * p.sweep - (j + min left (p.sweep - j % p.sweep)) % p.sweep) = min left ((b + 1) * p.sweep - j % p.sweep) := by
      rw [hb]
      rcases Nat.lt_or_ge (p.sweep - j % p.sweep) left with h | h
      · rw [Nat.min_eq_right (a := left) (b := p.sweep - j % p.sweep) (by omega)]
        have e : (j + (p.sweep - j % p.sweep)) % p.sweep = 0 := by
          have := Nat.div_add_mod j p.sweep
          rw [show j + (p.sweep - j % p.sweep) = 0 + p.sweep * (j / p.sweep + 1) by rw [Nat.mul_add]; omega,
            Nat.add_mul_mod_self_left, Nat.zero_mod]
        rw [e]
        omega
      · rw [Nat.min_eq_left (a := left) (b := p.sweep - j % p.sweep) (by omega)]
        omega
    rw [← hlen]
    generalize min left (p.sweep - j % p.sweep) = u
    generalize min (left - u) (b * p.sweep - (j + u) % p.sweep) = v
    rw [List.range_add, List.map_append, List.map_map, Nat.add_assoc]
    congr 2
    apply List.map_congr_left
    intro i _
    dsimp only [Function.comp]
    rw [Nat.add_assoc]

/-- What the source should give for `n` samples from position `pos` on. -/
def chirpWanted (p : ChirpPar K) (f0 f1 φ : K) (pos n : Nat) : List K :=
  (List.range n).map fun i => p.amp * p.wave (sweepPhase f0 f1 p.samplerate φ p.sweep (pos + i))

/-- The requests one after another: the rows got. -/
def chirpRequests (p : ChirpPar K) : ChirpSt K → List Nat → Except PyErr (List (List (List K)))
  | _, [] => .ok []
  | s, n :: ns =>
    match chirpGet p s n with
    | .error e => .error e
    | .ok (s', y) =>
      match chirpRequests p s' ns with
      | .error e => .error e
      | .ok ys => .ok (y :: ys)

theorem wave_at [CharZero K] (hS : 0 < p.sweep) (hw : ∀ (x : K) (z : ℤ), p.wave (x + z) = p.wave x) (j : Nat) :
    p.wave (chirpAt p f0 f1 φ j).phase = p.wave (sweepPhase f0 f1 p.samplerate φ p.sweep j) := by
  obtain ⟨_, _, _, z, h⟩ := chirpAt_spec (p := p) (f0 := f0) (f1 := f1) (φ := φ) hS j
  rw [h, hw]

/-- One request: how many samples of the chirp it gives, and zeros after them. -/
theorem chirpGet_at [CharZero K] (hS : 0 < p.sweep) (hw : ∀ (x : K) (z : ℤ), p.wave (x + z) = p.wave x) (pos n : Nat) :
    chirpGet p (chirpAt p f0 f1 φ pos) n =
      .ok (chirpAt p f0 f1 φ (pos + min n ((1 + n / p.sweep) * p.sweep - pos % p.sweep)),
        [chirpWanted p f0 f1 φ pos (min n ((1 + n / p.sweep) * p.sweep - pos % p.sweep)) ++
          List.replicate (n - ((1 + n / p.sweep) * p.sweep - pos % p.sweep)) 0]) := by
  unfold chirpGet
  rw [if_neg (by omega)]
  dsimp only
  rw [chirpLoop_at hS]
  dsimp only
  congr 2
  congr 1
  rw [List.map_append, List.length_map, List.length_range, List.map_map, List.map_replicate, zero_mul]
  congr 1
  · unfold chirpWanted
    apply List.map_congr_left
    intro i _
    dsimp only [Function.comp]
    rw [wave_at hS hw, mul_comm]
  · congr 1
    omega

/-- **C198** (partial): if the constructor got past its first statement, requests of which none goes over more ends of sweeps than it
has whole sweeps would give the samples of the linear chirp one after another.  Missing: the other requests
(`C198_violated`, `C198_violated_requests`), and the constructor (`C198_violated_create`). -/
theorem C198_partial [CharZero K] (hS : 0 < p.sweep) (hw : ∀ (x : K) (z : ℤ), p.wave (x + z) = p.wave x)
    (f0 f1 φ : K) (ns : List Nat) (hfit : FitSweeps p.sweep 0 ns) :
    ∃ rows : List (List K), chirpRequests p (chirpStart p f0 f1 φ) ns = .ok (rows.map fun row => [row]) ∧
      rows.map List.length = ns ∧
      rows.flatten = (List.range ns.sum).map fun j => p.amp * p.wave (sweepPhase f0 f1 p.samplerate φ p.sweep j) := by
  have key : ∀ (ns : List Nat) (pos : Nat), FitSweeps p.sweep pos ns →
      ∃ rows : List (List K), chirpRequests p (chirpAt p f0 f1 φ pos) ns = .ok (rows.map fun row => [row]) ∧
        rows.map List.length = ns ∧ rows.flatten = chirpWanted p f0 f1 φ pos ns.sum := by
    intro ns
    induction ns with
    | nil => intro pos _; exact ⟨[], rfl, rfl, rfl⟩
    | cons n ns ih =>
      intro pos hf
      obtain ⟨h1, h2⟩ := hf
      obtain ⟨rows, r1, r2, r3⟩ := ih _ h2
      have hn : n ≤ (1 + n / p.sweep) * p.sweep - pos % p.sweep := by
        have := Nat.div_add_mod n p.sweep
        rw [Nat.add_mul, Nat.one_mul, Nat.mul_comm (n / p.sweep)]
        omega
      refine ⟨chirpWanted p f0 f1 φ pos n :: rows, ?_, ?_, ?_⟩
      · rw [chirpRequests, chirpGet_at hS hw, Nat.min_eq_left hn, Nat.sub_eq_zero_of_le hn]
        dsimp only
        rw [r1, List.replicate_zero, List.append_nil]
        rfl
      · rw [List.map_cons, r2]
        simp [chirpWanted]
      · rw [List.flatten_cons, r3, List.sum_cons]
        unfold chirpWanted
        rw [List.range_add, List.map_append, List.map_map]
        congr 1
        apply List.map_congr_left
        intro i _
        dsimp only [Function.comp]
        rw [Nat.add_assoc]
  obtain ⟨rows, h1, h2, h3⟩ := key ns 0 hfit
  refine ⟨rows, h1, h2, ?_⟩
  rw [h3]
  unfold chirpWanted
  simp only [Nat.zero_add]

/-- **C198** (partial), for requests of one and the same length which divides the length of the sweep, such as the single samples that the
simulator asks for. -/
theorem C198_even_partial [CharZero K] (hS : 0 < p.sweep) (hw : ∀ (x : K) (z : ℤ), p.wave (x + z) = p.wave x)
    (f0 f1 φ : K) (n times : Nat) (hn : n ∣ p.sweep) :
    ∃ rows : List (List K), chirpRequests p (chirpStart p f0 f1 φ) (List.replicate times n) = .ok (rows.map fun row => [row]) ∧
      rows.map List.length = List.replicate times n ∧
      rows.flatten = (List.range (times * n)).map fun j => p.amp * p.wave (sweepPhase f0 f1 p.samplerate φ p.sweep j) := by
  have hfit : ∀ (times k : Nat), FitSweeps p.sweep (k * n) (List.replicate times n) := by
    intro times
    induction times with
    | zero => intro k; trivial
    | succ times ih =>
      intro k
      refine ⟨?_, ?_⟩
      · obtain ⟨c, hc⟩ := hn
        rw [hc, Nat.mul_comm k n, Nat.mul_mod_mul_left]
        have hc0 : 0 < c := Nat.pos_of_ne_zero (by rintro rfl; omega)
        have hk : k % c + 1 ≤ c := Nat.mod_lt k hc0
        calc n * (k % c) + n % (n * c) ≤ n * (k % c) + n := Nat.add_le_add_left (Nat.mod_le _ _) _
          _ = n * (k % c + 1) := by ring
          _ ≤ n * c := Nat.mul_le_mul_left _ hk
      · have := ih (k + 1)
        rwa [Nat.add_mul, Nat.one_mul] at this
  have h := C198_partial hS hw f0 f1 φ (List.replicate times n) (by simpa using hfit times 0)
  simpa using h

/-- **C198** is violated by every other request: after `pos` single samples, a request of `n` samples with
`pos % S + n % S > S` ends with `pos % S + n % S - S` zeros. -/
theorem C198_violated_requests [CharZero K] (hS : 0 < p.sweep) (hw : ∀ (x : K) (z : ℤ), p.wave (x + z) = p.wave x)
    (f0 f1 φ : K) (pos n : Nat) (hover : p.sweep < pos % p.sweep + n % p.sweep) :
    ∃ (rows : List (List K)) (row : List K),
      chirpRequests p (chirpStart p f0 f1 φ) (List.replicate pos 1 ++ [n]) = .ok ((rows ++ [row]).map fun row => [row]) ∧
      row.length = n ∧ row.drop (n - (pos % p.sweep + n % p.sweep - p.sweep)) =
        List.replicate (pos % p.sweep + n % p.sweep - p.sweep) 0 := by
  have key : ∀ (k j : Nat), j + k = pos → ∃ (rows : List (List K)) (row : List K),
      chirpRequests p (chirpAt p f0 f1 φ j) (List.replicate k 1 ++ [n]) = .ok ((rows ++ [row]).map fun row => [row]) ∧
      row.length = n ∧ row.drop (n - (pos % p.sweep + n % p.sweep - p.sweep)) =
        List.replicate (pos % p.sweep + n % p.sweep - p.sweep) 0 := by
    intro k
    induction k with
    | zero =>
      intro j hj
      obtain rfl : j = pos := by omega
      have hd := Nat.div_add_mod n p.sweep
      have e : (1 + n / p.sweep) * p.sweep - j % p.sweep = n - (j % p.sweep + n % p.sweep - p.sweep) := by
        rw [Nat.add_mul, Nat.one_mul, Nat.mul_comm (n / p.sweep)]
        have := Nat.mod_lt j hS
        have := Nat.mod_lt n hS
        omega
      have hle : j % p.sweep + n % p.sweep - p.sweep ≤ n := by
        have := Nat.mod_lt j hS
        have := Nat.mod_le n p.sweep
        omega
      refine ⟨[], chirpWanted p f0 f1 φ j (min n ((1 + n / p.sweep) * p.sweep - j % p.sweep)) ++
          List.replicate (n - ((1 + n / p.sweep) * p.sweep - j % p.sweep)) 0, ?_, ?_, ?_⟩
      · rw [List.replicate_zero, List.nil_append, chirpRequests, chirpGet_at hS hw]
        rfl
      · simp only [chirpWanted, List.length_append, List.length_map, List.length_range, List.length_replicate]
        omega
      · rw [e, Nat.min_eq_right (Nat.sub_le _ _), List.drop_append]
        have hl : (chirpWanted p f0 f1 φ j (n - (j % p.sweep + n % p.sweep - p.sweep))).length =
            n - (j % p.sweep + n % p.sweep - p.sweep) := by simp [chirpWanted]
        rw [hl, List.drop_eq_nil_of_le hl.le, Nat.sub_self, List.drop_zero, List.nil_append]
        congr 1
        omega
    | succ k ih =>
      intro j hj
      obtain ⟨rows, row, h1, h2, h3⟩ := ih (j + 1) (by omega)
      refine ⟨chirpWanted p f0 f1 φ j 1 :: rows, row, ?_, h2, h3⟩
      have hn : 1 ≤ (1 + 1 / p.sweep) * p.sweep - j % p.sweep := by
        have := Nat.mod_lt j hS
        rw [Nat.add_mul, Nat.one_mul]
        omega
      rw [List.replicate_succ, List.cons_append, chirpRequests, chirpGet_at hS hw, Nat.min_eq_left hn,
        Nat.sub_eq_zero_of_le hn]
      dsimp only
      rw [h1, List.replicate_zero, List.append_nil]
      rfl
  exact key pos 0 (by omega)

end

/-- A chirp from 0 to 2 Hz in 4 samples at 8 samples per second, with a 1-periodic wave. -/
def tinyChirp : ChirpPar ℚ := ⟨3, 8, 4, fun x => 1 + Int.fract x⟩

theorem tiny_wave (x : ℚ) (z : ℤ) : tinyChirp.wave (x + z) = tinyChirp.wave x := by
  simp [tinyChirp]

/-- **C198** is violated: with sweeps of 4 samples, two requests of 3 samples do not give what six requests of 1 sample give. -/
theorem C198_violated : ∃ ys zs : List (List (List ℚ)),
    chirpRequests tinyChirp (chirpStart tinyChirp 0 2 0) [3, 3] = .ok ys ∧
    chirpRequests tinyChirp (chirpStart tinyChirp 0 2 0) [1, 1, 1, 1, 1, 1] = .ok zs ∧
    ys.flatten.flatten.length = 6 ∧ zs.flatten.flatten.length = 6 ∧ ys.flatten.flatten ≠ zs.flatten.flatten := by
  refine ⟨_, _, rfl, rfl, ?_, ?_, ?_⟩ <;> decide +kernel

example : ∃ rows : List (List ℚ),
    chirpRequests tinyChirp (chirpStart tinyChirp 0 2 0) [3, 1, 5, 4, 7] = .ok (rows.map fun row => [row]) ∧
      rows.map List.length = [3, 1, 5, 4, 7] ∧
      rows.flatten = (List.range 20).map fun j => 3 * tinyChirp.wave (sweepPhase 0 2 8 0 4 j) :=
  C198_partial (p := tinyChirp) (by decide) tiny_wave 0 2 0 [3, 1, 5, 4, 7]
    ⟨by decide, by decide, by decide, by decide, by decide, trivial⟩

example : sweepFreq (0 : ℚ) 2 4 3 = 3 / 2 ∧ sweepFreq (0 : ℚ) 2 4 4 = 2 ∧ sweepFreq (0 : ℚ) 2 4 7 = 1 / 2 ∧
    sweepPhase (0 : ℚ) 2 8 0 4 2 = 1 / 8 := by
  norm_num [sweepFreq, sweepPhase, Finset.sum_range_succ]

/-- The cosine of the code, in turns. -/
example (amp samplerate f0 f1 φ : ℝ) (S n times : Nat) (hS : 0 < S) (hn : n ∣ S) :
    ∃ rows : List (List ℝ),
      chirpRequests ⟨amp, samplerate, S, fun x => Real.cos (2 * Real.pi * x)⟩
        (chirpStart ⟨amp, samplerate, S, fun x => Real.cos (2 * Real.pi * x)⟩ f0 f1 φ) (List.replicate times n) =
          .ok (rows.map fun row => [row]) ∧
      rows.map List.length = List.replicate times n ∧
      rows.flatten = (List.range (times * n)).map fun j =>
        amp * Real.cos (2 * Real.pi * sweepPhase f0 f1 samplerate φ S j) :=
  C198_even_partial (p := ⟨amp, samplerate, S, fun x => Real.cos (2 * Real.pi * x)⟩) hS
    (fun x z => by
      dsimp only
      rw [show 2 * Real.pi * (x + z) = 2 * Real.pi * x + z * (2 * Real.pi) by ring, Real.cos_add_int_mul_two_pi])
    f0 f1 φ n times hn

example : tinyChirp.sweep < 3 % tinyChirp.sweep + 10 % tinyChirp.sweep := by decide

end Verif

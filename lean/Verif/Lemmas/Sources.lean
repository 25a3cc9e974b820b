import Mathlib.Data.List.GetD
import Verif.Model.Sources
import Verif.Lemmas.Blocks
import Verif.Lemmas.PySlice
import Verif.Lemmas.Stream

namespace Verif

theorem pySlice_range_map {α : Type} (f : Nat → α) {n a k : Nat} (h : a + k ≤ n) {i j : Int}
    (hi : i = a) (hj : j = a + k) :
    pySlice ((List.range n).map f) i j = (List.range k).map fun t => f (a + t) := by
  obtain ⟨m, rfl⟩ : ∃ m, n = a + k + m := ⟨n - (a + k), by omega⟩
  rw [range_map_add, range_map_add]
  exact pySlice_append _ _ _ (by simpa using hi) (by simpa using hj)

theorem mod_add_mod_lt {p k t tot : Nat} (h : p % tot + k ≤ tot) (ht : t < k) :
    (p + t) % tot = p % tot + t := by
  rw [Nat.add_mod]
  by_cases h0 : t < tot
  · rw [Nat.mod_eq_of_lt h0, Nat.mod_eq_of_lt (by omega)]
  · omega

theorem seqLoop_spec {R : Type} [Zero R] (aud : Nat → Nat → R) (ch tot : Nat) (htot : 0 < tot) :
    ∀ (bs : List Int) (rem pos : Nat) (pre : Nat → List R) (i : Nat),
      (∀ c, c < ch → (pre c).length = i) → IsBlockSplit rem pos tot bs →
      seqLoop ((List.range ch).map fun c => (List.range tot).map (aud c)) tot bs
        ((List.range ch).map fun c => pre c ++ List.replicate rem 0) i ((pos % tot : Nat) : Int) =
      .ok ((List.range ch).map fun c => pre c ++ (List.range rem).map fun j => aud c ((pos + j) % tot),
        (((pos + rem) % tot : Nat) : Int)) := by
  intro bs
  induction bs with
  | nil =>
    intro rem pos pre i _ hs
    have : rem = 0 := by have := hs.total; simp at this; omega
    subst this
    simp [seqLoop]
  | cons b bs ih =>
    intro rem pos pre i hpre hs
    have hb := hs.pos b (by simp)
    have hn := hs.noCross 0 (by simp)
    have ht := hs.tail.sum_nonneg
    obtain ⟨k, rfl⟩ : ∃ k : Nat, b = k := ⟨b.toNat, by omega⟩
    simp only [List.getElem_cons_zero, List.take_zero, List.sum_nil, add_zero] at hn
    have hmod : ((pos : Int) % (tot : Int)) = ((pos % tot : Nat) : Int) := by push_cast; rfl
    rw [hmod] at hn
    have hkr : k ≤ rem := by omega
    have hkt : pos % tot + k ≤ tot := by
      have := Nat.mod_lt pos htot
      omega
    obtain ⟨r, rfl⟩ : ∃ r, rem = k + r := ⟨rem - k, by omega⟩
    have hsl : pySlice2 ((List.range ch).map fun c => (List.range tot).map (aud c))
        ((pos % tot : Nat) : Int) (((pos % tot : Nat) : Int) + k) =
        (List.range ch).map fun c => (List.range k).map fun t => aud c ((pos + t) % tot) := by
      unfold pySlice2
      rw [List.map_map]
      refine List.map_congr_left fun c _ => ?_
      simp only [Function.comp]
      rw [pySlice_range_map (aud c) hkt rfl rfl]
      refine List.map_congr_left fun t ht => ?_
      rw [mod_add_mod_lt hkt (by simpa using ht)]
    have has : pyAssign2 ((List.range ch).map fun c => pre c ++ List.replicate (k + r) 0) i (i + k)
        ((List.range ch).map fun c => (List.range k).map fun t => aud c ((pos + t) % tot)) =
        some ((List.range ch).map fun c => (pre c ++ (List.range k).map fun t => aud c ((pos + t) % tot))
          ++ List.replicate r 0) := by
      unfold pyAssign2
      refine pyRows_map fun c hc => ?_
      rw [List.replicate_add, ← List.append_assoc]
      exact pyAssign_append _ _ _ _ (by rw [hpre c hc]) (by rw [hpre c hc]; simp) (by simp)
    simp only [seqLoop, hsl, has]
    have e1 : (((pos % tot : Nat) : Int) + k) % (tot : Int) = (((pos + k) % tot : Nat) : Int) := by
      push_cast; simp
    have e2 : ((i : Int) + k) = ((i + k : Nat) : Int) := by push_cast; rfl
    rw [e1, e2]
    have hst : IsBlockSplit (r : Int) ((pos + k : Nat) : Int) tot bs := by
      have := hs.tail
      have e3 : ((k + r : Nat) : Int) - k = r := by push_cast; ring
      rw [e3] at this
      exact_mod_cast this
    rw [ih r (pos + k) _ (i + k) (by intro c hc; simp [hpre c hc]) hst]
    congr 2
    · refine List.map_congr_left fun c _ => ?_
      rw [range_map_add, List.append_assoc]
      simp [Nat.add_assoc]
    · rw [Nat.add_assoc]

theorem zeros2_eq {R : Type} [Zero R] (ch n : Nat) :
    zeros2 R ch n = (List.range ch).map fun _ => ([] : List R) ++ List.replicate n 0 := by
  unfold zeros2
  simp [List.map_const']

/-- Both sequence players: block sizes plus copy loop. -/
theorem seq_play {R : Type} [Zero R] (aud : Nat → Nat → R) (ch tot : Nat) (htot : 0 < tot)
    (pos n : Nat) :
    ∃ bs, calcBlockSizes (n + 1) n ((pos % tot : Nat) : Int) tot = some bs ∧
      seqLoop ((List.range ch).map fun c => (List.range tot).map (aud c)) tot bs
        (zeros2 R ch n) 0 ((pos % tot : Nat) : Int) =
      .ok (blockOf (fun c k => aud c (k % tot)) ch pos n, (((pos + n) % tot : Nat) : Int)) := by
  have hlt := Nat.mod_lt pos htot
  obtain ⟨bs, h1, h2⟩ := calcLoop_spec n tot (by omega) (n + 1) ((pos % tot : Nat) : Int)
    (tot - ((pos % tot : Nat) : Int)) 0 [] (by
      rw [Int.emod_eq_of_lt (by omega) (by omega)]) (by omega) (by omega)
  refine ⟨bs, by simpa [calcBlockSizes] using h1, ?_⟩
  have h2' : IsBlockSplit (n : Int) ((pos % tot : Nat) : Int) tot bs := by simpa using h2
  have := seqLoop_spec aud ch tot htot bs n (pos % tot) (fun _ => []) 0 (by simp) h2'
  rw [zeros2_eq]
  simp only [Nat.mod_mod] at this
  simpa [blockOf] using this

theorem rect_eq_map {R : Type} [Zero R] (audio : List (List R)) (tot : Nat)
    (h : ∀ r ∈ audio, r.length = tot) :
    audio = (List.range audio.length).map fun c => (List.range tot).map fun j =>
      (audio.getD c []).getD j 0 := by
  apply List.ext_getElem
  · simp
  · intro c h1 h2
    simp only [List.getElem_map, List.getElem_range]
    apply List.ext_getElem
    · simp [h _ (List.getElem_mem h1)]
    · intro j h3 h4
      simp [h1, h3]

theorem scale2_blockOf {R : Type} [Mul R] (f : Nat → Nat → R) (ch off n : Nat) (a : R) :
    scale2 (blockOf f ch off n) a = blockOf (fun c k => f c k * a) ch off n := by
  simp [scale2, blockOf]

theorem transposeT_cols {R : Type} (ch n : Nat) (f : Nat → Nat → R) :
    transposeT ch ((List.range n).map fun i => (List.range ch).map fun c => f c i) =
      (List.range ch).map fun c => (List.range n).map fun i => f c i := by
  unfold transposeT
  refine List.map_congr_left fun c hc => ?_
  have hc' : c < ch := by simpa using hc
  rw [List.filterMap_map]
  rw [← List.filterMap_eq_map]
  congr 1
  funext i
  simp [hc']

/-! ### Filters -/

/-- Filter state and outputs along an infinite input, independent of blocks. -/
def filtIter {R Z : Type} (step : Z → R → Z × R) (z0 : Z) (x : Nat → R) : Nat → Z
  | 0 => z0
  | n + 1 => (step (filtIter step z0 x n) (x n)).1

theorem filtRow_iter {R Z : Type} (step : Z → R → Z × R) (z0 : Z) (x : Nat → R) :
    ∀ n k, filtRow step (filtIter step z0 x k) ((List.range n).map fun j => x (k + j)) =
      (filtIter step z0 x (k + n), (List.range n).map fun j =>
        (step (filtIter step z0 x (k + j)) (x (k + j))).2) := by
  intro n
  induction n with
  | zero => intro k; simp [filtRow]
  | succ n ih =>
    intro k
    have := ih (k + 1)
    rw [List.range_succ_eq_map]
    simp only [List.map_cons, List.map_map, filtRow, Nat.add_zero]
    have e : (fun j => x (k + j)) ∘ Nat.succ = fun j => x (k + 1 + j) := by
      funext j; simp only [Function.comp]; congr 1; omega
    rw [e]
    have e2 : (step (filtIter step z0 x k) (x k)).1 = filtIter step z0 x (k + 1) := rfl
    rw [e2, this]
    simp only [Prod.mk.injEq]
    refine ⟨by congr 1; omega, ?_⟩
    congr 1
    refine List.map_congr_left fun j _ => ?_
    simp only [Function.comp]
    have : k + 1 + j = k + j.succ := by omega
    rw [this]

/-! ### Phases -/

theorem realMod_two_pi (x : ℝ) : ∃ k : ℤ, realMod x (2 * Real.pi) = x - k * (2 * Real.pi) := by
  refine ⟨⌊x / (2 * Real.pi)⌋, ?_⟩
  unfold realMod; ring

/-! ### Pulse train -/

theorem ratMod_eq_zero {x m : ℚ} (hm : m ≠ 0) : ratMod x m = 0 ↔ ∃ k : ℤ, x = k * m := by
  unfold ratMod
  constructor
  · intro h
    exact ⟨⌊x / m⌋, by linarith⟩
  · rintro ⟨k, rfl⟩
    rw [mul_div_assoc, div_self hm, mul_one, Int.floor_intCast]
    ring

/-! ### Shift register -/

/-- One step of the register in canonical position (read position 0). -/
def lfsrNext (taps : List Nat) (reg : List Bool) : List Bool :=
  reg.tail ++ [taps.foldl (fun f t => Bool.xor f (reg.getD (t % reg.length) false))
    (reg.getD 0 false)]

theorem getD_rotate (st : List Bool) (i j : Nat) (hj : j < st.length) :
    (st.rotate i).getD j false = st.getD ((j + i) % st.length) false := by
  have h1 : j < (st.rotate i).length := by simpa using hj
  have h2 : (j + i) % st.length < st.length := Nat.mod_lt _ (by omega)
  rw [List.getD_eq_getElem _ _ h1, List.getD_eq_getElem _ _ h2, List.getElem_rotate]

theorem foldl_congr_mem {α β : Type} {f g : β → α → β} : ∀ {l : List α} {b : β},
    (∀ b, ∀ a ∈ l, f b a = g b a) → l.foldl f b = l.foldl g b
  | [], _, _ => rfl
  | x :: xs, b, h => by
    rw [List.foldl_cons, List.foldl_cons, h b x (by simp)]
    exact foldl_congr_mem fun b a ha => h b a (by simp [ha])

theorem set_rotate_succ (st : List Bool) (idx : Nat) (h : idx < st.length) (v : Bool) :
    (st.set idx v).rotate ((idx + 1) % st.length) = (st.rotate idx).tail ++ [v] := by
  have e : ((st.set idx v).rotate ((idx + 1) % st.length)) = (st.set idx v).rotate (idx + 1) := by
    have := List.rotate_mod (st.set idx v) (idx + 1)
    simpa using this
  rw [e, List.rotate_eq_drop_append_take (by simpa using h), List.rotate_eq_drop_append_take h.le]
  rw [List.drop_set_of_lt (by omega), List.tail_append_of_ne_nil (by
    intro hh; rw [List.drop_eq_nil_iff] at hh; omega)]
  rw [List.tail_drop, List.append_assoc]
  congr 1
  rw [List.take_add_one]
  simp [h, List.take_set_of_le]

theorem lfsrStep_rotate (taps : List Nat) (st : List Bool) (idx : Nat) (h : idx < st.length) :
    (lfsrStep taps st.length st idx).1.rotate (lfsrStep taps st.length st idx).2.1 =
        lfsrNext taps (st.rotate idx) ∧
      (lfsrStep taps st.length st idx).2.2 = (st.rotate idx).getD 0 false ∧
      (lfsrStep taps st.length st idx).2.1 < st.length ∧
      (lfsrStep taps st.length st idx).1.length = st.length := by
  have h0 : (st.rotate idx).getD 0 false = st.getD idx false := by
    rw [getD_rotate _ _ _ (by omega), Nat.zero_add, Nat.mod_eq_of_lt h]
  refine ⟨?_, h0.symm, Nat.mod_lt _ (by omega), by simp [lfsrStep]⟩
  unfold lfsrStep lfsrNext
  simp only
  rw [set_rotate_succ _ _ h, h0]
  congr 2
  apply foldl_congr_mem
  intro b t _
  rw [List.length_rotate, getD_rotate _ _ _ (Nat.mod_lt _ (by omega))]
  simp

theorem lfsrRun_spec (taps : List Nat) : ∀ n (st : List Bool) (nb idx : Nat),
    st.length = nb → idx < nb →
    lfsrRun taps nb n st idx = ((lfsrNext taps)^[n] (st.rotate idx),
      (List.range n).map fun j => ((lfsrNext taps)^[j] (st.rotate idx)).getD 0 false) := by
  intro n
  induction n with
  | zero => intro st nb idx _ _; simp [lfsrRun]
  | succ n ih =>
    intro st nb idx hl hi
    subst hl
    obtain ⟨h1, h2, h3, h4⟩ := lfsrStep_rotate taps st idx hi
    simp only [lfsrRun]
    rw [ih _ _ _ h4 h3, h1, h2, List.range_succ_eq_map]
    simp [Function.comp_def]

theorem lfsrNext_length (taps : List Nat) (reg : List Bool) (h : 0 < reg.length) :
    (lfsrNext taps reg).length = reg.length := by
  simp [lfsrNext]; omega

theorem lfsrIter_length (taps : List Nat) (reg : List Bool) (h : 0 < reg.length) (n : Nat) :
    ((lfsrNext taps)^[n] reg).length = reg.length := by
  induction n with
  | zero => rfl
  | succ n ih => rw [Function.iterate_succ_apply', lfsrNext_length _ _ (by omega), ih]

theorem lfsrNext_getD (taps : List Nat) (reg : List Bool) (j : Nat) (h : j + 1 < reg.length) :
    (lfsrNext taps reg).getD j false = reg.getD (j + 1) false := by
  unfold lfsrNext
  have : j < reg.tail.length := by simp; omega
  rw [List.getD_append _ _ _ _ this]
  cases reg with
  | nil => simp at h
  | cons a l => simp

theorem lfsrIter_shift (taps : List Nat) (reg : List Bool) : ∀ j k, j < reg.length →
    ((lfsrNext taps)^[k] reg).getD j false = ((lfsrNext taps)^[k + j] reg).getD 0 false := by
  intro j
  induction j with
  | zero => intro k _; rfl
  | succ j ih =>
    intro k h
    have hl := lfsrIter_length taps reg (by omega) k
    rw [← lfsrNext_getD taps _ j (by omega), ← Function.iterate_succ_apply' (lfsrNext taps), ih (k + 1) (by omega)]
    congr 2
    omega

theorem zipIdx_range_map {R S : Type} (g : R → Nat → S) (f : Nat → R) (n : Nat) :
    (((List.range n).map f).zipIdx.map fun (x, c) => g x c) =
      (List.range n).map fun c => g (f c) c := by
  apply List.ext_getElem
  · simp
  · intro i h1 h2; simp

theorem zipWith_add_replicate (f : Nat → ℝ) (n : Nat) (l : List ℝ) (hl : l.length = n) :
    List.zipWith (· + ·) l ((List.range n).map f) =
      (List.range n).map fun i => l.getD i 0 + f i := by
  apply List.ext_getElem
  · simp [hl]
  · intro i h1 h2
    have : i < l.length := by simp at h2; omega
    simp [this]

theorem multiSineLoop_spec (a : ℝ) (n : Nat) : ∀ (sines : List (ℝ × ℝ)) (noise : List ℝ),
    noise.length = n →
    multiSineLoop a n sines noise =
      ((List.range n).map fun (i : Nat) => noise.getD i 0 +
          (sines.map fun q => a * Real.cos (i * q.1 + q.2)).sum,
        sines.map fun q => (q.1, realMod (q.2 + n * q.1) (2 * Real.pi))) := by
  intro sines
  induction sines with
  | nil =>
    intro noise h
    simp only [multiSineLoop, List.map_nil, List.sum_nil, add_zero, Prod.mk.injEq, and_true]
    apply List.ext_getElem
    · simp [h]
    · intro i h1 h2; simp [h1]
  | cons q rest ih =>
    intro noise h
    obtain ⟨w, p⟩ := q
    simp only [multiSineLoop]
    rw [ih _ (by simp [h]), zipWith_add_replicate _ _ _ h]
    simp only [List.map_cons, List.sum_cons, Prod.mk.injEq, and_true]
    refine List.map_congr_left fun i hi => ?_
    have hi' : i < n := by simpa using hi
    simp [hi', add_assoc]

theorem pulseLoop_spec {R : Type} [Zero R] : ∀ n (s : PulseSt R),
    pulseLoop n s = ({ chans := s.chans.map fun q => (q.1, q.2.1, q.2.2 + n) },
      (List.range n).map fun (i : Nat) => s.chans.map fun q =>
        if ratMod (q.2.2 + i) q.2.1 = 0 then q.1 else 0) := by
  intro n
  induction n with
  | zero => intro s; simp [pulseLoop]
  | succ n ih =>
    intro s
    simp only [pulseLoop]
    rw [ih, List.range_succ_eq_map]
    simp only [List.map_map, List.map_cons, Prod.mk.injEq, PulseSt.mk.injEq]
    refine ⟨List.map_congr_left fun q _ => ?_, ?_⟩
    · simp only [Function.comp, Prod.mk.injEq, true_and]; push_cast; ring
    · congr 1
      · refine List.map_congr_left fun q _ => ?_; simp
      · refine List.map_congr_left fun i _ => List.map_congr_left fun q _ => ?_
        simp only [Function.comp]
        push_cast
        rw [add_assoc, add_comm (1 : ℚ)]

theorem pyRoll_map {α : Type} (f : Nat → α) (L i : Nat) (hi : i < L) :
    pyRoll ((List.range L).map f) i = (List.range L).map fun k => f ((k + (L - i)) % L) := by
  unfold pyRoll
  apply List.ext_getElem
  · simp
  · intro j h1 h2
    rw [List.getElem_rotate]
    simp [Nat.mod_eq_of_lt hi]

end Verif

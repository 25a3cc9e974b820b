import Verif.Lemmas.Sources

/-! Properties C30 - C37 and C75, C76: signal sources. -/
namespace Verif

/-! ### Consequences of being a stream -/

/-- A source that delivers a stream gives the same samples for every way of
splitting the same number of samples into requests. -/
theorem C30_split_irrelevant {σ R : Type} {get : σ → Nat → Except PyErr (σ × List (List R))}
    {s0 : σ} {ch : Nat} {stream : Nat → Nat → R} (h : IsStream get s0 ch stream)
    (ns ms : List Nat) (hsum : ns.sum = ms.sum) {s1 s2 : σ} {b1 b2 : List (List (List R))}
    (h1 : runRequests get s0 ns = .ok (s1, b1)) (h2 : runRequests get s0 ms = .ok (s2, b2)) :
    joinBlocks ch b1 = joinBlocks ch b2 := by
  obtain ⟨_, e1⟩ := h ns
  obtain ⟨_, e2⟩ := h ms
  rw [h1] at e1
  rw [h2] at e2
  cases e1
  cases e2
  rw [joinBlocks_blocksOf, joinBlocks_blocksOf, hsum]

/-! ### C30 -/

/-- C30. A `Sequence` in repeat mode delivers `amp_factor` times the
periodically repeated audio, for every list of request sizes. -/
theorem C30_sequence_repeat {R : Type} [MulZeroClass R] (audio : List (List R)) (tot : Nat)
    (amp : R) (hrect : ∀ r ∈ audio, r.length = tot) (htot : 0 < tot) :
    IsStream SeqSt.get { audio := audio, totSamples := tot, amp := amp, mode := .repeat, cur := 0 }
      audio.length (fun c k => (audio.getD c []).getD (k % tot) 0 * amp) := by
  apply isStream_of_inv (fun k s => s =
    { audio := audio, totSamples := tot, amp := amp, mode := .repeat, cur := k % tot })
  · simp
  · rintro k s n rfl
    obtain ⟨bs, h1, h2⟩ := seq_play (fun c j => (audio.getD c []).getD j 0) audio.length tot htot k n
    rw [← rect_eq_map audio tot hrect] at h2
    refine ⟨_, ?_, rfl⟩
    simp only [SeqSt.get, h1, h2, scale2_blockOf, Int.toNat_natCast]

example : IsStream (R := Int) SeqSt.get
    { audio := [[1, 2, 3], [4, 5, 6]], totSamples := 3, amp := 10, mode := .repeat, cur := 0 } 2
    (fun c k => ([[1, 2, 3], [4, 5, 6]].getD c []).getD (k % 3) 0 * 10) :=
  C30_sequence_repeat _ _ _ (by simp) (by decide)

example : (runRequests (SeqSt.get (R := Int))
    { audio := [[1, 2, 3], [4, 5, 6]], totSamples := 3, amp := 10, mode := .repeat, cur := 0 }
    [2, 5]).toOption.map (·.2) =
    some [[[10, 20], [40, 50]], [[30, 10, 20, 30, 10], [60, 40, 50, 60, 40]]] := by decide

/-- An empty audio array makes the first non-empty request hang. -/
theorem C30_empty_audio_hangs {R : Type} [MulZeroClass R] (audio : List (List R)) (amp : R) (n : Nat)
    (hn : 0 < n) :
    SeqSt.get { audio := audio, totSamples := 0, amp := amp, mode := .repeat, cur := 0 } n =
      .error .diverges := by
  have : calcBlockSizes (n + 1) n 0 0 = none := calcLoop_zero_hang n (n + 1) 0 [] (by omega)
  simp [SeqSt.get, this]

/-! ### C31 -/

/-- C31, the part that holds: in raise mode, as long as strictly fewer samples
than the audio contains are requested in total, the samples are those of the
audio (NOT scaled by `amp_factor`).  Missing from the full claim: the last
sample and the scaling, see `C31_last_sample_violated`, `C31_amp_violated`. -/
theorem C31_sequence_raise_partial {R : Type} [MulZeroClass R] (audio : List (List R)) (tot : Nat)
    (amp : R) (hrect : ∀ r ∈ audio, r.length = tot) (ns : List Nat) (hns : ns.sum < tot) :
    runRequests SeqSt.get
        { audio := audio, totSamples := tot, amp := amp, mode := .raise, cur := 0 } ns =
      .ok ({ audio := audio, totSamples := tot, amp := amp, mode := .raise, cur := ns.sum },
        blocksOf (fun c k => (audio.getD c []).getD k 0) audio.length 0 ns) := by
  have key : ∀ ns k, k + ns.sum < tot → runRequests SeqSt.get
        { audio := audio, totSamples := tot, amp := amp, mode := .raise, cur := k } ns =
      .ok ({ audio := audio, totSamples := tot, amp := amp, mode := .raise, cur := k + ns.sum },
        blocksOf (fun c k => (audio.getD c []).getD k 0) audio.length k ns) := by
    intro ns
    induction ns with
    | nil => intro k _; simp [runRequests, blocksOf]
    | cons n ns ih =>
      intro k h
      simp only [List.sum_cons] at h
      have e : pySlice2 audio (k : Int) (k + n) =
          blockOf (fun c k => (audio.getD c []).getD k 0) audio.length k n := by
        conv_lhs => rw [rect_eq_map audio tot hrect]
        unfold pySlice2 blockOf
        rw [List.map_map]
        refine List.map_congr_left fun c _ => ?_
        simp only [Function.comp]
        rw [pySlice_range_map _ (by omega : k + n ≤ tot) rfl rfl]
      have hlt : ¬ (tot ≤ k + n) := by omega
      simp only [runRequests, SeqSt.get, ge_iff_le, hlt, if_false, e, ih (k + n) (by omega), blocksOf,
        List.sum_cons]
      simp [Nat.add_assoc]
  simpa using key ns 0 (by simpa using hns)

example : runRequests (SeqSt.get (R := Int))
    { audio := [[1, 2, 3]], totSamples := 3, amp := 10, mode := .raise, cur := 0 } [1, 1] =
    .ok ({ audio := [[1, 2, 3]], totSamples := 3, amp := 10, mode := .raise, cur := 2 },
      [[[1]], [[2]]]) := C31_sequence_raise_partial [[1, 2, 3]] 3 10 (by simp) [1, 1] (by decide)

/-- C31. When the request would reach the end of the audio, `StopIteration` is
raised. -/
theorem C31_raises_at_end {R : Type} [Mul R] [Zero R] (s : SeqSt R) (n : Nat) (hm : s.mode = .raise)
    (h : s.totSamples ≤ s.cur + n) : s.get n = .error .stopIteration := by
  simp [SeqSt.get, hm, h]

/-- C31 is violated: the last sample of any audio can never be obtained; asking
for exactly the whole audio raises. -/
theorem C31_last_sample_violated {R : Type} [Mul R] [Zero R] (audio : List (List R)) (tot : Nat)
    (amp : R) : SeqSt.get { audio := audio, totSamples := tot, amp := amp, mode := .raise, cur := 0 }
      tot = .error .stopIteration :=
  C31_raises_at_end _ _ rfl (by simp)

/-- C31 is violated: the amplitude factor is ignored in raise mode. -/
theorem C31_amp_violated : ∃ (s : SeqSt Int), s.mode = .raise ∧ s.amp = 2 ∧ s.audio = [[1, 1]] ∧
    (s.get 1).toOption.map (·.2) = some [[1]] :=
  ⟨{ audio := [[1, 1]], totSamples := 2, amp := 2, mode := .raise, cur := 0 }, rfl, rfl, rfl,
    by decide⟩

/-! ### C32 -/

/-- C32. White noise: channel `c` of absolute sample `k` is the standard
deviation times draw number `k*channels + c`, for every list of requests. -/
theorem C32_white_noise {R : Type} [Mul R] (ch : Nat) (std : Nat → R) (z : Nat → R) (p : Nat) :
    IsStream WhiteSt.get { ch := ch, std := std, rng := { z := z, pos := p } } ch
      (fun c k => std c * z (p + (k * ch + c))) := by
  apply isStream_of_inv (fun k s => s = { ch := ch, std := std, rng := { z := z, pos := p + k * ch } })
  · simp
  · rintro k s n rfl
    refine ⟨{ ch := ch, std := std, rng := { z := z, pos := p + k * ch + n * ch } }, ?_, ?_⟩
    · simp only [WhiteSt.get, Rng.normal, List.map_map]
      have e : ((List.range n).map ((fun row : List R => row.zipIdx.map fun (x, c) => std c * x) ∘
          fun i => (List.range ch).map fun j => z (p + k * ch + i * ch + j))) =
          (List.range n).map fun i => (List.range ch).map fun c =>
            std c * z (p + ((k + i) * ch + c)) := by
        refine List.map_congr_left fun i _ => ?_
        simp only [Function.comp]
        rw [zipIdx_range_map (fun x c => std c * x)]
        refine List.map_congr_left fun c _ => ?_
        congr 2; ring
      rw [e, transposeT_cols ch n (fun c i => std c * z (p + ((k + i) * ch + c)))]
      rfl
    · congr 2; ring

example : (runRequests (WhiteSt.get (R := Nat))
    { ch := 2, std := fun c => c + 1, rng := { z := fun n => n + 10, pos := 0 } }
    [1, 2]).toOption.map (·.2) = some [[[10], [22]], [[12, 14], [26, 30]]] := by decide

/-! ### C33 -/

/-- C33, the part that holds: a single channel of filtered noise (bandlimited
or autoregressive) is a stream: filter output number `k` for the scaled draws
`p, p+1, ...`.  Missing: more than one channel, see `C33_two_channels_violated`. -/
theorem C33_filtered_noise_partial {R Z : Type} [Mul R] (scale : Nat → R)
    (step : Nat → Z → R → Z × R) (z0 : Z) (z : Nat → R) (p : Nat) :
    ∃ zs : Nat → Z, zs 0 = z0 ∧ (∀ k, zs (k + 1) = (step 0 (zs k) (scale 0 * z (p + k))).1) ∧
      IsStream FiltNoiseSt.get
        { scale := scale, step := step, zi := [z0], rng := { z := z, pos := p } } 1
        (fun _ k => (step 0 (zs k) (scale 0 * z (p + k))).2) := by
  refine ⟨filtIter (step 0) z0 (fun k => scale 0 * z (p + k)), rfl, fun _ => rfl, ?_⟩
  apply isStream_of_inv (fun k s => s =
    { scale := scale, step := step, zi := [filtIter (step 0) z0 (fun k => scale 0 * z (p + k)) k],
      rng := { z := z, pos := p + k } })
  · rfl
  · rintro k s n rfl
    have := filtRow_iter (step 0) z0 (fun k => scale 0 * z (p + k)) n k
    refine ⟨_, ?_, rfl⟩
    simp only [FiltNoiseSt.get, Rng.normal, List.length_singleton, List.range_one, List.map_cons,
      List.map_nil, List.zip_cons_cons, List.zip_nil_right, List.zipIdx_cons, List.zipIdx_nil,
      List.map_map, Function.comp_def, Nat.zero_mul, Nat.zero_add, Nat.one_mul, Nat.add_assoc] at this ⊢
    rw [this]
    simp [blockOf]

example : (runRequests (FiltNoiseSt.get (R := Int) (Z := Int))
    { scale := fun _ => 1, step := fun _ z x => (z + x, z + x), zi := [5],
      rng := { z := fun n => n, pos := 1 } } [1, 2]).toOption.map (·.2) =
    some [[[6]], [[8, 11]]] := by decide

/-- C33 is violated with two channels: whenever the first filter output depends
injectively on its input and the draws 1 and 2 differ after scaling, the
samples depend on how requests are split, so there is no stream at all. -/
theorem C33_two_channels_violated {R Z : Type} [Mul R] (scale : Nat → R)
    (step : Nat → Z → R → Z × R) (z0 z1 : Z) (z : Nat → R) (p : Nat)
    (hinj : Function.Injective fun x => (step 1 z1 x).2)
    (hz : scale 1 * z (p + 1) ≠ scale 1 * z (p + 2)) :
    ¬ ∃ stream, IsStream FiltNoiseSt.get
        { scale := scale, step := step, zi := [z0, z1], rng := { z := z, pos := p } } 2 stream := by
  rintro ⟨stream, h⟩
  obtain ⟨_, h1⟩ := h [1]
  obtain ⟨_, h2⟩ := h [2]
  have e1 := congrArg (fun r => r.toOption.map fun q => ((q.2.getD 0 []).getD 1 []).getD 0 ((step 1 z1 (scale 1 * z (p+1))).2)) h1
  have e2 := congrArg (fun r => r.toOption.map fun q => ((q.2.getD 0 []).getD 1 []).getD 0 ((step 1 z1 (scale 1 * z (p+1))).2)) h2
  simp [runRequests, FiltNoiseSt.get, Rng.normal, filtRow, blocksOf, blockOf, Except.toOption,
    List.range_succ] at e1 e2
  rw [← e2] at e1
  exact hz (hinj e1)

example : ¬ ∃ stream, IsStream (R := Int) FiltNoiseSt.get
    { scale := fun _ => 1, step := fun _ (z : Int) x => (x, z + x), zi := [0, 0],
      rng := { z := fun n => n, pos := 0 } } 2 stream :=
  C33_two_channels_violated _ _ _ _ _ _ (fun a b h => by simpa using h) (by decide)

/-! ### C34 -/

/-- C34. `SineSource` delivers `sqrt(2*power) * cos(w*n + phase)` at absolute
sample `n`, with `w = 2*pi*freq/samplerate`, for every list of requests. -/
theorem C34_sine (power freq samplerate : ℝ) (phase : List ℝ) :
    IsStream SineSt.get (SineSt.init power freq samplerate phase) phase.length
      (fun c k => Real.sqrt (2 * power) *
        Real.cos (2 * Real.pi * freq / samplerate * k + phase.getD c 0)) := by
  apply isStream_of_inv (fun k s => s.amplitude = Real.sqrt (2 * power) ∧
    s.pps = 2 * Real.pi * freq / samplerate ∧ s.phase.length = phase.length ∧
    ∀ c, c < phase.length → ∃ m : ℤ, s.phase.getD c 0 =
      phase.getD c 0 + k * (2 * Real.pi * freq / samplerate) - m * (2 * Real.pi))
  · exact ⟨rfl, rfl, rfl, fun c _ => ⟨0, by simp [SineSt.init]⟩⟩
  · rintro k ⟨a, w, ph⟩ n ⟨rfl, rfl, hl, hph⟩
    simp only at hl hph
    refine ⟨{ amplitude := Real.sqrt (2 * power), pps := 2 * Real.pi * freq / samplerate, phase := ph.map fun p => realMod (p + n * (2 * Real.pi * freq / samplerate)) (2 * Real.pi) }, ?_, rfl, rfl, by simpa using hl, ?_⟩
    · simp only [SineSt.get]
      congr 2
      unfold blockOf
      apply List.ext_getElem
      · simp [hl]
      · intro c h1 h2
        simp only [List.getElem_map, List.getElem_range]
        refine List.map_congr_left fun i _ => ?_
        have hc : c < phase.length := by simpa using h2
        obtain ⟨m, hm⟩ := hph c hc
        have hc' : c < ph.length := by omega
        rw [List.getD_eq_getElem _ _ hc'] at hm
        rw [hm]
        have := Real.cos_sub_int_mul_two_pi
          (2 * Real.pi * freq / samplerate * (k + i : ℕ) + phase.getD c 0) m
        rw [← this]
        push_cast
        ring_nf
    · intro c hc
      obtain ⟨m, hm⟩ := hph c hc
      have hc' : c < ph.length := by omega
      obtain ⟨m', hm'⟩ := realMod_two_pi (ph[c] + n * (2 * Real.pi * freq / samplerate))
      refine ⟨m + m', ?_⟩
      rw [List.getD_eq_getElem _ _ hc'] at hm
      rw [List.getD_eq_getElem _ _ (by simpa using hc'), List.getElem_map, hm', hm]
      push_cast
      ring

/-- C34. `MultiSineSource` delivers the sum over the frequencies of
`sqrt(2*power/count) * cos(w_i*n + phase_i)` at absolute sample `n`, for every
list of requests. -/
theorem C34_multisine (power samplerate : ℝ) (sines : List (ℝ × ℝ)) :
    IsStream MultiSineSt.get (MultiSineSt.init power samplerate sines) 1
      (fun _ k => (sines.map fun q => Real.sqrt (2 * power / sines.length) *
        Real.cos (2 * Real.pi * q.1 / samplerate * k + q.2)).sum) := by
  apply isStream_of_inv (fun k s => s.amplitude = Real.sqrt (2 * power / sines.length) ∧
    List.Forall₂ (fun (q r : ℝ × ℝ) => r.1 = 2 * Real.pi * q.1 / samplerate ∧
      ∃ m : ℤ, r.2 = q.2 + k * (2 * Real.pi * q.1 / samplerate) - m * (2 * Real.pi)) sines s.sines)
  · refine ⟨rfl, ?_⟩
    simp only [MultiSineSt.init]
    rw [List.forall₂_map_right_iff]
    exact List.forall₂_same.2 fun q _ => ⟨rfl, 0, by simp⟩
  · rintro k ⟨a, ss⟩ n ⟨rfl, hss⟩
    simp only at hss
    refine ⟨⟨Real.sqrt (2 * power / sines.length),
      ss.map fun q => (q.1, realMod (q.2 + n * q.1) (2 * Real.pi))⟩, ?_, rfl, ?_⟩
    · simp only [MultiSineSt.get]
      rw [multiSineLoop_spec _ _ _ _ (by simp)]
      congr 2
      simp only [blockOf, List.range_one, List.map_cons, List.map_nil, List.cons.injEq, and_true]
      refine List.map_congr_left fun i hi => ?_
      have hi' : i < n := by simpa using hi
      simp only [List.getD_replicate _ hi', zero_add]
      congr 1
      clear hi hi'
      generalize Real.sqrt (2 * power / sines.length) = a
      induction hss with
      | nil => rfl
      | cons h _ ih =>
        obtain ⟨h1, m, h2⟩ := h
        simp only [List.map_cons, ih, List.cons.injEq, and_true]
        rw [h1, h2]
        congr 1
        rename_i q r _ _ _
        have := Real.cos_sub_int_mul_two_pi
          (2 * Real.pi * q.1 / samplerate * (k + i : ℕ) + q.2) m
        rw [← this]
        push_cast
        ring_nf
    · rw [List.forall₂_map_right_iff]
      refine hss.imp ?_
      rintro q r ⟨h1, m, h2⟩
      refine ⟨h1, ?_⟩
      obtain ⟨m', hm'⟩ := realMod_two_pi (r.2 + n * r.1)
      refine ⟨m + m', ?_⟩
      rw [hm', h2, h1]
      push_cast
      ring

/-- C34. No sample that `SineSource` ever delivers exceeds the amplitude `sqrt(2*power)`, and
no sample of `MultiSineSource` exceeds the sum of the amplitudes of its sines. -/
theorem C34_sine_bound (power freq samplerate : ℝ) (phase : List ℝ) (sines : List (ℝ × ℝ)) :
    (∃ stream, IsStream SineSt.get (SineSt.init power freq samplerate phase) phase.length stream ∧
      ∀ c k, |stream c k| ≤ Real.sqrt (2 * power)) ∧
    ∃ stream, IsStream MultiSineSt.get (MultiSineSt.init power samplerate sines) 1 stream ∧
      ∀ c k, |stream c k| ≤ sines.length * Real.sqrt (2 * power / sines.length) := by
  have hb : ∀ a x : ℝ, 0 ≤ a → |a * Real.cos x| ≤ a := fun a x ha => by
    rw [abs_mul, abs_of_nonneg ha]
    exact mul_le_of_le_one_right ha (Real.abs_cos_le_one _)
  refine ⟨⟨_, C34_sine power freq samplerate phase, fun c k => hb _ _ (Real.sqrt_nonneg _)⟩,
    _, C34_multisine power samplerate sines, fun _ k => ?_⟩
  have hn := Real.sqrt_nonneg (2 * power / sines.length)
  generalize Real.sqrt (2 * power / sines.length) = a at hn ⊢
  clear power
  induction sines with
  | nil => simp
  | cons q l ih =>
    simp only [List.map_cons, List.sum_cons, List.length_cons]
    refine (abs_add_le _ _).trans ?_
    have := hb a (2 * Real.pi * q.1 / samplerate * k + q.2) hn
    push_cast
    linarith

/-! ### C35 -/

/-- C35. Pulse train with positive periods: channel `c` has its amplitude at
absolute sample `n` exactly when `n - delay` is an integer multiple of the
period, and zero otherwise, for every list of requests. -/
theorem C35_pulse_train {R : Type} [Zero R] (chans : List (R × ℚ × ℚ))
    (hp : ∀ q ∈ chans, 0 < q.2.1) :
    ∃ stream : Nat → Nat → R, IsStream PulseSt.get (PulseSt.init chans) chans.length stream ∧
      ∀ c (hc : c < chans.length) (k : Nat),
        ((∃ m : ℤ, (k : ℚ) - chans[c].2.2 = m * chans[c].2.1) → stream c k = chans[c].1) ∧
        ((¬ ∃ m : ℤ, (k : ℚ) - chans[c].2.2 = m * chans[c].2.1) → stream c k = 0) := by
  refine ⟨fun c k => ((chans[c]?).map fun q =>
    if ratMod (0 - q.2.2 + k) q.2.1 = 0 then q.1 else 0).getD 0, ?_, ?_⟩
  · apply isStream_of_inv (fun k s => s = { chans := chans.map fun q => (q.1, q.2.1, 0 - q.2.2 + k) })
    · simp [PulseSt.init]
    · rintro k s n rfl
      refine ⟨{ chans := chans.map fun q => (q.1, q.2.1, 0 - q.2.2 + (k + n : ℕ)) }, ?_, rfl⟩
      simp only [PulseSt.get]
      rw [pulseLoop_spec]
      simp only [List.map_map, List.length_map]
      congr 2
      · congr 1
        refine List.map_congr_left fun q _ => ?_
        simp only [Function.comp, Prod.mk.injEq, true_and]; push_cast; ring
      · have e : ((List.range n).map fun (i : Nat) => chans.map ((fun q : R × ℚ × ℚ =>
            if ratMod (q.2.2 + i) q.2.1 = 0 then q.1 else 0) ∘
            fun q => (q.1, q.2.1, 0 - q.2.2 + k))) =
            (List.range n).map fun i => (List.range chans.length).map fun c =>
              ((chans[c]?).map fun q =>
                if ratMod (0 - q.2.2 + (k + i : ℕ)) q.2.1 = 0 then q.1 else 0).getD 0 := by
          refine List.map_congr_left fun i _ => ?_
          apply List.ext_getElem
          · simp
          · intro c h1 h2
            have hc : c < chans.length := by simpa using h2
            simp only [List.getElem_map, Function.comp, List.getElem_range,
              List.getElem?_eq_getElem hc, Option.map_some, Option.getD_some]
            push_cast
            rw [add_assoc]
        rw [e, transposeT_cols chans.length n (fun c i => ((chans[c]?).map fun q =>
                if ratMod (0 - q.2.2 + (k + i : ℕ)) q.2.1 = 0 then q.1 else 0).getD 0)]
        rfl
  · intro c hc k
    have hne : chans[c].2.1 ≠ 0 := (hp _ (List.getElem_mem hc)).ne'
    have e : (0 - chans[c].2.2 + (k : ℚ)) = k - chans[c].2.2 := by ring
    simp only [List.getElem?_eq_getElem hc, Option.map_some, Option.getD_some]
    rw [e]
    constructor
    · intro h; rw [if_pos ((ratMod_eq_zero hne).2 h)]
    · intro h; rw [if_neg fun h' => h ((ratMod_eq_zero hne).1 h')]

example : ∃ stream : Nat → Nat → Int,
    IsStream PulseSt.get (PulseSt.init [(7, 4, 1), (9, 3, 0)]) 2 stream ∧
    stream 0 5 = 7 ∧ stream 0 6 = 0 ∧ stream 1 6 = 9 := by
  obtain ⟨stream, h1, h2⟩ := C35_pulse_train [((7 : Int), (4 : ℚ), (1 : ℚ)), (9, 3, 0)]
    (by intro q hq; simp at hq; rcases hq with rfl | rfl <;> norm_num)
  refine ⟨stream, h1, (h2 0 (by decide) 5).1 ⟨1, by norm_num⟩, (h2 0 (by decide) 6).2 ?_,
    (h2 1 (by decide) 6).1 ⟨2, by norm_num⟩⟩
  rintro ⟨m, hm⟩
  norm_num at hm
  have h : (5 : ℤ) = m * 4 := by exact_mod_cast hm
  omega

/-! ### C36 -/

/-- C36. `Counter` delivers `start, start+1, ...` for every list of requests. -/
theorem C36_counter (start : Int) :
    IsStream counterGet start 1 (fun _ k => start + k) := by
  apply isStream_of_inv (fun k s => s = start + k)
  · simp
  · rintro k s n rfl
    refine ⟨_, ?_, rfl⟩
    simp only [counterGet, blockOf, List.range_one, List.map_cons, List.map_nil]
    push_cast
    simp [add_assoc]

example : (runRequests counterGet 5 [2, 3]).toOption.map (·.2) =
    some [[[5, 6]], [[7, 8, 9]]] := by decide

/-- C36. More than one channel is refused by the constructor. -/
theorem C36_counter_init (ch : Nat) (start : Int) :
    counterInit ch start = if ch ≤ 1 then .ok start else .error .notImplemented := by
  unfold counterInit
  split_ifs <;> first | rfl | omega

/-! ### C75: MLS -/

/-- C75 without a start state (or with the state of ones): `MLS` delivers, for every list
of requests, the values `±1` of the binary sequence that starts with `order` ones and
satisfies the linear recurrence given by the taps.  Missing: other start states, see
`C75_violated_state`. -/
theorem C75_mls_partial (order : Nat) (taps : List Nat) (ho : 0 < order) :
    ∃ b : Nat → Bool, (∀ k, k < order → b k = true) ∧
      (∀ k, b (k + order) = taps.foldl (fun f t => Bool.xor f (b (k + t % order))) (b k)) ∧
      IsStream MlsSt.get (MlsSt.init order taps) 1 (fun _ k => if b k then 1 else -1) := by
  have hl : (List.replicate order true).length = order := by simp
  refine ⟨fun k => ((lfsrNext taps)^[k] (List.replicate order true)).getD 0 false, ?_, ?_, ?_⟩
  · intro k hk
    have := lfsrIter_shift taps (List.replicate order true) k 0 (by omega)
    simp only [Nat.zero_add] at this
    show ((lfsrNext taps)^[k] (List.replicate order true)).getD 0 false = true
    rw [← this]
    simp [hk]
  · intro k
    simp only
    obtain ⟨o, rfl⟩ : ∃ o, order = o + 1 := ⟨order - 1, by omega⟩
    have hlen := lfsrIter_length taps (List.replicate (o + 1) true) (by simp) k
    have e : k + (o + 1) = (k + 1) + o := by omega
    rw [e, ← lfsrIter_shift taps _ o (k + 1) (by simp), Function.iterate_succ_apply']
    have ht : ((lfsrNext taps)^[k] (List.replicate (o + 1) true)).tail.length = o := by
      rw [List.length_tail, hlen]; simp
    rw [show ∀ r, lfsrNext taps r = r.tail ++ [taps.foldl (fun f t => Bool.xor f
      (r.getD (t % r.length) false)) (r.getD 0 false)] from fun _ => rfl,
      List.getD_append_right _ _ _ _ (by omega), ht, Nat.sub_self]
    simp only [List.getD_cons_zero]
    apply foldl_congr_mem
    intro f t _
    rw [hlen, hl]
    congr 1
    exact lfsrIter_shift taps _ (t % (o + 1)) k (by rw [hl]; exact Nat.mod_lt _ (by omega))
  · apply isStream_of_inv (fun k s => s =
      { taps := taps, state := (lfsrNext taps)^[k] (List.replicate order true) })
    · rfl
    · rintro k s n rfl
      refine ⟨_, ?_, rfl⟩
      have hlen := lfsrIter_length taps (List.replicate order true) (by simpa using ho) k
      simp only [MlsSt.get]
      rw [lfsrRun_spec taps n _ _ 0 rfl (by rw [hlen]; simpa using ho), List.rotate_zero,
        ← Function.iterate_add_apply, Nat.add_comm n k]
      congr 2
      simp only [blockOf, List.range_one, List.map_cons, List.map_nil, List.map_map,
        List.cons.injEq, and_true]
      refine List.map_congr_left fun i _ => ?_
      simp only [Function.comp, ← Function.iterate_add_apply, Nat.add_comm i k]
      split_ifs <;> simp

/-- C75 is violated for start states other than ones: whatever the state, the sequence
starts with `order` ones instead of the bits of the state. -/
theorem C75_violated_state (order : Nat) (taps : List Nat) (state : List Bool) (hl : state.length = order)
    (hne : false ∈ state) (b : Nat → Bool)
    (h : IsStream MlsSt.get (MlsSt.init order taps (some state)) 1 (fun _ k => if b k then 1 else -1)) :
    ¬ ∀ k < order, state[k]? = some (b k) := by
  intro hb
  obtain ⟨k, hk, e⟩ := List.getElem_of_mem hne
  obtain ⟨b', h1, -, h'⟩ := C75_mls_partial order taps (by omega)
  obtain ⟨s, e1⟩ := h [order]
  obtain ⟨s', e2⟩ := h' [order]
  have : MlsSt.init order taps (some state) = MlsSt.init order taps := rfl
  rw [this, e2] at e1
  simp only [Except.ok.injEq, Prod.mk.injEq, blocksOf, List.cons.injEq, and_true] at e1
  have e3 := congrArg (fun m => (m.getD 0 []).getD k 0) e1.2
  have hko : k < order := by omega
  simp [blockOf, hko, h1 k hko] at e3
  have := hb k hko
  rw [List.getElem?_eq_getElem hk, e] at this
  simp only [Option.some.injEq] at this
  rw [← this] at e3
  simp at e3

example : (runRequests MlsSt.get (MlsSt.init 3 [2]) [3, 4]).toOption.map (·.2) =
    some [[[1, 1, 1]], [[-1, 1, -1, -1]]] := by decide

/-! ### C37: Gold sequences -/

theorem mls_first (order : Nat) (taps : List Nat) (ho : 0 < order) (n : Nat) :
    ∃ b : Nat → Bool, IsStream MlsSt.get (MlsSt.init order taps) 1 (fun _ k => if b k then 1 else -1) ∧
      ∃ s, (MlsSt.init order taps).get n = .ok (s, [(List.range n).map fun k => if b k then 1 else -1]) := by
  obtain ⟨b, _, _, h⟩ := C75_mls_partial order taps ho
  refine ⟨b, h, ?_⟩
  obtain ⟨s', h'⟩ := h [n]
  simp only [runRequests, blocksOf, blockOf, List.range_one, List.map_cons, List.map_nil,
    Nat.zero_add] at h'
  split at h'
  · cases h'
  · rename_i s2 b2 heq
    refine ⟨s2, ?_⟩
    simp only [Except.ok.injEq, Prod.mk.injEq, List.cons.injEq, and_true] at h'
    rw [heq, h'.2]

/-- C37. For orders 5 to 11 the constructor succeeds (if the number of channels
is at most the sequence length) and, for every list of requests, channel `c`
of absolute sample `k` is `-m1[k mod L] * m2[(k mod L) - c mod L] * sqrt(power)`
with `L = 2^order - 1` and `m1`, `m2` the two MLS streams of the preferred
pair. -/
theorem C37_gold (numChannels order : Nat) (power : ℝ) (h5 : 5 ≤ order) (h11 : order ≤ 11)
    (hch : numChannels ≤ 2 ^ order - 1) :
    ∃ (st : GoldSt) (t1 t2 : List Nat) (b1 b2 : Nat → Bool), GoldSt.init numChannels power order = .ok st ∧
      preferredSequences order = some (t1, t2) ∧
      IsStream MlsSt.get (MlsSt.init order t1) 1 (fun _ k => if b1 k then 1 else -1) ∧
      IsStream MlsSt.get (MlsSt.init order t2) 1 (fun _ k => if b2 k then 1 else -1) ∧
      IsStream GoldSt.get st numChannels (fun c k =>
        ((-((if b1 (k % (2 ^ order - 1)) then 1 else -1) *
          (if b2 ((k % (2 ^ order - 1) + (2 ^ order - 1 - c)) % (2 ^ order - 1)) then 1 else -1)) : Int) : ℝ)
          * Real.sqrt power) := by
  have hp : 2 ≤ 2 ^ order := by
    calc 2 = 2 ^ 1 := by norm_num
      _ ≤ 2 ^ order := Nat.pow_le_pow_right (by omega) (by omega)
  obtain ⟨L, hL⟩ : ∃ L, L = 2 ^ order - 1 := ⟨_, rfl⟩
  have hL0 : 0 < L := by omega
  rw [← hL] at hch ⊢
  obtain ⟨⟨t1, t2⟩, ht⟩ : ∃ p, preferredSequences order = some p := by
    have : order = 5 ∨ order = 6 ∨ order = 7 ∨ order = 8 ∨ order = 9 ∨ order = 10 ∨ order = 11 := by
      omega
    rcases this with rfl | rfl | rfl | rfl | rfl | rfl | rfl <;> exact ⟨_, rfl⟩
  obtain ⟨b1, hs1, _, hg1⟩ := mls_first order t1 (by omega) L
  obtain ⟨b2, hs2, _, hg2⟩ := mls_first order t2 (by omega) L
  let aud : Nat → Nat → ℝ := fun c k => ((-((if b1 k then 1 else -1) *
          (if b2 ((k + (L - c)) % L) then 1 else -1)) : Int) : ℝ)
  refine ⟨⟨(List.range numChannels).map fun c => (List.range L).map (aud c), L, Real.sqrt power, 0⟩,
    t1, t2, b1, b2, ?_, ht, hs1, hs2, ?_⟩
  · have hassert : ¬ ¬ (numChannels : Int) ≤ 2 ^ order - 1 := by
      have : ((2 ^ order : Nat) : Int) = 2 ^ order := by push_cast; rfl
      omega
    unfold GoldSt.init
    rw [if_neg hassert, if_pos ⟨h5, h11⟩, ht]
    simp only [← hL, hg1, hg2]
    congr 2
    refine List.map_congr_left fun c hc => ?_
    have hc' : c < L := by have : c < numChannels := by simpa using hc
                           omega
    rw [pyRoll_map _ _ _ hc', List.zipWith_map, List.zipWith_self, List.map_map]
    rfl
  · apply isStream_of_inv (fun k s => s =
      ⟨(List.range numChannels).map fun c => (List.range L).map (aud c), L, Real.sqrt power, k % L⟩)
    · simp
    · rintro k s n rfl
      obtain ⟨bs, h1, h2⟩ := seq_play aud numChannels L hL0 k n
      refine ⟨_, ?_, rfl⟩
      have hl : ((List.range numChannels).map fun c => (List.range L).map (aud c)).length =
        numChannels := by simp
      simp only [GoldSt.get, h1, hl, h2, scale2_blockOf, Int.toNat_natCast]
      rfl

example : ∃ (st : GoldSt) (t1 t2 : List Nat) (b1 b2 : Nat → Bool), GoldSt.init 3 2.5 6 = .ok st ∧
      preferredSequences 6 = some (t1, t2) ∧
      IsStream MlsSt.get (MlsSt.init 6 t1) 1 (fun _ k => if b1 k then 1 else -1) ∧
      IsStream MlsSt.get (MlsSt.init 6 t2) 1 (fun _ k => if b2 k then 1 else -1) ∧
      IsStream GoldSt.get st 3 (fun c k =>
        ((-((if b1 (k % (2 ^ 6 - 1)) then 1 else -1) *
          (if b2 ((k % (2 ^ 6 - 1) + (2 ^ 6 - 1 - c)) % (2 ^ 6 - 1)) then 1 else -1)) : Int) : ℝ)
          * Real.sqrt 2.5) := C37_gold 3 6 2.5 (by decide) (by decide) (by decide)

/-- C37. Whatever the request sizes, every sample has absolute value
`sqrt(power)` and the stream repeats after `2^order - 1` samples. -/
theorem C37_gold_power_period (numChannels order : Nat) (power : ℝ) (h5 : 5 ≤ order)
    (h11 : order ≤ 11) (hch : numChannels ≤ 2 ^ order - 1) :
    ∃ st stream, GoldSt.init numChannels power order = .ok st ∧
      IsStream GoldSt.get st numChannels stream ∧
      (∀ c k, |stream c k| = Real.sqrt power) ∧
      (∀ c k, stream c (k + (2 ^ order - 1)) = stream c k) := by
  obtain ⟨st, t1, t2, b1, b2, h1, _, _, _, h2⟩ := C37_gold numChannels order power h5 h11 hch
  refine ⟨st, _, h1, h2, fun c k => ?_, fun c k => ?_⟩
  · rw [abs_mul, abs_of_nonneg (Real.sqrt_nonneg _)]
    have : ∀ x y : Bool, |(((-((if x then 1 else -1) * (if y then 1 else -1)) : Int)) : ℝ)| = 1 := by
      intro x y; cases x <;> cases y <;> simp
    rw [this, one_mul]
  · simp only [Nat.add_mod_right]

/-- Outside orders 5 to 11 the constructor never succeeds: with too many channels or
an even order above 11 it asserts, with an odd one a function of the package is
missing, and below 5 nothing has been generated yet. -/
theorem C37_gold_orders (numChannels order : Nat) (power : ℝ) (h : order < 5 ∨ 11 < order) :
    (2 ^ order ≤ numChannels → GoldSt.init numChannels power order = .error .assertion) ∧
    (numChannels < 2 ^ order → 11 < order → GoldSt.init numChannels power order =
      .error (if order % 2 = 1 then .attribute else .assertion)) ∧
    (0 < numChannels → numChannels < 2 ^ order → order < 5 → GoldSt.init numChannels power order = .error .unbound) := by
  have h1 : ¬ (5 ≤ order ∧ order ≤ 11) := by omega
  refine ⟨fun hn => ?_, fun hn ho => ?_, fun h0 hn ho => ?_⟩
  · unfold GoldSt.init
    have : ¬ (numChannels : Int) ≤ 2 ^ order - 1 := by
      have : ((2 ^ order : Nat) : Int) ≤ numChannels := by exact_mod_cast hn
      push_cast at this
      omega
    rw [if_pos this]
  · unfold GoldSt.init
    have : (numChannels : Int) ≤ 2 ^ order - 1 := by
      have : (numChannels : Int) < ((2 ^ order : Nat) : Int) := by exact_mod_cast hn
      push_cast at this
      omega
    rw [if_neg (not_not.2 this), if_neg h1, if_pos ho]
    split <;> rfl
  · unfold GoldSt.init
    have : (numChannels : Int) ≤ 2 ^ order - 1 := by
      have : (numChannels : Int) < ((2 ^ order : Nat) : Int) := by exact_mod_cast hn
      push_cast at this
      omega
    rw [if_neg (not_not.2 this), if_neg h1, if_neg (by omega), if_neg (by omega)]

end Verif

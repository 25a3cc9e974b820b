/-
C113: directional microphones.  C114: the cardioid made of two omnidirectional microphones.
-/
import Verif.Model.Directional
import Verif.Model.Rir
import Verif.Props.Points
import Mathlib.Analysis.SpecialFunctions.Complex.Circle
import Mathlib.Analysis.SpecialFunctions.Trigonometric.Bounds
import Mathlib.Tactic.LinearCombination
namespace Verif

/-! ### C113 -/

section
variable {R Pt G : Type} [Zero R] [One R]

/-- **C113** is violated with image sources: whenever an array accepts a directivity other than
"omni" for one of its microphones, generating its impulse responses raises. -/
theorem C113_violated_ism {num : Nat} {types : Option (List String)} {dirs : Option (List (ℝ × ℝ × ℝ))}
    {ts : List String} {ds : Option (List (ℝ × ℝ × ℝ))} (h : arrayDirectivity num types dirs = .ok (ts, ds))
    (hne : ∃ t ∈ ts, t ≠ "omni") (c : RirCfg R Pt G) (hd : c.dims = 3) (g : G) (src mic : Arr Pt)
    (hn : mic.pos.length = num) (ho : mic.omni = allOmni ts) :
    createPath c g src.geo mic.geo "ism" = .error .notImplemented := by
  obtain ⟨t, ht, hto⟩ := hne
  have h0 : allOmni ts = false := by
    unfold allOmni
    rw [List.all_eq_false]
    exact ⟨t, ht, by simpa using hto⟩
  have hts : ts.length = num := by
    unfold arrayDirectivity at h
    split at h
    · cases h; simp
    · split at h
      · rename_i hc
        cases h; exact hc.1
      · cases h
    · cases h
  have hp : 0 < mic.pos.length := by
    rw [hn, ← hts]; exact List.length_pos_of_mem ht
  have hp' : 0 < mic.geo.pos.length := hp
  have hloop : ∀ fuel, 0 < fuel → ∀ ir, ismLoop c src.geo mic.geo fuel 0 g ir = .error .notImplemented := by
    intro fuel hf ir
    obtain ⟨k, rfl⟩ : ∃ k, fuel = k + 1 := ⟨fuel - 1, by omega⟩
    unfold ismLoop
    rw [if_neg (show ¬ mic.geo.pos.length ≤ 0 by show ¬ mic.pos.length ≤ 0; omega)]
    dsimp only
    rw [if_pos (show mic.geo.omni = false by show mic.omni = false; rw [ho, h0])]
  unfold createPath ismPath
  simp only [show ("ism" = "none") = False by decide, show ("ism" = "direct") = False by decide,
    show ("ism" = "random") = False by decide, if_false, if_true, hd, hloop _ hp']

omit [Zero R] [One R] in
/-- **C113** What an array accepts: without arguments all its elements are omnidirectional; otherwise both types and
directions must be given, one of each for every element, with known types and directions of length one. -/
theorem C113_accepted {num : Nat} {types : Option (List String)} {dirs : Option (List (ℝ × ℝ × ℝ))}
    {ts : List String} {ds : Option (List (ℝ × ℝ × ℝ))} (h : arrayDirectivity num types dirs = .ok (ts, ds)) :
    ts.length = num ∧ ((types = none ∧ dirs = none ∧ (∀ t ∈ ts, t = "omni") ∧ ds = none) ∨
      ∃ l, types = some ts ∧ dirs = some l ∧ ds = some l ∧ l.length = num ∧
        (∀ t ∈ ts, t = "omni" ∨ t = "cardioid" ∨ t = "hypercardioid" ∨ t = "supercardioid" ∨ t = "bidirectional") ∧
        ∀ d ∈ l, |√(d.1 ^ 2 + d.2.1 ^ 2 + d.2.2 ^ 2) - 1| ≤ 1e-8 + 1e-5) := by
  unfold arrayDirectivity at h
  split at h
  · cases h
    exact ⟨by simp, .inl ⟨rfl, rfl, fun t ht => (List.mem_replicate.1 ht).2, rfl⟩⟩
  · split at h
    · rename_i hc
      cases h
      refine ⟨hc.1, .inr ⟨_, rfl, rfl, rfl, hc.2.1, fun t ht => ?_, hc.2.2.2⟩⟩
      simpa [directivityTypes] using hc.2.2.1 t ht
    · cases h
  · cases h

/-- **C113** is violated without image sources: the directivity has no effect. -/
theorem C113_violated_ignored (c : RirCfg R Pt G) (g : G) (src mic : Geo Pt) (omni : Bool) (reverb : String)
    (hr : reverb ≠ "ism") : createPath c g src { mic with omni := omni } reverb = createPath c g src mic reverb := by
  unfold createPath
  simp only [if_neg hr]

example : createPath (R := ℚ) (Pt := ℚ) (G := Unit)
    { irLen := 1, minDly := 0, dims := 3, pad := 0, highpass := false, sos := id,
      normal := fun g _ _ _ => (g, fun _ _ _ => 0), roomRir := fun g _ _ => (g, []) } ()
    ⟨1, [0], true⟩ ⟨1, [1], allOmni ["cardioid"]⟩ "ism" = .error .notImplemented :=
  C113_violated_ism (src := ⟨"src", some .free, 1, [0], none, 1, none, true, []⟩)
    (mic := ⟨"mic", some .mic, 1, [1], none, 1, none, allOmni ["cardioid"], []⟩) (num := 1)
    (types := some ["cardioid"]) (dirs := some [(1, 0, 0)]) (ts := ["cardioid"])
    (ds := some [(1, 0, 0)])
    (by
      unfold arrayDirectivity
      dsimp only
      rw [if_pos ⟨rfl, rfl, by simp [directivityTypes], by
        intro d hd
        simp only [List.mem_singleton] at hd
        subst hd
        norm_num⟩])
    ⟨"cardioid", by simp, by decide⟩ _ rfl _ rfl rfl
end

/-- The direction in which a microphone with the given azimuth and colatitude points. -/
noncomputable def pointing (q : ℝ × ℝ) : ℝ × ℝ × ℝ :=
  (Real.cos q.1 * Real.sin q.2, Real.sin q.1 * Real.sin q.2, Real.cos q.2)

theorem pointing_cardioidAngles {d : ℝ × ℝ × ℝ} (h : d.1 ^ 2 + d.2.1 ^ 2 + d.2.2 ^ 2 = 1) :
    pointing (cardioidAngles d) = d := by
  have := C62_spherical [d]
  unfold spherical2cart cart2spherical at this
  simp only [List.map_cons, List.map_nil, List.cons.injEq, and_true] at this
  conv_rhs => rw [← this]
  unfold pointing cardioidAngles spherical2cartRow
  simp only [show (cart2sphericalRow d).1 = 1 by unfold cart2sphericalRow; simp only [h, Real.sqrt_one], one_mul]

/-- **C113 (partial)** The conversion for the image-source package is right: with a direction of
length 1 for each of the cardioid microphones, each points in its own direction.  Missing: the
simulation does not use it. -/
theorem C113_pointing_partial (dirs : List (ℝ × ℝ × ℝ)) (hne : dirs ≠ [])
    (h : ∀ d ∈ dirs, d.1 ^ 2 + d.2.1 ^ 2 + d.2.2 ^ 2 = 1) :
    ∃ qs, directionalityArg (some (List.replicate dirs.length "cardioid")) (some dirs) = .ok (some qs) ∧
      qs.map pointing = dirs := by
  have hmap : (dirs.map cardioidAngles).map pointing = dirs := by
    rw [List.map_map]
    conv_rhs => rw [← List.map_id dirs]
    apply List.map_congr_left
    intro d hd
    exact pointing_cardioidAngles (h d hd)
  refine ⟨dirs.map cardioidAngles, ?_, hmap⟩
  match dirs, hne with
  | [d], _ => simp [directionalityArg]
  | d :: e :: l, _ =>
    unfold directionalityArg
    dsimp only
    rw [if_pos (by simp), if_neg (by simp [List.replicate_succ]), if_pos (by simp)]
    simp

example : ∃ qs, directionalityArg (some ["cardioid", "cardioid"]) (some [(1, 0, 0), (0, -1, 0)]) = .ok (some qs) ∧
    qs.map pointing = [(1, 0, 0), (0, -1, 0)] :=
  C113_pointing_partial [(1, 0, 0), (0, -1, 0)] (by simp) (by
    intro d hd
    simp only [List.mem_cons, List.not_mem_nil, or_false] at hd
    rcases hd with rfl | rfl <;> norm_num)

/-! ### C114 -/

/-- The frequencies that `filter_below` leaves alone. -/
def Unfiltered (below : Option ℝ) (f : ℝ) : Prop := ∀ b, below = some b → b < f

theorem scaleBelow_get {below : Option ℝ} {fs : List ℝ} {l : List ℂ} {i : Nat} {f : ℝ} (hs : fs.Pairwise (· < ·))
    (hi : fs[i]? = some f) (hb : Unfiltered below f) : (scaleBelow below fs l)[i]? = l[i]? := by
  classical
  unfold scaleBelow
  cases below with
  | none => rfl
  | some b =>
    have hbf := hb b rfl
    dsimp only
    have hm : fs.countP (fun f => decide (f ≤ b)) ≤ i := by
      have h1 : fs = fs.take i ++ fs.drop i := (List.take_append_drop i fs).symm
      have h2 : (fs.drop i).countP (fun f => decide (f ≤ b)) = 0 := by
        rw [List.countP_eq_zero]
        intro x hx
        have hil : i < fs.length := (List.getElem?_eq_some_iff.1 hi).1
        have hdrop : fs.drop i = f :: fs.drop (i + 1) := by
          rw [List.drop_eq_getElem_cons hil, (List.getElem?_eq_some_iff.1 hi).2]
        have hp : (fs.drop i).Pairwise (· < ·) := hs.sublist (List.drop_sublist i fs)
        rw [hdrop] at hx hp
        have : f ≤ x := by
          rcases List.mem_cons.1 hx with rfl | hx
          · exact le_refl _
          · exact le_of_lt ((List.pairwise_cons.1 hp).1 x hx)
        simp only [decide_eq_true_eq, not_le]
        linarith
      rw [h1, List.countP_append, h2, Nat.add_zero]
      refine (List.countP_le_length).trans ?_
      rw [List.length_take]; omega
    simp only [List.getElem?_mapIdx]
    cases l[i]? with
    | none => rfl
    | some a => simp only [Option.map_some, if_neg (Nat.not_lt.2 hm)]

/-- Responses of the two microphones at a frequency, as functions of `θ = wave number * distance`. -/
theorem responses_get {c d : ℝ} {below : Option ℝ} {fs : List ℝ} {i : Nat} {f : ℝ} (hs : fs.Pairwise (· < ·))
    (hi : fs[i]? = some f) (h0 : 0 < i) (hb : Unfiltered below f) (hf : 0 < f) (hc : 0 < c) :
    (mainResponse c d below fs)[i]? = some (1 / (1 - Complex.exp (2 * ((2 * Real.pi * f / c * d : ℝ) : ℂ) * Complex.I))) ∧
    (secondaryResponse c d below fs)[i]? = some (-(Complex.exp (((2 * Real.pi * f / c * d : ℝ) : ℂ) * Complex.I) /
      (1 - Complex.exp (2 * ((2 * Real.pi * f / c * d : ℝ) : ℂ) * Complex.I)))) := by
  have hk : waveNum c f = 2 * Real.pi * f / c := by
    unfold waveNum
    rw [if_neg]
    have := Real.pi_pos
    positivity
  have hconj : ∀ (t : ℝ), (starRingEnd ℂ) (1 / (1 - Complex.exp (-Complex.I * 2 * t))) =
      1 / (1 - Complex.exp (2 * t * Complex.I)) := by
    intro t
    rw [map_div₀, map_sub, map_one, ← Complex.exp_conj]
    simp only [map_mul, map_neg, Complex.conj_I, Complex.conj_ofReal, map_ofNat, neg_neg]
    congr 3; ring
  have hconj2 : ∀ (t : ℝ), (starRingEnd ℂ) (Complex.exp (-Complex.I * t)) = Complex.exp (t * Complex.I) := by
    intro t
    rw [← Complex.exp_conj]
    simp only [map_mul, map_neg, Complex.conj_I, Complex.conj_ofReal, neg_neg]
    congr 1; ring
  have hset : ((fs.map (bothMicFactor c d)).set 0 0)[i]? = some (bothMicFactor c d f) := by
    rw [List.getElem?_set_ne (by omega), List.getElem?_map, hi]; rfl
  have hboth : bothMicFactor c d f = 1 / (1 - Complex.exp (-Complex.I * 2 * ((2 * Real.pi * f / c * d : ℝ) : ℂ))) := by
    unfold bothMicFactor
    rw [hk]; push_cast; congr 3; ring
  constructor
  · unfold mainResponse
    rw [scaleBelow_get hs hi hb, List.getElem?_map, hset, Option.map_some, hboth, hconj]
  · unfold secondaryResponse
    rw [scaleBelow_get hs hi hb, List.getElem?_zipWith, hset, hi]
    simp only [Option.some.injEq]
    rw [map_mul, hboth, hconj, hk, show (-Complex.I * ((2 * Real.pi * f / c : ℝ) : ℂ) * (d : ℂ)) =
      -Complex.I * ((2 * Real.pi * f / c * d : ℝ) : ℂ) by push_cast; ring, hconj2]
    ring

/-- What the two microphones together make of a plane wave of frequency `fs[i]` that comes from a
direction with cosine `p` to the axis from the secondary to the main microphone (`p = 1`: the main
microphone is hit first).  The wave reaches the secondary microphone later by `d * p / c`, which is a
factor `exp(2πi f d p / c)` with the sign convention of the code. -/
def PlaneWaveGain (c d : ℝ) (below : Option ℝ) (fs : List ℝ) (i : Nat) (f p : ℝ) (z : ℂ) : Prop :=
  ∃ a b, (mainResponse c d below fs)[i]? = some a ∧ (secondaryResponse c d below fs)[i]? = some b ∧
    z = a + b * Complex.exp (((2 * Real.pi * f * (d * p / c) : ℝ) : ℂ) * Complex.I)

theorem gain_exists (c d : ℝ) (below : Option ℝ) {fs : List ℝ} {i : Nat} {f : ℝ} (p : ℝ) (hi : fs[i]? = some f) :
    ∃ z, PlaneWaveGain c d below fs i f p z := by
  have hl : ∀ l : List ℂ, (scaleBelow below fs l).length = l.length := by
    intro l; unfold scaleBelow; cases below <;> simp
  have hil : i < fs.length := (List.getElem?_eq_some_iff.1 hi).1
  have h1 : i < (mainResponse c d below fs).length := by unfold mainResponse; rw [hl]; simpa using hil
  have h2 : i < (secondaryResponse c d below fs).length := by unfold secondaryResponse; rw [hl]; simpa using hil
  exact ⟨_, _, _, List.getElem?_eq_getElem h1, List.getElem?_eq_getElem h2, rfl⟩

theorem gain_form {c d : ℝ} {below : Option ℝ} {fs : List ℝ} {i : Nat} {f p : ℝ} {z : ℂ} (hs : fs.Pairwise (· < ·))
    (hi : fs[i]? = some f) (h0 : 0 < i) (hb : Unfiltered below f) (hf : 0 < f) (hc : 0 < c)
    (hz : PlaneWaveGain c d below fs i f p z) :
    z = (1 - Complex.exp (((2 * Real.pi * f / c * d * (1 + p) : ℝ) : ℂ) * Complex.I)) /
      (1 - Complex.exp (((2 * Real.pi * f / c * d * 2 : ℝ) : ℂ) * Complex.I)) := by
  obtain ⟨a, b, h1, h2, rfl⟩ := hz
  obtain ⟨g1, g2⟩ := responses_get hs hi h0 hb hf hc (d := d)
  rw [g1] at h1
  rw [g2] at h2
  cases h1
  cases h2
  have e1 : Complex.exp (((2 * Real.pi * f / c * d * (1 + p) : ℝ) : ℂ) * Complex.I) =
      Complex.exp (((2 * Real.pi * f / c * d : ℝ) : ℂ) * Complex.I) *
        Complex.exp (((2 * Real.pi * f * (d * p / c) : ℝ) : ℂ) * Complex.I) := by
    rw [← Complex.exp_add]; congr 1; push_cast; field_simp
  have e2 : (2 * ((2 * Real.pi * f / c * d : ℝ) : ℂ) * Complex.I) = ((2 * Real.pi * f / c * d * 2 : ℝ) : ℂ) * Complex.I := by
    push_cast; ring
  rw [e1, e2]
  ring

theorem norm_one_sub_exp (x : ℝ) : ‖1 - Complex.exp ((x : ℂ) * Complex.I)‖ = 2 * |Real.sin (x / 2)| := by
  rw [norm_sub_rev, mul_comm, Complex.norm_exp_I_mul_ofReal_sub_one, Real.norm_eq_abs, abs_mul, abs_two]

theorem one_sub_exp_ne {x : ℝ} (h : Real.sin x ≠ 0) : (1 : ℂ) - Complex.exp (((x * 2 : ℝ) : ℂ) * Complex.I) ≠ 0 := by
  intro h0
  have := norm_one_sub_exp (x * 2)
  rw [h0, norm_zero, show x * 2 / 2 = x by ring] at this
  exact h (abs_eq_zero.1 (by linarith))

section
variable {c d : ℝ} {below : Option ℝ} {fs : List ℝ} {i : Nat} {f p : ℝ} {z : ℂ} (hs : fs.Pairwise (· < ·))
  (hi : fs[i]? = some f) (h0 : 0 < i) (hb : Unfiltered below f) (hf : 0 < f) (hc : 0 < c)
include hs hi h0 hb hf hc

/-- **C114** A wave from the direction of the main microphone passes unchanged, in magnitude and
phase, at all frequencies that are not multiples of `c / (2 d)`. -/
theorem C114_front (hk : Real.sin (2 * Real.pi * f / c * d) ≠ 0) (hz : PlaneWaveGain c d below fs i f 1 z) : z = 1 := by
  rw [gain_form hs hi h0 hb hf hc hz, show (1 : ℝ) + 1 = 2 by norm_num]
  exact div_self (one_sub_exp_ne hk)

/-- **C114** A wave from the opposite direction is cancelled. -/
theorem C114_null (hz : PlaneWaveGain c d below fs i f (-1) z) : z = 0 := by
  rw [gain_form hs hi h0 hb hf hc hz, show (1 : ℝ) + -1 = 0 by norm_num]
  simp

theorem gain_norm (hz : PlaneWaveGain c d below fs i f p z) :
    ‖z‖ = |Real.sin (2 * Real.pi * f / c * d * (1 + p) / 2)| / |Real.sin (2 * Real.pi * f / c * d)| := by
  rw [gain_form hs hi h0 hb hf hc hz, norm_div, norm_one_sub_exp, norm_one_sub_exp,
    show 2 * Real.pi * f / c * d * 2 / 2 = 2 * Real.pi * f / c * d by ring]
  exact mul_div_mul_left _ _ (by norm_num)

/-- **C114 (partial)** Up to the frequency `c / (4 d)` the response grows with the cosine, from 0 for the
opposite direction to 1 for the direction of the main microphone, which therefore is the one of the
strongest response.  Missing: higher frequencies, where it is wrong. -/
theorem C114_strongest_partial (hd : 0 < d) (hlow : f ≤ c / (4 * d)) {q : ℝ} {w : ℂ} (hp : -1 ≤ p) (hpq : p < q) (hq : q ≤ 1)
    (hz : PlaneWaveGain c d below fs i f p z) (hw : PlaneWaveGain c d below fs i f q w) : ‖z‖ < ‖w‖ := by
  rw [gain_norm hs hi h0 hb hf hc hz, gain_norm hs hi h0 hb hf hc hw]
  have hpi := Real.pi_pos
  have hk : 2 * Real.pi * f / c * d ≤ Real.pi / 2 := by
    have : f * (4 * d) ≤ c := by rwa [le_div_iff₀ (by positivity)] at hlow
    rw [div_mul_eq_mul_div, div_le_iff₀ hc]
    nlinarith
  have hk0 : 0 < 2 * Real.pi * f / c * d := by positivity
  generalize 2 * Real.pi * f / c * d = θ at *
  have hpos : 0 < |Real.sin θ| := abs_pos.2 (Real.sin_pos_of_pos_of_lt_pi hk0 (by linarith)).ne'
  apply div_lt_div_of_pos_right _ hpos
  have a1 : 0 ≤ θ * (1 + p) / 2 := by have := mul_nonneg hk0.le (show (0 : ℝ) ≤ 1 + p by linarith); linarith
  have a2 : θ * (1 + p) / 2 < θ * (1 + q) / 2 := by have := mul_lt_mul_of_pos_left (show 1 + p < 1 + q by linarith) hk0; linarith
  have a3 : θ * (1 + q) / 2 ≤ Real.pi / 2 := by have := mul_le_mul_of_nonneg_left (show 1 + q ≤ 2 by linarith) hk0.le; linarith
  rw [abs_of_nonneg (Real.sin_nonneg_of_nonneg_of_le_pi a1 (by linarith)),
    abs_of_nonneg (Real.sin_nonneg_of_nonneg_of_le_pi (by linarith) (by linarith))]
  exact Real.sin_lt_sin_of_lt_of_le_pi_div_two (by linarith) a3 a2

/-- **C114** is violated between the frequencies `c / (4 d)` and `c / (2 d)`: there is a direction off the
axis from which waves are amplified, while those from the front are not. -/
theorem C114_violated (hd : 0 < d) (h1 : c / (4 * d) < f) (h2 : f < c / (2 * d)) :
    ∃ p z w, -1 < p ∧ p < 1 ∧ PlaneWaveGain c d below fs i f p z ∧ 1 < ‖z‖ ∧
      PlaneWaveGain c d below fs i f 1 w ∧ ‖w‖ = 1 := by
  have hpi := Real.pi_pos
  have hk1 : Real.pi / 2 < 2 * Real.pi * f / c * d := by
    have : c < f * (4 * d) := by rwa [div_lt_iff₀ (by positivity)] at h1
    rw [div_mul_eq_mul_div, lt_div_iff₀ hc]
    nlinarith
  have hk2 : 2 * Real.pi * f / c * d < Real.pi := by
    have : f * (2 * d) < c := by rwa [lt_div_iff₀ (by positivity)] at h2
    rw [div_mul_eq_mul_div, div_lt_iff₀ hc]
    nlinarith
  have hk0 : 0 < 2 * Real.pi * f / c * d := by positivity
  have hsin : 0 < Real.sin (2 * Real.pi * f / c * d) := Real.sin_pos_of_pos_of_lt_pi hk0 hk2
  obtain ⟨z, hz⟩ := gain_exists c d below (Real.pi / (2 * Real.pi * f / c * d) - 1) hi
  obtain ⟨w, hw⟩ := gain_exists c d below 1 hi
  refine ⟨Real.pi / (2 * Real.pi * f / c * d) - 1, z, w, ?_, ?_, hz, ?_, hw, ?_⟩
  · have : 0 < Real.pi / (2 * Real.pi * f / c * d) := by positivity
    linarith
  · have : Real.pi / (2 * Real.pi * f / c * d) < 2 := by rw [div_lt_iff₀ hk0]; linarith
    linarith
  · rw [gain_norm hs hi h0 hb hf hc hz]
    clear hz hw
    generalize 2 * Real.pi * f / c * d = θ at *
    rw [show θ * (1 + (Real.pi / θ - 1)) / 2 = Real.pi / 2 by field_simp; ring, Real.sin_pi_div_two, abs_one,
      abs_of_pos hsin, lt_div_iff₀ hsin, one_mul]
    have : Real.sin θ < Real.sin (Real.pi / 2) := by
      rw [← Real.sin_pi_sub θ]
      exact Real.sin_lt_sin_of_lt_of_le_pi_div_two (by linarith) (le_refl _) (by linarith)
    rwa [Real.sin_pi_div_two] at this
  · rw [C114_front hs hi h0 hb hf hc hsin.ne' hw, norm_one]

end

/-- **C114** At the first frequency, 0 Hz, nothing passes. -/
theorem C114_constant {c d : ℝ} {below : Option ℝ} {fs : List ℝ} {f p : ℝ} {z : ℂ}
    (hz : PlaneWaveGain c d below fs 0 f p z) : z = 0 := by
  have hsc : ∀ (l : List ℂ), l[0]? = some 0 ∨ l[0]? = none → ∀ a, (scaleBelow below fs l)[0]? = some a → a = 0 := by
    intro l hl a ha
    unfold scaleBelow at ha
    cases below with
    | none =>
      rcases hl with hl | hl <;> rw [hl] at ha
      · cases ha; rfl
      · cases ha
    | some b =>
      dsimp only at ha
      rw [List.getElem?_mapIdx] at ha
      rcases hl with hl | hl <;> rw [hl] at ha
      · simp only [Option.map_some, Option.some.injEq] at ha
        rw [← ha]
        split <;> simp
      · cases ha
  obtain ⟨a, b, h1, h2, rfl⟩ := hz
  have ha : a = 0 := by
    unfold mainResponse at h1
    refine hsc _ ?_ _ h1
    cases fs <;> simp
  have hb : b = 0 := by
    unfold secondaryResponse at h2
    refine hsc _ ?_ _ h2
    cases fs <;> simp
  rw [ha, hb]; simp

/-- **C114** Up to `filter_below` both responses are multiplied by the same factor between 0 and 1, so that the
dependence on the direction stays as it is. -/
theorem C114_filtered (c d b : ℝ) (fs : List ℝ) (i : Nat) : ∃ s : ℝ, 0 ≤ s ∧ s ≤ 1 ∧ ∀ f p z,
    PlaneWaveGain c d none fs i f p z → PlaneWaveGain c d (some b) fs i f p (s * z) := by
  classical
  have hsc : ∃ s : ℝ, 0 ≤ s ∧ s ≤ 1 ∧ ∀ (l : List ℂ) a, l[i]? = some a → (scaleBelow (some b) fs l)[i]? = some (s * a) := by
    generalize hm : fs.countP (fun f => decide (f ≤ b)) = m
    refine ⟨if i < m then (if m = 1 then 0 else (i : ℝ) / ((m : ℝ) - 1)) ^ 4 else 1, ?_, ?_, ?_⟩
    · split
      · positivity
      · norm_num
    · split
      · split
        · norm_num
        · rename_i h1 h2
          have hm1 : (0 : ℝ) < (m : ℝ) - 1 := by
            have : (2 : ℝ) ≤ (m : ℝ) := by exact_mod_cast (by omega : 2 ≤ m)
            linarith
          apply pow_le_one₀ (by positivity)
          rw [div_le_one hm1]
          have : (i : ℝ) + 1 ≤ (m : ℝ) := by exact_mod_cast h1
          linarith
      · exact le_refl _
    · intro l a ha
      unfold scaleBelow
      dsimp only
      rw [List.getElem?_mapIdx, ha, hm, Option.map_some]
      split
      · rw [mul_comm]
      · rw [Complex.ofReal_one, one_mul]
  obtain ⟨s, s0, s1, hs⟩ := hsc
  refine ⟨s, s0, s1, ?_⟩
  rintro f p z ⟨a, a', h1, h2, rfl⟩
  exact ⟨s * a, s * a', hs _ _ h1, hs _ _ h2, by ring⟩

/-- Microphones 4 cm apart, frequencies 0, 1000 and 3000 Hz: the first is below `c / (4 d) ≈ 2144 Hz`, the
second above. -/
example : ∀ z w, PlaneWaveGain 343 (4 / 100) (some 50) [0, 1000, 3000] 1 1000 0 z →
    PlaneWaveGain 343 (4 / 100) (some 50) [0, 1000, 3000] 1 1000 1 w → ‖z‖ < ‖w‖ := fun z w hz hw =>
  C114_strongest_partial (by norm_num) rfl (by decide) (by rintro b ⟨⟩; norm_num) (by norm_num) (by norm_num) (by norm_num)
    (by norm_num) (by norm_num) (by norm_num) (le_refl _) hz hw

example : ∃ p z w, -1 < p ∧ p < 1 ∧ PlaneWaveGain 343 (4 / 100) (some 50) [0, 1000, 3000] 2 3000 p z ∧ 1 < ‖z‖ ∧
    PlaneWaveGain 343 (4 / 100) (some 50) [0, 1000, 3000] 2 3000 1 w ∧ ‖w‖ = 1 :=
  C114_violated (by norm_num) rfl (by decide) (by rintro b ⟨⟩; norm_num) (by norm_num) (by norm_num) (by norm_num)
    (by norm_num) (by norm_num)

/-! ### The filtered signals -/

section
variable {R : Type} [CommRing R]

theorem fullConv_get (h x : List R) {n : Nat} (hn : n < h.length + x.length - 1) :
    (fullConv h x)[n]? = some ((List.range h.length).map fun k => if k ≤ n then h.getD k 0 * x.getD (n - k) 0 else 0).sum := by
  unfold fullConv
  rw [List.getElem?_map, List.getElem?_range hn]; rfl

/-- Sample `j` of a signal that is silent before and after. -/
def sampleAt (x : List R) (j : Int) : R := if 0 ≤ j then x.getD j.toNat 0 else 0

/-- **C114** With responses of `2 * filter_order + 1` taps the output has the length of the signals, and
sample `n` is made of the samples `n - filter_order` to `n + filter_order`, weighted by the taps: there is no
delay. -/
theorem C114_aligned (order : Nat) (h1 h2 main sec : List R) (hl1 : h1.length = 2 * order + 1)
    (hl2 : h2.length = 2 * order + 1) (hm : main.length = sec.length) :
    cardioidSignal order h1 h2 main sec = .ok ((List.range main.length).map fun (n : Nat) =>
      ((List.range (2 * order + 1)).map fun k => h1.getD k 0 * sampleAt main ((n : Int) + order - k)).sum +
      ((List.range (2 * order + 1)).map fun k => h2.getD k 0 * sampleAt sec ((n : Int) + order - k)).sum) := by
  have hlen : ∀ h x : List R, (fullConv h x).length = h.length + x.length - 1 := by
    intro h x; unfold fullConv; simp
  have hsum : ∀ (h x : List R) (n : Nat), h.length = 2 * order + 1 →
      ((List.range h.length).map fun k => if k ≤ order + n then h.getD k 0 * x.getD (order + n - k) 0 else 0).sum =
      ((List.range (2 * order + 1)).map fun k => h.getD k 0 * sampleAt x ((n : Int) + order - k)).sum := by
    intro h x n hl
    rw [hl]
    congr 1
    apply List.map_congr_left
    intro k _
    unfold sampleAt
    by_cases hk : k ≤ order + n
    · rw [if_pos hk, if_pos (by omega)]
      congr 2; omega
    · rw [if_neg hk, if_neg (by omega), mul_zero]
  unfold cardioidSignal
  rw [if_neg (by rw [hlen, hlen, hl1, hl2, hm]; simp)]
  congr 1
  apply List.ext_getElem?
  intro n
  by_cases hn : n < main.length
  · rw [List.getElem?_take_of_lt hn, List.getElem?_drop, List.getElem?_zipWith,
      fullConv_get h1 main (by omega), fullConv_get h2 sec (by omega), List.getElem?_map, List.getElem?_range hn]
    simp only [Option.map_some, hsum h1 main n hl1, hsum h2 sec n hl2]
  · rw [List.getElem?_eq_none (by simp; omega), List.getElem?_eq_none (by simp; omega)]

example : cardioidSignal 1 [0, 1, 0] [0, 0, -1] [(3 : ℚ), 5, 7] [1, 2, 3] = .ok [3, 4, 5] := by
  rw [C114_aligned 1 [0, 1, 0] [0, 0, -1] [(3 : ℚ), 5, 7] [1, 2, 3] rfl rfl rfl]
  simp [sampleAt, List.range_succ]
  norm_num

end

end Verif

/-
C95: the metadata of the simulated room impulse responses.
-/
import Verif.Lemmas.RirInfo
import Verif.Lemmas.Freq
import Verif.Props.Array
import Mathlib.Analysis.SpecialFunctions.Log.Base
namespace Verif

section
variable {Pt G : Type}

/-- `k log10(q)`, and `-inf` for `q = 0`. -/
noncomputable def levelOf (k q : ℝ) : Db ℝ := if q = 0 then .negInf else .fin (k * Real.logb 10 q)

theorem isMax_ratio {α : Type} {k : ℝ} (hk : 0 < k) {P : α → Prop} {q : α → ℝ} (hq : ∀ a, P a → 0 ≤ q a)
    {e : Db ℝ} (h : e.IsMax fun d => ∃ a, P a ∧ d = levelOf k (q a)) :
    ∃ ρ, 0 ≤ ρ ∧ e = levelOf k ρ ∧ (∀ a, P a → q a ≤ ρ) ∧ (ρ = 0 ∨ ∃ a, P a ∧ q a = ρ) := by
  have hnan : ¬ ∃ a, P a ∧ Db.nan = levelOf k (q a) := by
    rintro ⟨a, _, ha⟩
    unfold levelOf at ha
    split at ha <;> cases ha
  obtain ⟨h1, h2, h3⟩ := h.2 hnan
  have hfin : ∀ a, P a → q a ≠ 0 → ∃ y, e = .fin y ∧ k * Real.logb 10 (q a) ≤ y :=
    fun a ha hne => h3 _ ⟨a, ha, by rw [levelOf, if_neg hne]⟩
  cases e with
  | nan => exact absurd rfl h1
  | negInf =>
    refine ⟨0, le_rfl, by simp [levelOf], ?_, .inl rfl⟩
    intro a ha
    by_contra hlt
    obtain ⟨y, hy, _⟩ := hfin a ha (by intro h0; rw [h0] at hlt; exact hlt le_rfl)
    cases hy
  | fin y =>
    rcases h2 with ⟨a, ha, hay⟩ | h2
    · refine ⟨q a, hq a ha, hay, ?_, .inr ⟨a, ha, rfl⟩⟩
      have hqa : q a ≠ 0 := by
        intro h0
        rw [levelOf, if_pos h0] at hay
        cases hay
      rw [levelOf, if_neg hqa] at hay
      cases hay
      intro b hb
      by_cases hqb : q b = 0
      · rw [hqb]; exact hq a ha
      · obtain ⟨z, hz, hle⟩ := hfin b hb hqb
        cases hz
        have hlog := le_of_mul_le_mul_left hle hk
        exact (Real.logb_le_logb (by norm_num) (lt_of_le_of_ne (hq b hb) (Ne.symm hqb))
          (lt_of_le_of_ne (hq a ha) (Ne.symm hqa))).1 hlog
    · cases h2

/-- What is lost of a response `r` if `x`, delayed by `d` samples, is used in its place. -/
def lostAt (d : Nat) (r x : List ℝ) (i : Nat) : ℝ := r.getD i 0 - if i < d then 0 else x.getD (i - d) 0

/-- The energy of what is lost. -/
def lostEnergy (d : Nat) (r x : List ℝ) : ℝ := ((List.range r.length).map fun i => lostAt d r x i ^ 2).sum

theorem lostAt_fitted {d n : Nat} {r x : List ℝ} (h : Fitted d n r x) (hz : ∀ i < d, r.getD i 0 = 0) (i : Nat) :
    lostAt d r x i = if i < min r.length n then 0 else r.getD i 0 := by
  obtain ⟨h1, h2⟩ := h
  unfold lostAt
  by_cases hid : i < d
  · rw [if_pos hid, hz i hid]
    simp
  · rw [if_neg hid]
    by_cases hin : i - d < n
    · have := h2 (i - d) hin
      rw [show i - d + d = i by omega] at this
      rw [List.getD_eq_getElem?_getD (l := x), this, Option.getD_some]
      by_cases hi : i < min r.length n
      · rw [if_pos hi, if_pos hi, sub_self]
      · rw [if_neg hi, if_neg hi, sub_zero]
    · rw [List.getD_eq_default x _ (by omega), if_neg (by omega), sub_zero]

theorem lostEnergy_fitted {d n : Nat} {r x : List ℝ} (h : Fitted d n r x) (hz : ∀ i < d, r.getD i 0 = 0) :
    lostEnergy d r x = energy (r.drop (min r.length n)) := by
  unfold lostEnergy
  simp only [lostAt_fitted h hz]
  obtain ⟨k, hk⟩ : ∃ k, k = min r.length n := ⟨_, rfl⟩
  rw [← hk]
  have hkl : k ≤ r.length := by omega
  have e : List.range r.length = List.range k ++ (List.range (r.length - k)).map (k + ·) := by
    rw [← List.range_add]
    congr 1
    omega
  rw [e, List.map_append, List.sum_append, List.map_map]
  have h1 : ((List.range k).map fun i => (if i < k then (0 : ℝ) else r.getD i 0) ^ 2).sum = 0 := by
    apply List.sum_eq_zero
    intro y hy
    obtain ⟨i, hi, rfl⟩ := List.mem_map.1 hy
    rw [List.mem_range] at hi
    rw [if_pos hi]
    norm_num
  rw [h1, zero_add]
  unfold energy
  congr 1
  apply List.ext_getElem (by simp)
  intro i hi1 hi2
  simp only [List.length_map, List.length_range, List.length_drop] at hi1 hi2
  simp only [List.getElem_map, List.getElem_range, Function.comp, List.getElem_drop]
  rw [if_neg (by omega), List.getD_eq_getElem?_getD, List.getElem?_eq_getElem (by omega), Option.getD_some]

theorem truncError_level {r : List ℝ} (h : ∃ x ∈ r, x ≠ 0) (L : Nat) :
    truncError (Real.logb 10) r L = levelOf 10 (energy (r.drop L) / energy r) := by
  have hne : energy r ≠ 0 := by
    rw [Ne, energy_eq_zero]
    obtain ⟨x, hx, h0⟩ := h
    exact fun h => h0 (h x hx)
  unfold truncError levelOf
  simp only [if_neg hne]

theorem truncValue_level {r : List ℝ} (h : ∃ x ∈ r, x ≠ 0) (L : Nat) :
    truncValue (Real.logb 10) r L = levelOf 20 (maxAbs (r.drop L) / maxAbs r) := by
  have hp := maxAbs_pos h
  unfold truncValue levelOf
  simp only [if_neg hp.ne']
  split
  · next hl => rw [List.drop_eq_nil_of_le hl, if_pos (by simp [maxAbs])]
  · rfl

theorem ismMeta_spec {c : RirCfg ℝ Pt G} (hc : c.Lawful) {src mic : Geo Pt} (ho : mic.omni = true) {g : G}
    {measure : List (List (List ℝ)) → Except PyErr (List ℝ)} {maxOrder : Nat} {md : IsmMeta ℝ}
    (h : ismMeta c (Real.logb 10) measure maxOrder g src mic = .ok md) :
    md.truncError.IsMax (levelsBefore c g src.pos mic.pos
      (fun r => truncError (Real.logb 10) r (min r.length c.irLen)) mic.pos.length) ∧
    md.truncValue.IsMax (levelsBefore c g src.pos mic.pos
      (fun r => truncValue (Real.logb 10) r (min r.length c.irLen)) mic.pos.length) ∧
    (maxOrder = 0 → md.rt60 = .zero) ∧
    (maxOrder ≠ 0 → mic.pos ≠ [] ∧ md.rt60 =
      match measure (c.roomRir (c.stateBefore g src.pos mic.pos ((mic.pos.length - 1) / 500)) src.pos
          (micBatch mic.pos ((mic.pos.length - 1) / 500))).2 with
      | .ok l => .measured l
      | .error _ => .failed) := by
  have hemp : ∀ f : List ℝ → Db ℝ, Db.IsMax .negInf (levelsBefore c g src.pos mic.pos f (500 * 0)) := fun f =>
    Db.isMax_empty.congr fun d => ⟨fun h => h.elim, fun ⟨_, _, _, _, h, _⟩ => by omega⟩
  obtain ⟨acc, room, h1, h2, h3, h4, h5⟩ := ismMetaLoop_spec hc (Real.logb 10) (src := src) ho (g := g)
    mic.pos.length 0 (acc := (.negInf, .negInf)) (room := none) (by omega) (hemp _) (hemp _)
    (fun h => by omega) (fun _ => rfl) (fun h => by omega)
  rw [show min (500 * 0) mic.pos.length = 0 by omega] at h1
  have : c.stateBefore g src.pos mic.pos 0 = g := rfl
  rw [this] at h1
  unfold ismMeta at h
  rw [h1] at h
  simp only at h
  split at h
  · next h0 =>
    have := (Except.ok.inj h).symm
    subst this
    exact ⟨h2, h3, fun _ => rfl, fun hn => absurd h0 hn⟩
  · next h0 =>
    by_cases hmic : mic.pos = []
    · rw [h4 hmic] at h
      cases h
    · rw [h5 hmic] at h
      simp only at h
      cases hm : measure (c.roomRir (c.stateBefore g src.pos mic.pos ((mic.pos.length - 1) / 500)) src.pos
          (micBatch mic.pos ((mic.pos.length - 1) / 500))).2 with
      | ok l =>
        rw [hm] at h
        have := (Except.ok.inj h).symm
        subst this
        exact ⟨h2, h3, fun hn => absurd hn h0, fun _ => ⟨hmic, rfl⟩⟩
      | error x =>
        rw [hm] at h
        cases x <;> cases h
        exact ⟨h2, h3, fun hn => absurd hn h0, fun _ => ⟨hmic, rfl⟩⟩

/-- C95, "Max Normalized Truncation Error (dB)" of a call that returns the path `h`, whose
responses all have some energy: it is `10 log10 ρ` for the largest share `ρ` of its energy
that a response loses when it is cut to the length of the path, `-inf` if nothing is lost. -/
theorem C95_error {c : RirCfg ℝ Pt G} (hc : c.Lawful) {src mic : Geo Pt} (ho : mic.omni = true) {g g' : G}
    (hd : ∀ g ss ms, ∀ x ∈ (c.roomRir g ss ms).2, ∀ r ∈ x, c.minDly ≤ min r.length c.irLen)
    {measure : List (List (List ℝ)) → Except PyErr (List ℝ)} {maxOrder : Nat} {md : IsmMeta ℝ} {h : IrMat ℝ}
    (hpath : ismPath c g src mic = .ok (g', h))
    (hmeta : ismMeta c (Real.logb 10) measure maxOrder g src mic = .ok md)
    (hz : ∀ (i j : Nat) r, c.simulated g src.pos mic.pos i j = some r → ∀ k < c.minDly, r.getD k 0 = 0)
    (hpos : ∀ (i j : Nat) r, c.simulated g src.pos mic.pos i j = some r → ∃ x ∈ r, x ≠ 0) :
    ∃ ρ, 0 ≤ ρ ∧ ρ ≤ 1 ∧ md.truncError = (if ρ = 0 then .negInf else .fin (10 * Real.logb 10 ρ)) ∧
      (∀ i < src.pos.length, ∀ j < mic.pos.length, ∃ r, c.simulated g src.pos mic.pos i j = some r ∧
        lostEnergy c.minDly r (h.ir i j) ≤ ρ * (r.map fun x => x ^ 2).sum) ∧
      (ρ = 0 ∨ ∃ i < src.pos.length, ∃ j < mic.pos.length, ∃ r, c.simulated g src.pos mic.pos i j = some r ∧
        lostEnergy c.minDly r (h.ir i j) = ρ * (r.map fun x => x ^ 2).sum) := by
  obtain ⟨g1, h1, e1, e2, e3, e4⟩ := ismPath_spec hc (src := src) ho g hd
  rw [hpath] at e1
  cases e1
  obtain ⟨m1, _⟩ := ismMeta_spec hc ho hmeta
  have hen : ∀ r : List ℝ, (∃ x ∈ r, x ≠ 0) → 0 < energy r := by
    rintro r ⟨x, hx, h0⟩
    refine lt_of_le_of_ne (energy_nonneg r) fun he => h0 ((energy_eq_zero r).1 he.symm x hx)
  have hmax : md.truncError.IsMax fun d => ∃ a : List ℝ, (∃ i < src.pos.length, ∃ j < mic.pos.length,
      c.simulated g src.pos mic.pos i j = some a) ∧
      d = levelOf 10 (energy (a.drop (min a.length c.irLen)) / energy a) := by
    refine m1.congr fun d => ?_
    constructor
    · rintro ⟨i, hi, j, hj, _, r, hr, rfl⟩
      exact ⟨r, ⟨i, hi, j, hj, hr⟩, truncError_level (hpos i j r hr) _⟩
    · rintro ⟨r, ⟨i, hi, j, hj, hr⟩, rfl⟩
      exact ⟨i, hi, j, hj, hj, r, hr, (truncError_level (hpos i j r hr) _).symm⟩
  obtain ⟨ρ, h0, h2, h3, h4⟩ := isMax_ratio (by norm_num) (by
    rintro a ⟨i, hi, j, hj, ha⟩
    exact div_nonneg (energy_nonneg _) (energy_nonneg _)) hmax
  refine ⟨ρ, h0, ?_, h2, ?_, ?_⟩
  · rcases h4 with h4 | ⟨a, ⟨i, hi, j, hj, ha⟩, h4⟩
    · rw [h4]; exact zero_le_one
    · rw [← h4]
      exact div_le_one_of_le₀ (energy_drop_le _ _) (energy_nonneg _)
  · intro i hi j hj
    obtain ⟨r, hr, hfit⟩ := e4 i hi j hj
    refine ⟨r, hr, ?_⟩
    rw [lostEnergy_fitted hfit (hz i j r hr)]
    have := h3 r ⟨i, hi, j, hj, hr⟩
    exact (div_le_iff₀ (hen r (hpos i j r hr))).1 this
  · rcases h4 with h4 | ⟨r, ⟨i, hi, j, hj, hr⟩, h4⟩
    · exact .inl h4
    · refine .inr ⟨i, hi, j, hj, r, hr, ?_⟩
      obtain ⟨r', hr', hfit⟩ := e4 i hi j hj
      rw [hr] at hr'
      cases hr'
      rw [lostEnergy_fitted hfit (hz i j r hr), ← h4]
      exact (div_mul_cancel₀ _ (hen r (hpos i j r hr)).ne').symm

/-- C95, "Max Normalized Truncated Value (dB)": `20 log10 ρ`, where `ρ` is the smallest number
such that no sample lost is larger than `ρ` times the largest sample of its response. -/
theorem C95_value {c : RirCfg ℝ Pt G} (hc : c.Lawful) {src mic : Geo Pt} (ho : mic.omni = true) {g g' : G}
    (hd : ∀ g ss ms, ∀ x ∈ (c.roomRir g ss ms).2, ∀ r ∈ x, c.minDly ≤ min r.length c.irLen)
    {measure : List (List (List ℝ)) → Except PyErr (List ℝ)} {maxOrder : Nat} {md : IsmMeta ℝ} {h : IrMat ℝ}
    (hpath : ismPath c g src mic = .ok (g', h))
    (hmeta : ismMeta c (Real.logb 10) measure maxOrder g src mic = .ok md)
    (hz : ∀ (i j : Nat) r, c.simulated g src.pos mic.pos i j = some r → ∀ k < c.minDly, r.getD k 0 = 0)
    (hpos : ∀ (i j : Nat) r, c.simulated g src.pos mic.pos i j = some r → ∃ x ∈ r, x ≠ 0) :
    ∃ ρ, 0 ≤ ρ ∧ ρ ≤ 1 ∧ md.truncValue = (if ρ = 0 then .negInf else .fin (20 * Real.logb 10 ρ)) ∧
      (∀ i < src.pos.length, ∀ j < mic.pos.length, ∃ r, c.simulated g src.pos mic.pos i j = some r ∧
        ∃ x ∈ r, ∀ k < r.length, |lostAt c.minDly r (h.ir i j) k| ≤ ρ * |x|) ∧
      (ρ = 0 ∨ ∃ i < src.pos.length, ∃ j < mic.pos.length, ∃ r, c.simulated g src.pos mic.pos i j = some r ∧
        ∃ k < r.length, ∀ x ∈ r, ρ * |x| ≤ |lostAt c.minDly r (h.ir i j) k|) := by
  obtain ⟨g1, h1, e1, e2, e3, e4⟩ := ismPath_spec hc (src := src) ho g hd
  rw [hpath] at e1
  cases e1
  obtain ⟨_, m1, _⟩ := ismMeta_spec hc ho hmeta
  have hmax : md.truncValue.IsMax fun d => ∃ a : List ℝ, (∃ i < src.pos.length, ∃ j < mic.pos.length,
      c.simulated g src.pos mic.pos i j = some a) ∧
      d = levelOf 20 (maxAbs (a.drop (min a.length c.irLen)) / maxAbs a) := by
    refine m1.congr fun d => ?_
    constructor
    · rintro ⟨i, hi, j, hj, _, r, hr, rfl⟩
      exact ⟨r, ⟨i, hi, j, hj, hr⟩, truncValue_level (hpos i j r hr) _⟩
    · rintro ⟨r, ⟨i, hi, j, hj, hr⟩, rfl⟩
      exact ⟨i, hi, j, hj, hj, r, hr, (truncValue_level (hpos i j r hr) _).symm⟩
  obtain ⟨ρ, h0, h2, h3, h4⟩ := isMax_ratio (by norm_num) (by
    rintro a ⟨i, hi, j, hj, ha⟩
    exact div_nonneg (maxAbs_spec _).1 (maxAbs_spec _).1) hmax
  have hdrop : ∀ (r : List ℝ) (L : Nat), maxAbs (r.drop L) ≤ maxAbs r := by
    intro r L
    by_cases he : r.drop L = []
    · rw [he]; exact (maxAbs_spec r).1
    · obtain ⟨x, hx, e⟩ := (maxAbs_spec (r.drop L)).2.2 he
      rw [e]
      exact (maxAbs_spec r).2.1 x (List.mem_of_mem_drop hx)
  have hpk : ∀ r : List ℝ, (∃ x ∈ r, x ≠ 0) → ∃ x ∈ r, maxAbs r = |x| := by
    rintro r ⟨x, hx, _⟩
    exact (maxAbs_spec r).2.2 (List.ne_nil_of_mem hx)
  refine ⟨ρ, h0, ?_, h2, ?_, ?_⟩
  · rcases h4 with h4 | ⟨a, ⟨i, hi, j, hj, ha⟩, h4⟩
    · rw [h4]; exact zero_le_one
    · rw [← h4]
      exact div_le_one_of_le₀ (hdrop _ _) (maxAbs_spec _).1
  · intro i hi j hj
    obtain ⟨r, hr, hfit⟩ := e4 i hi j hj
    obtain ⟨x, hx, hxm⟩ := hpk r (hpos i j r hr)
    refine ⟨r, hr, x, hx, fun k hk => ?_⟩
    rw [lostAt_fitted hfit (hz i j r hr), ← hxm]
    have hle := (div_le_iff₀ (maxAbs_pos (hpos i j r hr))).1 (h3 r ⟨i, hi, j, hj, hr⟩)
    split
    · rw [abs_zero]
      exact mul_nonneg h0 (maxAbs_spec r).1
    · next hkm =>
      refine le_trans ?_ hle
      apply (maxAbs_spec _).2.1
      rw [List.getD_eq_getElem?_getD, List.getElem?_eq_getElem hk, Option.getD_some]
      rw [List.mem_drop_iff_getElem]
      refine ⟨k - min r.length c.irLen, by omega, ?_⟩
      congr 1
      omega
  · by_cases hρ : ρ = 0
    · exact .inl hρ
    rcases h4 with h4 | ⟨r, ⟨i, hi, j, hj, hr⟩, h4⟩
    · exact .inl h4
    · refine .inr ⟨i, hi, j, hj, r, hr, ?_⟩
      obtain ⟨r', hr', hfit⟩ := e4 i hi j hj
      rw [hr] at hr'
      cases hr'
      have hp := maxAbs_pos (hpos i j r hr)
      have e : maxAbs (r.drop (min r.length c.irLen)) = ρ * maxAbs r := by
        rw [← h4]
        exact (div_mul_cancel₀ _ hp.ne').symm
      have hne : r.drop (min r.length c.irLen) ≠ [] := by
        intro hnil
        rw [hnil] at e
        have : ρ * maxAbs r = 0 := by rw [← e]; rfl
        rcases mul_eq_zero.1 this with h | h
        · exact hρ h
        · exact hp.ne' h
      obtain ⟨y, hy, hym⟩ := (maxAbs_spec _).2.2 hne
      rw [List.mem_drop_iff_getElem] at hy
      obtain ⟨k, hk, rfl⟩ := hy
      refine ⟨min r.length c.irLen + k, by omega, fun x hx => ?_⟩
      rw [lostAt_fitted hfit (hz i j r hr), if_neg (by omega), List.getD_eq_getElem?_getD,
        List.getElem?_eq_getElem (by omega), Option.getD_some, ← hym, e]
      exact mul_le_mul_of_nonneg_left ((maxAbs_spec r).2.1 x hx) h0

/-- C95: the truncation error is `nan` exactly if some simulated response is silent. -/
theorem C95_silent {c : RirCfg ℝ Pt G} (hc : c.Lawful) {src mic : Geo Pt} (ho : mic.omni = true) {g : G}
    {measure : List (List (List ℝ)) → Except PyErr (List ℝ)} {maxOrder : Nat} {md : IsmMeta ℝ}
    (hmeta : ismMeta c (Real.logb 10) measure maxOrder g src mic = .ok md) :
    md.truncError = .nan ↔ ∃ i < src.pos.length, ∃ j < mic.pos.length, ∃ r,
      c.simulated g src.pos mic.pos i j = some r ∧ ∀ x ∈ r, x = 0 := by
  obtain ⟨⟨m1, m2⟩, _⟩ := ismMeta_spec hc ho hmeta
  have hnan : ∀ (r : List ℝ) (L : Nat), truncError (Real.logb 10) r L = .nan ↔ ∀ x ∈ r, x = 0 := by
    intro r L
    rw [← energy_eq_zero]
    unfold truncError
    simp only
    split
    · next h => simp [h]
    · next h => split <;> simp [h]
  constructor
  · intro he
    by_contra hno
    refine (m2 ?_).1 he
    rintro ⟨i, hi, j, hj, _, r, hr, hd⟩
    exact hno ⟨i, hi, j, hj, r, hr, (hnan r _).1 hd.symm⟩
  · rintro ⟨i, hi, j, hj, r, hr, h0⟩
    exact m1 ⟨i, hi, j, hj, hj, r, hr, ((hnan r _).2 h0).symm⟩

/-- C95, reverberation time, for at most 500 microphones: the statistics are those of the
values measured for all sources and microphones.  Missing: more than 500 microphones,
see `C95_violated`. -/
theorem C95_rt60_partial {c : RirCfg ℝ Pt G} (hc : c.Lawful) {src mic : Geo Pt} (ho : mic.omni = true) {g : G}
    {measure : List (List (List ℝ)) → Except PyErr (List ℝ)} {maxOrder : Nat} {md : IsmMeta ℝ}
    (hmeta : ismMeta c (Real.logb 10) measure maxOrder g src mic = .ok md)
    (hlen : mic.pos.length ≤ 500) (hord : maxOrder ≠ 0) :
    md.rt60 = match measure (c.roomRir g src.pos mic.pos).2 with
      | .ok l => .measured l
      | .error _ => .failed := by
  obtain ⟨_, _, _, m3⟩ := ismMeta_spec hc ho hmeta
  obtain ⟨hne, m3⟩ := m3 hord
  have hpos := List.length_pos_of_ne_nil hne
  rw [m3, show (mic.pos.length - 1) / 500 = 0 by omega]
  have : micBatch mic.pos 0 = mic.pos := by
    unfold micBatch
    rw [Nat.mul_zero, List.drop_zero, List.take_of_length_le hlen]
  rw [this]
  rfl

end

/-! ### Example: responses of three samples, cut after two -/

/-- The response from `s` to `m` is `[m - s, 1, 1]`. -/
def shortRoom : RirCfg ℝ ℝ Nat where
  irLen := 2
  dims := 3
  highpass := false
  pad := 1
  minDly := 0
  normal := fun g _ _ _ => (g, fun _ _ _ => 0)
  roomRir := fun g ss ms => (g + 1, ms.map fun m => ss.map fun s => [m - s, 1, 1])
  sos := id

theorem shortRoom_lawful : shortRoom.Lawful := by
  refine ⟨by simp [shortRoom], ?_, by simp [shortRoom], le_rfl⟩
  intro g ss ms x hx
  simp only [shortRoom, List.mem_map] at hx
  obtain ⟨m, _, rfl⟩ := hx
  simp

theorem shortRoom_resp {g : Nat} {ss ms : List ℝ} {i j : Nat} {r : List ℝ}
    (h : shortRoom.simulated g ss ms i j = some r) : ∃ d, r = [d, 1, 1] := by
  unfold RirCfg.simulated at h
  obtain ⟨x, hx, hr⟩ := Option.bind_eq_some_iff.1 h
  have := List.mem_of_getElem? hx
  simp only [shortRoom, List.mem_map] at this
  obtain ⟨m, _, rfl⟩ := this
  have := List.mem_of_getElem? hr
  simp only [List.mem_map] at this
  obtain ⟨s, _, rfl⟩ := this
  exact ⟨_, rfl⟩

theorem shortRoom_dly : ∀ g ss ms, ∀ x ∈ (shortRoom.roomRir g ss ms).2, ∀ r ∈ x,
    shortRoom.minDly ≤ min r.length shortRoom.irLen := by
  intro g ss ms x _ r _
  exact Nat.zero_le _

theorem shortRoom_meta (measure : List (List (List ℝ)) → Except PyErr (List ℝ))
    (hm : ∀ x, ∃ l, measure x = .ok l) (src : Geo ℝ) (mic : Geo ℝ) (ho : mic.omni = true) (hne : mic.pos ≠ []) :
    ∃ md, ismMeta shortRoom (Real.logb 10) measure 3 0 src mic = .ok md := by
  obtain ⟨acc, room, h1, _, _, _, h5⟩ := ismMetaLoop_spec shortRoom_lawful (Real.logb 10) (src := src) ho (g := 0)
    mic.pos.length 0 (acc := (.negInf, .negInf)) (room := none) (by omega)
    (Db.isMax_empty.congr fun d => ⟨fun h => h.elim, fun ⟨_, _, _, _, h, _⟩ => by omega⟩)
    (Db.isMax_empty.congr fun d => ⟨fun h => h.elim, fun ⟨_, _, _, _, h, _⟩ => by omega⟩)
    (fun h => by omega) (fun _ => rfl) (fun h => by omega)
  rw [show min (500 * 0) mic.pos.length = 0 by omega] at h1
  obtain ⟨l, hl⟩ := hm (shortRoom.roomRir (shortRoom.stateBefore 0 src.pos mic.pos ((mic.pos.length - 1) / 500)) src.pos
          (micBatch mic.pos ((mic.pos.length - 1) / 500))).2
  refine ⟨⟨acc.1, acc.2, .measured l⟩, ?_⟩
  have : shortRoom.stateBefore 0 src.pos mic.pos 0 = 0 := rfl
  rw [this] at h1
  unfold ismMeta
  rw [h1, h5 hne]
  simp only [hl]
  rw [if_neg (by decide)]

/-- The hypotheses of `C95_error` and `C95_value` hold; of the responses `[1, 1, 1]` and
`[0, 1, 1]` the second loses half of its energy, which is reported. -/
example : ∃ md, ismMeta shortRoom (Real.logb 10) (fun _ => .ok []) 3 0 ⟨1, [0], true⟩ ⟨2, [1, 0], true⟩ = .ok md ∧
    md.truncError = .fin (10 * Real.logb 10 (1 / 2)) := by
  obtain ⟨md, hmd⟩ := shortRoom_meta (fun _ => .ok []) (fun _ => ⟨_, rfl⟩) ⟨1, [0], true⟩ ⟨2, [1, 0], true⟩ rfl
    (by simp)
  obtain ⟨g', h, h1, h2, h3, h4⟩ := ismPath_spec shortRoom_lawful (src := ⟨1, [0], true⟩) (mic := ⟨2, [1, 0], true⟩)
    rfl 0 shortRoom_dly
  have hz : ∀ (i j : Nat) r, shortRoom.simulated 0 [0] [1, 0] i j = some r → ∀ k < shortRoom.minDly, r.getD k 0 = 0 :=
    fun _ _ _ _ k hk => absurd hk (Nat.not_lt_zero k)
  have hpos : ∀ (i j : Nat) r, shortRoom.simulated 0 [0] [1, 0] i j = some r → ∃ x ∈ r, x ≠ 0 := by
    intro i j r hr
    obtain ⟨d, rfl⟩ := shortRoom_resp hr
    exact ⟨1, by simp, one_ne_zero⟩
  obtain ⟨ρ, r1, r2, r3, r4, r5⟩ := C95_error shortRoom_lawful (src := ⟨1, [0], true⟩) (mic := ⟨2, [1, 0], true⟩) rfl
    shortRoom_dly h1 hmd hz hpos
  have hs1 : shortRoom.simulated 0 [0] [1, 0] 0 0 = some [1 - 0, 1, 1] := rfl
  have hs2 : shortRoom.simulated 0 [0] [1, 0] 0 1 = some [0 - 0, 1, 1] := rfl
  have hl : ∀ j < 2, ∀ d : ℝ, shortRoom.simulated 0 [0] [1, 0] 0 j = some [d, 1, 1] →
      lostEnergy 0 [d, 1, 1] (h.ir 0 j) = 1 := by
    intro j hj d hd
    obtain ⟨r, hr, hf⟩ := h4 0 (by simp) j hj
    rw [show (⟨1, [0], true⟩ : Geo ℝ).pos = [0] from rfl, show (⟨2, [1, 0], true⟩ : Geo ℝ).pos = [1, 0] from rfl,
      hd] at hr
    cases hr
    rw [show lostEnergy 0 [d, 1, 1] (h.ir 0 j) = lostEnergy shortRoom.minDly [d, 1, 1] (h.ir 0 j) from rfl,
      lostEnergy_fitted hf (fun k hk => absurd hk (Nat.not_lt_zero k))]
    simp [energy, shortRoom]
  have hρ : ρ = 1 / 2 := by
    obtain ⟨r, hr, hle⟩ := r4 0 (by simp) 1 (by simp)
    rw [hs2] at hr
    cases hr
    rw [show shortRoom.minDly = 0 from rfl, hl 1 (by decide) _ hs2] at hle
    norm_num at hle
    rcases r5 with r5 | ⟨i, hi, j, hj, r, hr, he⟩
    · rw [r5] at hle; norm_num at hle
    · have hi : i = 0 := by simpa using hi
      subst hi
      have hj : j < 2 := hj
      match j, hj with
      | 0, _ =>
        rw [hs1] at hr
        cases hr
        rw [show shortRoom.minDly = 0 from rfl, hl 0 (by decide) _ hs1] at he
        norm_num at he
        linarith
      | 1, _ =>
        rw [hs2] at hr
        cases hr
        rw [show shortRoom.minDly = 0 from rfl, hl 1 (by decide) _ hs2] at he
        norm_num at he
        linarith
  refine ⟨md, hmd, ?_⟩
  rw [r3, hρ, if_neg (by norm_num)]

/-- C95 is violated for more than 500 microphones: with 501 of them the reverberation time is
measured at the last one only. -/
theorem C95_violated : ∃ (src mic : Geo ℝ) (md : IsmMeta ℝ), mic.pos.length = 501 ∧ src.pos.length = 1 ∧
    ismMeta shortRoom (Real.logb 10) (fun rirs => .ok (rirs.flatten.map fun r => r.getD 0 0)) 3 0 src mic = .ok md ∧
    md.rt60 = .measured [500] ∧
    ∀ j < 501, ∃ r, shortRoom.simulated 0 src.pos mic.pos 0 j = some r ∧ r.getD 0 0 = (j : ℝ) := by
  obtain ⟨mic, hmic⟩ : ∃ mic : Geo ℝ, mic = ⟨501, (List.range 501).map fun (k : Nat) => (k : ℝ), true⟩ := ⟨_, rfl⟩
  have hlen : mic.pos.length = 501 := by rw [hmic]; simp
  have hbat : ∀ b, micBatch mic.pos b = ((List.range' (500 * b) (min 500 (501 - 500 * b)))).map fun (k : Nat) => (k : ℝ) := by
    intro b
    rw [hmic]
    unfold micBatch
    simp only
    rw [← List.map_drop, ← List.map_take]
    congr 1
    apply List.ext_getElem
    · simp
    · intro i h1 h2
      simp
  obtain ⟨md, hmd⟩ := shortRoom_meta (fun rirs => .ok (rirs.flatten.map fun r => r.getD 0 0)) (fun _ => ⟨_, rfl⟩)
    ⟨1, [0], true⟩ mic (by rw [hmic]) (List.ne_nil_of_length_pos (by omega))
  refine ⟨⟨1, [0], true⟩, mic, md, hlen, rfl, hmd, ?_, ?_⟩
  · obtain ⟨_, _, _, m3⟩ := ismMeta_spec shortRoom_lawful (by rw [hmic]) hmd
    rw [(m3 (by decide)).2, hlen, hbat]
    simp [shortRoom]
  · intro j hj
    unfold RirCfg.simulated
    rw [hbat]
    simp only [shortRoom, List.map_map, List.getElem?_map]
    rw [List.getElem?_range' (by omega)]
    simp
    exact_mod_cast Nat.div_add_mod j 500

end Verif

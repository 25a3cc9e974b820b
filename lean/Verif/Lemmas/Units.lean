import Verif.Lemmas.Recording
import Verif.Lemmas.Started

/-!
Diagnostics that save at single time indices (state and instant diagnostics).
-/

namespace Verif

theorem Chain.unit {a s : Int} {ps : List (Int × Int)} (h : Chain a ps s) (hs : s < a + 1) : ps = [] := by
  cases ps with
  | nil => rfl
  | cons q ps =>
    obtain ⟨h1, h2, h3⟩ := h
    have := h3.le
    omega

theorem Chain.unit_eq {a : Int} {ps : List (Int × Int)} (h : Chain a ps (a + 1)) : ps = [(a, a + 1)] := by
  cases ps with
  | nil => exact absurd (show a = a + 1 from h) (by omega)
  | cons q ps =>
    obtain ⟨h1, h2, h3⟩ := h
    have := h3.le
    have e : q.2 = a + 1 := by omega
    rw [e] at h3
    rw [h3.unit (by omega)]
    obtain ⟨q1, q2⟩ := q
    simp only at h1 e
    rw [h1, e]

/-- Single indices are not cut any further. -/
theorem Refine.units {ivs ps : List (Int × Int)} (h : Refine ivs ps) (hu : ∀ q ∈ ivs, q.2 = q.1 + 1) :
    ps = ivs := by
  induction h with
  | nil => rfl
  | @cons a b ivs ps qs hc _ ih =>
    have hb : b = a + 1 := hu (a, b) (by simp)
    subst hb
    rw [hc.unit_eq, ih fun q hq => hu q (by simp [hq])]
    rfl

theorem Increasing.mono {lo lo' : Int} {ivs : List (Int × Int)} (h : Increasing lo ivs) (hl : lo' ≤ lo) :
    Increasing lo' ivs := by
  cases ivs with
  | nil => trivial
  | cons q ivs => exact ⟨by have := h.1; omega, h.2.1, h.2.2⟩

theorem Increasing.ends {lo : Int} {ivs : List (Int × Int)} (h : Increasing lo ivs) :
    ∀ q ∈ ivs, lo < q.2 := by
  intro q hq
  induction ivs generalizing lo with
  | nil => cases hq
  | cons p ivs ih =>
    obtain ⟨h1, h2, h3⟩ := h
    rcases List.mem_cons.1 hq with rfl | hq
    · omega
    · have := ih h3 hq; omega

/-- At any time exactly the indices already passed have been saved. -/
theorem IvInv.units {k r : Int} {ivs : List (Int × Int)} {c : IvCounter} {ps : List (Int × Int)}
    (h : IvInv k r ivs c ps) (hu : ∀ q ∈ ivs, q.2 = q.1 + 1) :
    ps = ivs.filter fun q => decide (q.2 < k) := by
  obtain ⟨h1, h2, h3⟩ := h
  rcases h3 with ⟨h3, _⟩ | ⟨done, dp, cp, a, s, e, g1, g2, g3, g4, g5, g6, g7, g8, g9, g10, g11⟩
  · have := h3.units hu
    subst this
    rw [List.filter_eq_self.2]
    intro q hq
    simpa using (h2 q hq).2.2
  · have he : e = a + 1 := hu (a, e) (by rw [g1]; simp)
    have hcp := g6.unit (by omega)
    have hdp := g5.units fun q hq => hu q (by rw [g1]; simp [hq])
    subst hcp hdp
    rw [List.append_nil] at g4
    subst g4
    rw [g1, List.filter_append, List.filter_eq_self.2, List.filter_eq_nil_iff.2, List.append_nil]
    · intro q hq
      simp only [decide_eq_true_eq, not_lt]
      rcases List.mem_cons.1 hq with rfl | hq
      · exact g8
      · have := g11.ends q hq; omega
    · intro q hq
      simpa using (h2 q hq).2.2

theorem lastEnd_concat (lo : Int) (ps : List (Int × Int)) (q : Int × Int) : lastEnd lo (ps ++ [q]) = q.2 := by
  simp [lastEnd]

section
variable {R IR F S A P V : Type} [Field R] [DecidableEq R]
  {cfg : SimCfg R IR F S A P (DData R P V) (DOut R V)} {lp : ProcView R P}
  {srcs : String → S} {arr : A} {proc : P} {f0 : F} {ds0 : List (Diag (DData R P V))}
  {st0 fin : SimSt R F S A P (DData R P V) (DOut R V)}

/-- Everything about one diagnostic that saves at single time indices. -/
theorem DiagRun.unit_spec {ok : String → Prop} {T : Tape R} {pf : Nat → Option P}
    (h : DiagRun cfg ds0 st0 fin ok T pf) :
    ∀ d0 ∈ ds0, (∀ name ∈ d0.data.reads, ok name) → ∀ ivs, d0.saveAt = IvCounter.init ivs → Increasing 0 ivs →
      (∀ q ∈ ivs, q.2 = q.1 + 1) →
      ∃ d ∈ fin.diags, d.name = d0.name ∧ ∃ ps xs,
        ps = ivs.filter (fun q => decide (q.2 < ((cfg.tot + cfg.mbs : Nat) : Int))) ∧
        savePieces (diagOps R P V) cfg.dims T pf ps d0.data = .ok d.data ∧
        d0.exportAt.left = xs ++ d.exportAt.left ∧
        (evOf d0.name fin.log).map Event.time = xs ∧
        (∀ ev ∈ evOf d0.name fin.log, ∃ qs, qs <+: ps ∧ ∃ dd,
          savePieces (diagOps R P V) cfg.dims T pf qs d0.data = .ok dd ∧
          DData.output dd ev.time = .ok ev.out ∧ ev.time ≤ lastEnd 0 qs ∧
          (cfg.plotNone = false → d0.exportAt.left.Pairwise (· < ·) →
            ev.time ≤ 0 ∨ lastEnd 0 qs.dropLast < ev.time)) ∧
        (cfg.plotNone = false → d0.exportAt.left.Pairwise (· < ·) →
          ∀ x ∈ d.exportAt.left, lastEnd 0 ps < x) := by
  intro d0 hd0 hok ivs hiv hinc hu
  obtain ⟨d, hd, hname, ps, xs, r, hI, hready⟩ := h.raw d0 hd0 hok ⟨ivs, hiv, hinc⟩
  have hiv' := hI.iv
  rw [hiv, IvCounter.left_init] at hiv'
  refine ⟨d, hd, hname, ps, xs, hiv'.units hu, ?_, hI.left, hI.times, ?_, ?_⟩
  · rw [← h.diag]; exact hI.data
  · have := hI.outs
    rw [h.diag] at this
    exact this
  · intro hp hpw x hx
    have hpw' : d.exportAt.left.Pairwise (· < ·) := by
      rw [hI.left] at hpw
      exact (List.pairwise_append.1 hpw).2.1
    rw [← hiv'.1]
    exact Diag.not_ready (hready hp) hpw' x hx

end

/-! ### Intervals generated from a frequency -/

theorem pyRange_freq (s f m : Nat) (hf : 0 < f) (a : Int) :
    pyRange (s * f - 1 + a) (m + a) f =
      (List.range ((m + f) / f - s)).map fun i => (((i + s) * f : Nat) : Int) - 1 + a := by
  unfold pyRange
  have hn : (((m : Int) + a - (s * f - 1 + a) + f - 1) / f).toNat = (m + f) / f - s := by
    have e : (m : Int) + a - (s * f - 1 + a) + f - 1 = (m + f : Nat) + (-(s : Int)) * f := by
      push_cast; ring
    rw [e, Int.add_mul_ediv_right _ _ (by omega), ← Int.natCast_ediv]
    omega
  rw [hn]
  refine List.map_congr_left fun i _ => ?_
  push_cast
  ring

/-- The intervals of `IntervalCounter.from_frequency`. -/
def freqIvs (f m s : Nat) : List (Int × Int) :=
  (List.range ((m + f) / f - s)).map fun i => ((((i + s) * f : Nat) : Int) - 1, (((i + s) * f : Nat) : Int))

theorem fromFrequency_eq {f m : Nat} {z : Bool} {c : IvCounter} {nv : Nat}
    (h : IvCounter.fromFrequency f m z = .ok (c, nv)) :
    0 < f ∧ c = IvCounter.init (freqIvs f m (if z then 0 else 1)) ∧ nv = (m + f - 1) / f := by
  unfold IvCounter.fromFrequency at h
  split at h
  · cases h
  · rename_i hf
    have hf' : 0 < f := by omega
    refine ⟨hf', ?_, (congrArg Prod.snd (Except.ok.inj h)).symm⟩
    have h1 := (congrArg Prod.fst (Except.ok.inj h)).symm
    simp only at h1
    rw [h1]
    congr 1
    have e1 := pyRange_freq (if z then 0 else 1) f m hf' 0
    have e2 := pyRange_freq (if z then 0 else 1) f m hf' 1
    simp only [add_zero] at e1
    have e3 : (((if z then 0 else 1 : Nat) : Int) * f - 1) = (if z then 0 else (f : Int)) - 1 := by
      cases z <;> simp
    have e4 : (((if z then 0 else 1 : Nat) : Int) * f - 1 + 1) = (if z then 0 else (f : Int)) := by
      cases z <;> simp
    rw [e3] at e1
    rw [e4] at e2
    rw [e1, e2, List.zip_map', freqIvs]
    refine List.map_congr_left fun i _ => ?_
    simp

theorem freqIvs_unit (f m s : Nat) : ∀ q ∈ freqIvs f m s, q.2 = q.1 + 1 := by
  intro q hq
  obtain ⟨i, _, rfl⟩ := List.mem_map.1 hq
  simp

theorem freqIvs_one (f m : Nat) (hf : 0 < f) :
    freqIvs f m 1 = (List.range (m / f)).map fun i =>
      ((((i + 1) * f : Nat) : Int) - 1, (((i + 1) * f : Nat) : Int)) := by
  unfold freqIvs
  rw [Nat.add_div_right _ hf]
  rfl

theorem increasing_map (g : Nat → Int × Int) (hu : ∀ i, (g i).1 < (g i).2) (hg : ∀ i, (g i).2 ≤ (g (i + 1)).1) :
    ∀ (n s : Nat) (lo : Int), lo ≤ (g s).1 → Increasing lo ((List.range' s n).map g)
  | 0, _, _, _ => trivial
  | n + 1, s, lo, h => by
    rw [List.range'_succ]
    exact ⟨h, hu s, increasing_map g hu hg n (s + 1) _ (hg s)⟩

theorem freqIvs_increasing (f m s : Nat) (hf : 0 < f) (hs : 0 < s) : Increasing 0 (freqIvs f m s) := by
  unfold freqIvs
  rw [List.range_eq_range']
  refine increasing_map _ (fun i => by simp) (fun i => ?_) _ _ _ ?_
  · simp only
    have : (i + 1 + s) * f = (i + s) * f + f := by ring
    omega
  · simp only
    have : 1 * 1 ≤ (0 + s) * f := Nat.mul_le_mul (by omega) hf
    omega

theorem freqIvs_le {f m s : Nat} : ∀ q ∈ freqIvs f m s, q.2 ≤ (m : Int) := by
  intro q hq
  obtain ⟨i, hi, rfl⟩ := List.mem_map.1 hq
  rw [List.mem_range] at hi
  have hf : 0 < f := by
    rcases Nat.eq_zero_or_pos f with rfl | h
    · simp at hi
    · exact h
  have h1 : i + s ≤ m / f := by
    rw [Nat.add_div_right _ hf] at hi
    omega
  have h2 : (i + s) * f ≤ m := le_trans (Nat.mul_le_mul_right f h1) (Nat.div_mul_le_self _ _)
  show (((i + s) * f : Nat) : Int) ≤ m
  exact_mod_cast h2

end Verif

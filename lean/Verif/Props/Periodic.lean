/-
C141: periodic sources give periodic microphone signals.  C142: a pulse train measures the impulse response.
-/
import Verif.Props.Delay
import Verif.Lemmas.Transfer
namespace Verif

section
variable {R S A P V : Type} [Field R] [DecidableEq R]
  {cfg : SimCfg R (IrMat R) (Fir R) S A P (DData R P V) (DOut R V)} {lp : ProcView R P}
  {srcs : String → S} {arr : A} {proc : P} {f0 : Fir R}
  {ds : List (Diag (DData R P V))}
  {st0 st : SimSt R (Fir R) S A P (DData R P V) (DOut R V)} {k : Nat}

/-- **C141** A simulation without processors and with arrays that stand still, where every source repeats itself after
`T` samples and no path is longer than `L` samples: from the time on at which the sources have played `L` samples,
every microphone signal and every contribution signal repeats itself after `T` samples.  With
`start_sources_before_0` and a buffer of at least `L` samples this is the case from the beginning. -/
theorem C141_periodic (h : Started cfg lp srcs arr proc f0 ds st0) (hk : cfg.steps k st0 = .ok st)
    (hproc : cfg.proc = none) (hfilt : cfg.filt = firOps R) (hpos : ∀ a ∈ cfg.arrays, 0 < a.num)
    (hsh : cfg.PathShape arr) (hstat : ∀ a ∈ cfg.arrays, a.dynamic = false) {x : String → Nat → Nat → R} {T L : Nat}
    (hx : ∀ a ∈ cfg.arrays, a.kind = .free → IsStream cfg.srcGet (srcs a.name) a.num (x a.name))
    (hT : ∀ s ∈ cfg.arrays, s.kind = .free → ∀ i < s.num, ∀ j, x s.name i (j + T) = x s.name i j)
    {m : ArrInfo} (hm : m ∈ cfg.arrays) (hmic : m.kind = .mic)
    (hL : ∀ s ∈ cfg.arrays, s.kind ≠ .mic → ∀ ir, cfg.arrPath arr s.name m.name = .ok ir →
      ∀ i < s.num, ∀ c < m.num, (ir.ir i c).length ≤ L) {name : String}
    (hname : name = m.name ∨ (cfg.contrib = true ∧ ∃ s ∈ cfg.arrays, s.kind ≠ .mic ∧ name = s.name ++ "~" ++ m.name))
    {t : Nat} (ht : t + T ≤ k) (hfull : L ≤ t + if cfg.warm then cfg.B else 1) {c : Nat} (hc : c < m.num) :
    ∃ v, cfg.Produced st0 name c t v ∧ cfg.Produced st0 name c (t + T) v := by
  have hplay : ∀ s ∈ cfg.arrays, ∀ i < s.num, ∀ u : Int, -((if cfg.warm then cfg.B else 1 : Nat) : Int) < u →
      cfg.played x s.name i (u + T) = cfg.played x s.name i u := by
    intro s hs i hi u hu
    unfold SimCfg.played
    revert hu
    generalize (if cfg.warm then cfg.B else 1 : Nat) = pn
    intro hu
    by_cases hf : ∃ a ∈ cfg.arrays, a.name = s.name ∧ a.kind = .free
    · obtain ⟨s', b1, b2, b3⟩ := id hf
      rw [h.nm.inj s' b1 s hs b2] at b3
      simp only [hf, true_and]
      rw [if_pos hu, if_pos (by omega), ← hT s hs b3 i hi (u + pn - 1).toNat]
      exact congrArg (x s.name i) (by omega)
    · simp only [hf, false_and, if_false]
  have hir : ∀ {s : ArrInfo} {t : Nat} {h : IrMat R}, s ∈ cfg.arrays → cfg.IrAt arr s m t h → cfg.arrPath arr s.name m.name = .ok h := by
    intro s t h hs hi
    cases t with
    | zero => exact hi
    | succ t =>
      change if _ then _ else _ at hi
      rwa [if_neg (by rw [hstat s hs, hstat m hm]; simp)] at hi
  obtain ⟨i1, p1, q1⟩ := C18_open_loop h hk hproc hfilt hpos hsh hx hm hmic t (by omega)
  obtain ⟨i2, p2, q2⟩ := C18_open_loop h hk hproc hfilt hpos hsh hx hm hmic (t + T) ht
  have e2 : ∀ s ∈ cfg.arrays, s.kind ≠ .mic → i2 s.name = i1 s.name := fun s hs hk => by
    have a := hir hs (p1 s hs hk)
    rw [hir hs (p2 s hs hk)] at a
    exact Except.ok.inj a
  have hconv : ∀ l : List ArrInfo, (∀ s ∈ l, s ∈ cfg.arrays ∧ s.kind ≠ .mic) →
      convSum l i2 (cfg.played x) c ((t + T : Nat) : Int) = convSum l i1 (cfg.played x) c (t : Int) := by
    intro l hl
    unfold convSum
    congr 1
    refine List.map_congr_left fun s hs => ?_
    obtain ⟨hs1, hs2⟩ := hl s hs
    rw [e2 s hs1 hs2]
    congr 1
    refine List.map_congr_left fun i hi => ?_
    congr 1
    refine List.map_congr_left fun j hj => ?_
    have hlen := hL s hs1 hs2 _ (hir hs1 (p1 s hs1 hs2)) i (List.mem_range.1 hi) c hc
    have hj' := List.mem_range.1 hj
    rw [← hplay s hs1 i (List.mem_range.1 hi) ((t : Int) - j) (by omega)]
    exact congrArg (fun z => _ * cfg.played x s.name i z) (by omega)
  rcases hname with rfl | ⟨hcon, s, hs, hsk, rfl⟩
  · refine ⟨_, (q1 c hc).1, ?_⟩
    rw [← hconv _ fun s hs => by
      rw [List.mem_filter] at hs
      exact ⟨hs.1, by simpa using hs.2⟩]
    exact (q2 c hc).1
  · refine ⟨_, (q1 c hc).2 hcon s hs hsk, ?_⟩
    rw [← hconv [s] fun s' hs' => by rw [List.mem_singleton.1 hs']; exact ⟨hs, hsk⟩]
    exact (q2 c hc).2 hcon s hs hsk

omit [DecidableEq R] in
/-- The response of a single channel to pulses `T` samples apart. -/
theorem pulse_conv {h : List R} {T : Nat} (hlen : h.length ≤ T) (a : R) (n : Nat) :
    ((List.range h.length).map fun (j : Nat) =>
      h.getD j 0 * if j ≤ n ∧ (n - j) % T = 0 then a else 0).sum = a * h.getD (n % T) 0 := by
  rw [list_sum_range]
  have key : ∀ j < T, (j ≤ n ∧ (n - j) % T = 0) ↔ j = n % T := by
    intro j hj
    constructor
    · rintro ⟨h1, h2⟩
      obtain ⟨q, hq⟩ := Nat.dvd_of_mod_eq_zero h2
      have : n = j + T * q := by omega
      rw [this, Nat.add_mul_mod_self_left, Nat.mod_eq_of_lt hj]
    · rintro rfl
      refine ⟨Nat.mod_le _ _, ?_⟩
      exact Nat.sub_mod_eq_zero_of_mod_eq (by simp)
  by_cases hn : n % T < h.length
  · rw [Finset.sum_eq_single (n % T)]
    · rw [if_pos ((key _ (by omega)).2 rfl), mul_comm]
    · intro j hj hne
      have := Finset.mem_range.1 hj
      rw [if_neg fun hh => hne ((key j (by omega)).1 hh), mul_zero]
    · intro hh
      exact absurd (Finset.mem_range.2 hn) hh
  · rw [List.getD_eq_default _ _ (by omega), mul_zero]
    refine Finset.sum_eq_zero fun j hj => ?_
    have := Finset.mem_range.1 hj
    rw [if_neg, mul_zero]
    intro hh
    have := (key j (by omega)).1 hh
    omega

/-- **C142** A simulation without processors, where channel `i0` of the source `s0` plays a pulse of height `a` every `T`
samples, and everything else is silent: at every time each microphone records `a` times one sample of the impulse
response in force from that channel, the one whose number is the time since the last pulse (0 if the
response is shorter), if the response is not longer than `T` samples. -/
theorem C142_pulses (h : Started cfg lp srcs arr proc f0 ds st0) (hk : cfg.steps k st0 = .ok st)
    (hproc : cfg.proc = none) (hfilt : cfg.filt = firOps R) (hpos : ∀ a ∈ cfg.arrays, 0 < a.num)
    (hsh : cfg.PathShape arr) {x : String → Nat → Nat → R}
    (hx : ∀ a ∈ cfg.arrays, a.kind = .free → IsStream cfg.srcGet (srcs a.name) a.num (x a.name))
    {s0 : ArrInfo} (hs0 : s0 ∈ cfg.arrays) (hfree : s0.kind = .free) {i0 : Nat} (hi0 : i0 < s0.num) {a : R} {T : Nat}
    (hpulse : ∀ j, x s0.name i0 j = if j % T = 0 then a else 0)
    (hsilent : ∀ s ∈ cfg.arrays, s.kind = .free → ∀ i < s.num, ¬ (s.name = s0.name ∧ i = i0) → ∀ j, x s.name i j = 0)
    {m : ArrInfo} (hm : m ∈ cfg.arrays) (hmic : m.kind = .mic) {t : Nat} (ht : t ≤ k) {c : Nat} (hc : c < m.num) :
    ∃ ir, cfg.IrAt arr s0 m t ir ∧ ((ir.ir i0 c).length ≤ T →
      cfg.Produced st0 m.name c t (a * (ir.ir i0 c).getD ((t + (if cfg.warm then cfg.B else 1) - 1) % T) 0)) := by
  obtain ⟨ir, p1, q1⟩ := C18_open_loop h hk hproc hfilt hpos hsh hx hm hmic t ht
  have hsk : s0.kind ≠ .mic := by rw [hfree]; simp
  refine ⟨ir s0.name, p1 s0 hs0 hsk, fun hlen => ?_⟩
  have hval := (q1 c hc).1
  convert hval using 1
  have hpn : 1 ≤ (if cfg.warm then cfg.B else 1 : Nat) := by
    split
    · exact h.posB
    · exact le_refl _
  have hplay0 : ∀ s ∈ cfg.arrays, ∀ i < s.num, ¬ (s = s0 ∧ i = i0) → ∀ u, cfg.played x s.name i u = 0 := by
    intro s hs i hi hne u
    unfold SimCfg.played
    generalize (if cfg.warm then cfg.B else 1 : Nat) = pn
    split
    · rename_i hf
      obtain ⟨⟨s', b1, b2, b3⟩, _⟩ := hf
      rw [h.nm.inj s' b1 s hs b2] at b3
      exact hsilent s hs b3 i hi (fun hh => hne ⟨h.nm.inj s hs s0 hs0 hh.1, hh.2⟩) _
    · rfl
  have hplay1 : ∀ j : Nat, cfg.played x s0.name i0 ((t : Int) - j) =
      if j ≤ t + (if cfg.warm then cfg.B else 1) - 1 ∧ (t + (if cfg.warm then cfg.B else 1) - 1 - j) % T = 0 then a else 0 := by
    intro j
    unfold SimCfg.played
    revert hpn
    generalize (if cfg.warm then cfg.B else 1 : Nat) = pn
    intro hpn
    have hex : ∃ a ∈ cfg.arrays, a.name = s0.name ∧ a.kind = .free := ⟨s0, hs0, rfl, hfree⟩
    simp only [hex, true_and]
    by_cases hj : j ≤ t + pn - 1
    · rw [if_pos (by omega), hpulse]
      have : ((t : Int) - j + pn - 1).toNat = t + pn - 1 - j := by omega
      rw [this]
      simp only [hj, true_and]
    · rw [if_neg (by omega), if_neg fun hh => hj hh.1]
  have hone : ((List.range ((ir s0.name).ir i0 c).length).map fun j =>
      ((ir s0.name).ir i0 c).getD j 0 * cfg.played x s0.name i0 ((t : Int) - j)).sum =
      a * ((ir s0.name).ir i0 c).getD ((t + (if cfg.warm then cfg.B else 1) - 1) % T) 0 := by
    rw [← pulse_conv hlen a]
    congr 1
    refine List.map_congr_left fun j _ => ?_
    rw [hplay1 j]
  have hchan : ∀ s ∈ cfg.arrays, ((List.range s.num).map fun i => ((List.range ((ir s.name).ir i c).length).map fun j =>
      ((ir s.name).ir i c).getD j 0 * cfg.played x s.name i ((t : Int) - j)).sum).sum =
      if s = s0 then a * ((ir s0.name).ir i0 c).getD ((t + (if cfg.warm then cfg.B else 1) - 1) % T) 0 else 0 := by
    intro s hs
    rw [list_sum_range]
    have hz : ∀ i < s.num, ¬ (s = s0 ∧ i = i0) → ((List.range ((ir s.name).ir i c).length).map fun j =>
        ((ir s.name).ir i c).getD j 0 * cfg.played x s.name i ((t : Int) - j)).sum = 0 := by
      intro i hi hne
      refine List.sum_eq_zero fun v hv => ?_
      obtain ⟨j, -, rfl⟩ := List.mem_map.1 hv
      rw [hplay0 s hs i hi hne, mul_zero]
    by_cases he : s = s0
    · subst he
      rw [if_pos rfl, Finset.sum_eq_single i0]
      · exact hone
      · intro i hi hne
        exact hz i (Finset.mem_range.1 hi) fun hh => hne hh.2
      · intro hh
        exact absurd (Finset.mem_range.2 hi0) hh
    · rw [if_neg he]
      exact Finset.sum_eq_zero fun i hi => hz i (Finset.mem_range.1 hi) fun hh => he hh.1
  unfold convSum
  have hnd : (cfg.arrays.filter fun s => s.kind != .mic).Nodup := by
    have hn := init_nodup cfg h.init
    unfold SimCfg.signalList at hn
    rw [hproc] at hn
    dsimp only at hn
    rw [List.map_append, List.nodup_append, List.map_map] at hn
    exact (List.Nodup.of_map ArrInfo.name hn.1).filter _
  have hmem : s0 ∈ cfg.arrays.filter fun s => s.kind != .mic := List.mem_filter.2 ⟨hs0, by rw [hfree]; rfl⟩
  have hall : ∀ l : List ArrInfo, (∀ s ∈ l, s ∈ cfg.arrays) → l.Nodup → s0 ∈ l →
      (l.map fun s => ((List.range s.num).map fun i => ((List.range ((ir s.name).ir i c).length).map fun j =>
        ((ir s.name).ir i c).getD j 0 * cfg.played x s.name i ((t : Int) - j)).sum).sum).sum =
      a * ((ir s0.name).ir i0 c).getD ((t + (if cfg.warm then cfg.B else 1) - 1) % T) 0 := by
    intro l
    induction l with
    | nil => intro _ _ hh; cases hh
    | cons s l ih =>
      intro hl hn hs
      rw [List.nodup_cons] at hn
      rw [List.map_cons, List.sum_cons, hchan s (hl s List.mem_cons_self)]
      rcases List.mem_cons.1 hs with rfl | hs
      · rw [if_pos rfl]
        have : (l.map fun s => ((List.range s.num).map fun i => ((List.range ((ir s.name).ir i c).length).map fun j =>
            ((ir s.name).ir i c).getD j 0 * cfg.played x s.name i ((t : Int) - j)).sum).sum).sum = 0 := by
          refine List.sum_eq_zero fun v hv => ?_
          obtain ⟨s', hs', rfl⟩ := List.mem_map.1 hv
          rw [hchan s' (hl s' (List.mem_cons_of_mem _ hs')), if_neg]
          rintro rfl
          exact hn.1 hs'
        rw [this, add_zero]
      · rw [if_neg (by rintro rfl; exact hn.1 hs), zero_add]
        exact ih (fun s' hs' => hl s' (List.mem_cons_of_mem _ hs')) hn.2 hs
  exact (hall _ (fun s hs => (List.mem_filter.1 hs).1) hnd hmem).symm

end

/-! ### A case that meets the hypotheses -/

/-- A microphone pair and a pair of sources, with two taps between every two of them; the first source plays a pulse of height 5
every three samples. -/
def pulseCfg (warm : Bool) : SimCfg ℚ (IrMat ℚ) (Fir ℚ) Nat Unit Unit (DData ℚ Unit ℚ) (DOut ℚ ℚ) where
  B := 4
  C := 2
  tot := 8
  warm := warm
  contrib := true
  plotNone := false
  arrays := [⟨"mic", 2, .mic, false⟩, ⟨"src", 2, .free, false⟩]
  srcGet := fun p n => .ok (p + n, [(List.range n).map fun k => if (p + k) % 3 = 0 then (5 : ℚ) else 0, (List.range n).map fun _ => 0])
  filt := firOps ℚ
  arrUpdate := fun _ _ => .ok ()
  arrPath := fun _ _ _ => .ok ⟨2, 2, fun i j => [(i : ℚ) + 1, (j : ℚ) + 7]⟩
  proc := none
  diag := diagOps ℚ Unit ℚ

/-- What the two sources play. -/
def pulseX (_ : String) (i t : Nat) : ℚ := if i = 0 then if t % 3 = 0 then 5 else 0 else 0

theorem pulse_started (warm : Bool) :
    ∃ st0 st, Started (pulseCfg warm) ⟨0, fun p _ => .ok (p, fun _ _ _ => 0)⟩ (fun _ => 0) () () demoFilt [] st0 ∧
      (pulseCfg warm).steps 7 st0 = .ok st := by
  cases warm <;>
  · refine ⟨_, _, ⟨⟨by decide, by decide, by decide, ?_, ?_⟩, rfl, by decide, rfl⟩, rfl⟩
    · rintro p ⟨⟩
    · rintro p ⟨⟩

theorem pulse_hyps (warm : Bool) : (∀ a ∈ (pulseCfg warm).arrays, 0 < a.num) ∧ (pulseCfg warm).PathShape () ∧
    (∀ a ∈ (pulseCfg warm).arrays, a.dynamic = false) ∧
    (∀ a ∈ (pulseCfg warm).arrays, a.kind = .free → IsStream (pulseCfg warm).srcGet 0 a.num (pulseX a.name)) ∧
    ∀ a ∈ (pulseCfg warm).arrays, a.kind = .free → a = ⟨"src", 2, .free, false⟩ := by
  have hfree : ∀ a ∈ (pulseCfg warm).arrays, a.kind = .free → a = ⟨"src", 2, .free, false⟩ := by
    intro a ha hf
    simp only [pulseCfg, List.mem_cons, List.not_mem_nil, or_false] at ha
    rcases ha with rfl | rfl
    · cases hf
    · rfl
  refine ⟨?_, ?_, ?_, ?_, hfree⟩
  · intro a ha
    simp only [pulseCfg, List.mem_cons, List.not_mem_nil, or_false] at ha
    rcases ha with rfl | rfl <;> decide
  · intro n a _ s m h hs hm hp
    cases hp
    simp only [pulseCfg, List.mem_cons, List.not_mem_nil, or_false] at hm
    rcases hm with rfl | rfl <;> rfl
  · intro a ha
    simp only [pulseCfg, List.mem_cons, List.not_mem_nil, or_false] at ha
    rcases ha with rfl | rfl <;> rfl
  · intro a ha hf
    rw [hfree a ha hf]
    refine isStream_of_inv (fun off s => s = off) rfl ?_
    rintro off s n rfl
    refine ⟨s + n, ?_, rfl⟩
    simp only [pulseCfg, blockOf, pulseX, show List.range 2 = [0, 1] from rfl, List.map_cons, List.map_nil, if_true, one_ne_zero, if_false]

/-- The microphone signals have period 3, from the second sample on, and with `start_sources_before_0` from the first. -/
example (warm : Bool) : ∃ st0, ∀ t, (1 ≤ t ∨ warm = true) → t + 3 ≤ 7 → ∀ c < 2, ∃ v,
    (pulseCfg warm).Produced st0 "mic" c t v ∧ (pulseCfg warm).Produced st0 "mic" c (t + 3) v := by
  obtain ⟨st0, st, h, hk⟩ := pulse_started warm
  obtain ⟨a1, a2, a3, a4, a5⟩ := pulse_hyps warm
  refine ⟨st0, fun t h1 ht c hc => ?_⟩
  refine C141_periodic h hk rfl rfl a1 a2 a3 (x := pulseX) (T := 3) (L := 2) a4 ?_ (m := ⟨"mic", 2, .mic, false⟩)
    (by simp [pulseCfg]) rfl ?_ (.inl rfl) ht ?_ hc
  · intro s _ _ i _ j
    simp [pulseX]
  · intro s _ _ ir hir i _ c _
    cases hir
    simp
  · cases warm
    · simp at h1
      simp [pulseCfg]
      omega
    · simp [pulseCfg]

/-- Five times the response from the first source to the second microphone, `[1, 8]`, every three samples. -/
example : ∃ st0, (pulseCfg false).Produced st0 "mic" 1 3 5 ∧ (pulseCfg false).Produced st0 "mic" 1 4 40 ∧
    (pulseCfg false).Produced st0 "mic" 1 5 0 := by
  obtain ⟨st0, st, h, hk⟩ := pulse_started false
  obtain ⟨a1, a2, a3, a4, a5⟩ := pulse_hyps false
  have key : ∀ t ≤ 7, (pulseCfg false).Produced st0 "mic" 1 t (5 * ([1, 8] : List ℚ).getD (t % 3) 0) := by
    intro t ht
    obtain ⟨ir, h1, h2⟩ := C142_pulses h hk rfl rfl a1 a2 (x := pulseX) a4 (s0 := ⟨"src", 2, .free, false⟩)
      (by simp [pulseCfg]) rfl (i0 := 0) (by decide) (a := 5) (T := 3) (fun j => rfl)
      (fun s hs hf i hi hne j => by
        have hi0 : i ≠ 0 := fun h0 => hne ⟨congrArg ArrInfo.name (a5 s hs hf), h0⟩
        simp [pulseX, hi0]) (m := ⟨"mic", 2, .mic, false⟩) (by simp [pulseCfg]) rfl ht (c := 1) (by decide)
    have hir : ir = ⟨2, 2, fun i j => [(i : ℚ) + 1, (j : ℚ) + 7]⟩ := by
      unfold SimCfg.IrAt at h1
      cases t <;> simp [pulseCfg] at h1 <;> exact h1.symm
    subst hir
    have h3 := h2 (by simp)
    have e : ((5 : ℚ) * ([1, 8] : List ℚ).getD (t % 3) 0) = 5 * ([((0 : Nat) : ℚ) + 1, ((1 : Nat) : ℚ) + 7] : List ℚ).getD (t % 3) 0 := by
      norm_num
    rw [e]
    exact h3
  refine ⟨st0, ?_, ?_, ?_⟩
  · simpa using key 3 (by decide)
  · have := key 4 (by decide)
    norm_num at this
    exact this
  · have := key 5 (by decide)
    norm_num at this
    exact this

end Verif

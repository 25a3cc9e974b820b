/-
C121: playing everything later.
-/
import Verif.Props.OpenLoop
namespace Verif

section
variable {R S A P V : Type} [Field R] [DecidableEq R]
  {cfg : SimCfg R (IrMat R) (Fir R) S A P (DData R P V) (DOut R V)} {lp : ProcView R P}
  {srcs1 srcs2 : String → S} {arr : A} {proc : P} {f0 : Fir R}
  {ds1 ds2 : List (Diag (DData R P V))}
  {sta1 sta2 stb1 stb2 : SimSt R (Fir R) S A P (DData R P V) (DOut R V)} {k : Nat}

/-- **C121** Two simulations without processors and with arrays that stand still, where every source of the
second one plays `d` zeros and then what it plays in the first one: every microphone signal and
every contribution signal is that of the first one, `d` samples later; before that there is
silence, if the sources start at time 0. -/
theorem C121_delay (h1 : Started cfg lp srcs1 arr proc f0 ds1 sta1) (h2 : Started cfg lp srcs2 arr proc f0 ds2 sta2)
    (hk1 : cfg.steps k sta1 = .ok stb1) (hk2 : cfg.steps k sta2 = .ok stb2)
    (hproc : cfg.proc = none) (hfilt : cfg.filt = firOps R) (hpos : ∀ a ∈ cfg.arrays, 0 < a.num)
    (hsh : cfg.PathShape arr) (hstat : ∀ a ∈ cfg.arrays, a.dynamic = false) {x y : String → Nat → Nat → R} {d : Nat}
    (hx : ∀ a ∈ cfg.arrays, a.kind = .free → IsStream cfg.srcGet (srcs1 a.name) a.num (x a.name))
    (hy : ∀ a ∈ cfg.arrays, a.kind = .free → IsStream cfg.srcGet (srcs2 a.name) a.num (y a.name))
    (hxy : ∀ s ∈ cfg.arrays, s.kind = .free → ∀ i < s.num, ∀ j,
      y s.name i j = if j < d then 0 else x s.name i (j - d))
    {m : ArrInfo} (hm : m ∈ cfg.arrays) (hmic : m.kind = .mic) {name : String}
    (hname : name = m.name ∨ (cfg.contrib = true ∧ ∃ s ∈ cfg.arrays, s.kind ≠ .mic ∧ name = s.name ++ "~" ++ m.name)) :
    ∀ t ≤ k, ∀ c < m.num, (d ≤ t → ∃ v, cfg.Produced sta1 name c (t - d) v ∧ cfg.Produced sta2 name c t v) ∧
      (t < d → cfg.warm = false → cfg.Produced sta2 name c t 0) := by
  have hplay : ∀ s ∈ cfg.arrays, ∀ i < s.num, ∀ t : Int, cfg.played y s.name i t = cfg.played x s.name i (t - d) := by
    intro s hs i hi t
    unfold SimCfg.played
    have hpn : 1 ≤ (if cfg.warm then cfg.B else 1 : Nat) := by
      split
      · exact h1.posB
      · exact le_refl _
    revert hpn
    generalize (if cfg.warm then cfg.B else 1 : Nat) = pn
    intro hpn
    by_cases hf : ∃ a ∈ cfg.arrays, a.name = s.name ∧ a.kind = .free
    · obtain ⟨s', b1, b2, b3⟩ := id hf
      rw [h1.nm.inj s' b1 s hs b2] at b3
      simp only [hf, true_and]
      by_cases ht : -(pn : Int) < t
      · rw [if_pos ht, hxy s hs b3 i hi]
        by_cases ht2 : -(pn : Int) < t - d
        · rw [if_pos ht2, if_neg (by omega)]
          congr 1
          omega
        · rw [if_neg ht2, if_pos (by omega)]
      · rw [if_neg ht, if_neg (by omega)]
    · simp only [hf, false_and, if_false]
  have hzero : cfg.warm = false → ∀ s ∈ cfg.arrays, ∀ i < s.num, ∀ t : Int, t < d → cfg.played y s.name i t = 0 := by
    intro hw s hs i hi t ht
    rw [hplay s hs i hi]
    unfold SimCfg.played
    rw [if_neg]
    rintro ⟨_, h⟩
    rw [hw] at h
    simp at h
    omega
  have hir : ∀ {s : ArrInfo} {t : Nat} {h : IrMat R}, s ∈ cfg.arrays → cfg.IrAt arr s m t h → cfg.arrPath arr s.name m.name = .ok h := by
    intro s t h hs hi
    cases t with
    | zero => exact hi
    | succ t =>
      change if _ then _ else _ at hi
      rwa [if_neg (by rw [hstat s hs, hstat m hm]; simp)] at hi
  have hconv : ∀ (l : List ArrInfo) (i1 i2 : String → IrMat R) (c : Nat) (t t' : Int), (∀ s ∈ l, s ∈ cfg.arrays) →
      (∀ s ∈ l, i2 s.name = i1 s.name) → t' = t - d → convSum l i2 (cfg.played y) c t = convSum l i1 (cfg.played x) c t' := by
    intro l i1 i2 c t t' hl hi ht
    unfold convSum
    congr 1
    refine List.map_congr_left fun s hs => ?_
    rw [hi s hs]
    congr 1
    refine List.map_congr_left fun i hi => ?_
    congr 1
    refine List.map_congr_left fun j _ => ?_
    rw [hplay s (hl s hs) i (List.mem_range.1 hi), ht]
    congr 2
    omega
  have hconv0 : cfg.warm = false → ∀ (l : List ArrInfo) (i2 : String → IrMat R) (c : Nat) (t : Int), (∀ s ∈ l, s ∈ cfg.arrays) →
      t < d → convSum l i2 (cfg.played y) c t = 0 := by
    intro hw l i2 c t hl ht
    unfold convSum
    refine List.sum_eq_zero fun v hv => ?_
    obtain ⟨s, hs, rfl⟩ := List.mem_map.1 hv
    refine List.sum_eq_zero fun v hv => ?_
    obtain ⟨i, hi, rfl⟩ := List.mem_map.1 hv
    refine List.sum_eq_zero fun v hv => ?_
    obtain ⟨j, hj, rfl⟩ := List.mem_map.1 hv
    rw [hzero hw s (hl s hs) i (List.mem_range.1 hi) _ (by omega), mul_zero]
  intro t ht c hc
  obtain ⟨i2, p2, q2⟩ := C18_open_loop h2 hk2 hproc hfilt hpos hsh hy hm hmic t ht
  have hsub : ∀ s ∈ cfg.arrays.filter (fun s => s.kind != .mic), s ∈ cfg.arrays ∧ s.kind ≠ .mic := by
    intro s hs
    rw [List.mem_filter] at hs
    exact ⟨hs.1, by simpa using hs.2⟩
  constructor
  · intro hd
    obtain ⟨i1, p1, q1⟩ := C18_open_loop h1 hk1 hproc hfilt hpos hsh hx hm hmic (t - d) (by omega)
    have e2 : ∀ s ∈ cfg.arrays, s.kind ≠ .mic → i2 s.name = i1 s.name := fun s hs hk => by
      have a := hir hs (p1 s hs hk)
      rw [hir hs (p2 s hs hk)] at a
      exact Except.ok.inj a
    rcases hname with rfl | ⟨hcon, s, hs, hsk, rfl⟩
    · refine ⟨_, (q1 c hc).1, ?_⟩
      rw [← hconv _ i1 i2 c t _ (fun s hs => (hsub s hs).1) (fun s hs => e2 s (hsub s hs).1 (hsub s hs).2) (by omega)]
      exact (q2 c hc).1
    · refine ⟨_, (q1 c hc).2 hcon s hs hsk, ?_⟩
      rw [← hconv [s] i1 i2 c t _ (fun s' hs' => by rw [List.mem_singleton.1 hs']; exact hs)
        (fun s' hs' => by rw [List.mem_singleton.1 hs']; exact e2 s hs hsk) (by omega)]
      exact (q2 c hc).2 hcon s hs hsk
  · intro hd hw
    rcases hname with rfl | ⟨hcon, s, hs, hsk, rfl⟩
    · rw [← hconv0 hw _ i2 c t (fun s hs => (hsub s hs).1) (by omega)]
      exact (q2 c hc).1
    · rw [← hconv0 hw [s] i2 c t (fun s' hs' => by rw [List.mem_singleton.1 hs']; exact hs) (by omega)]
      exact (q2 c hc).2 hcon s hs hsk

end

/-! ### A case that meets the hypotheses -/

/-- A microphone and a free source with path `[1, 2]`; a source object plays zeros first, as many as its second
component says, and then counts. -/
def delayCfg (warm : Bool) : SimCfg ℚ (IrMat ℚ) (Fir ℚ) (Nat × Nat) Unit Unit (DData ℚ Unit ℚ) (DOut ℚ ℚ) where
  B := 4
  C := 2
  tot := 6
  warm := warm
  contrib := true
  plotNone := false
  arrays := [⟨"mic", 1, .mic, false⟩, ⟨"src", 1, .free, false⟩]
  srcGet := fun p n => .ok ((p.1 + n, p.2), [(List.range n).map fun k => if p.1 + k < p.2 then (0 : ℚ) else ((p.1 + k - p.2 + 1 : Nat) : ℚ)])
  filt := firOps ℚ
  arrUpdate := fun _ _ => .ok ()
  arrPath := fun _ _ _ => .ok ⟨1, 1, fun _ _ => [1, 2]⟩
  proc := none
  diag := diagOps ℚ Unit ℚ

theorem delay_started (warm : Bool) (d : Nat) (h : d = 0 ∨ d = 3) :
    ∃ st0 st, Started (delayCfg warm) ⟨0, fun p _ => .ok (p, fun _ _ _ => 0)⟩ (fun _ => (0, d)) ()
      () demoFilt [] st0 ∧ (delayCfg warm).steps 5 st0 = .ok st := by
  rcases h with rfl | rfl <;> cases warm <;>
  · refine ⟨_, _, ⟨⟨by decide, by decide, by decide, ?_, ?_⟩, rfl, by decide, rfl⟩, rfl⟩
    · rintro p ⟨⟩
    · rintro p ⟨⟩

theorem delay_stream (warm : Bool) (d : Nat) :
    IsStream (delayCfg warm).srcGet (0, d) 1 fun _ t => if t < d then (0 : ℚ) else ((t - d + 1 : Nat) : ℚ) := by
  refine isStream_of_inv (fun off s => s = (off, d)) rfl ?_
  rintro off s n rfl
  exact ⟨(off + n, d), by simp only [delayCfg, blockOf, List.range_one, List.map_cons, List.map_nil], rfl⟩

/-- The source that counts from 1 and the one that plays three zeros before. -/
example (warm : Bool) : ∃ s1 s2 : SimSt ℚ (Fir ℚ) (Nat × Nat) Unit Unit (DData ℚ Unit ℚ) (DOut ℚ ℚ),
    ∀ t ≤ 5, (3 ≤ t → ∃ v, (delayCfg warm).Produced s1 "mic" 0 (t - 3) v ∧ (delayCfg warm).Produced s2 "mic" 0 t v) ∧
      (t < 3 → warm = false → (delayCfg warm).Produced s2 "mic" 0 t 0) := by
  obtain ⟨s1, e1, h1, k1⟩ := delay_started warm 0 (.inl rfl)
  obtain ⟨s2, e2, h2, k2⟩ := delay_started warm 3 (.inr rfl)
  refine ⟨s1, s2, fun t ht => ?_⟩
  have hfree : ∀ {a : ArrInfo}, a ∈ (delayCfg warm).arrays → a.kind = .free → a = ⟨"src", 1, .free, false⟩ := by
    intro a ha hf
    simp only [delayCfg, List.mem_cons, List.not_mem_nil, or_false] at ha
    rcases ha with rfl | rfl
    · cases hf
    · rfl
  refine C121_delay h1 h2 k1 k2 rfl rfl ?_ ?_ ?_ (x := fun _ _ t => if t < 0 then (0 : ℚ) else ((t - 0 + 1 : Nat) : ℚ))
    (y := fun _ _ t => if t < 3 then (0 : ℚ) else ((t - 3 + 1 : Nat) : ℚ)) (d := 3) ?_ ?_ ?_ (m := ⟨"mic", 1, .mic, false⟩)
    (by simp [delayCfg]) rfl (.inl rfl) t ht 0 (by decide)
  · intro a ha
    simp only [delayCfg, List.mem_cons, List.not_mem_nil, or_false] at ha
    rcases ha with rfl | rfl <;> decide
  · intro n a _ s m h hs hm hp
    cases hp
    simp only [delayCfg, List.mem_cons, List.not_mem_nil, or_false] at hm
    rcases hm with rfl | rfl <;> rfl
  · intro a ha
    simp only [delayCfg, List.mem_cons, List.not_mem_nil, or_false] at ha
    rcases ha with rfl | rfl <;> rfl
  · intro a ha hf; rw [hfree ha hf]; exact delay_stream warm 0
  · intro a ha hf; rw [hfree ha hf]; exact delay_stream warm 3
  · intro s _ _ i _ j
    simp

end Verif

/-
C150: bounded sources give bounded microphone signals.
-/
import Mathlib.Algebra.Order.BigOperators.Group.List
import Mathlib.Algebra.Order.Field.Basic
import Mathlib.Algebra.BigOperators.Ring.List
import Mathlib.Algebra.Order.Ring.Abs
import Verif.Props.OpenLoop
namespace Verif

section
variable {R : Type} [Field R] [LinearOrder R] [IsStrictOrderedRing R]

/-- The sum of the absolute values of all taps that lead to channel `c`. -/
def tapSum (sources : List ArrInfo) (h : String → IrMat R) (c : Nat) : R :=
  (sources.map fun s => ((List.range s.num).map fun i => (((h s.name).ir i c).map fun v => |v|).sum).sum).sum

theorem abs_list_sum_le {α : Type} (l : List α) (f g : α → R) (M : R) (h : ∀ a ∈ l, |f a| ≤ M * g a) :
    |(l.map f).sum| ≤ M * (l.map g).sum := by
  induction l with
  | nil => simp
  | cons a l ih =>
    rw [List.map_cons, List.map_cons, List.sum_cons, List.sum_cons, mul_add]
    refine (abs_add_le _ _).trans (add_le_add (h a List.mem_cons_self) (ih fun b hb => h b (List.mem_cons_of_mem _ hb)))

theorem abs_convSum_le {l : List ArrInfo} {ir : String → IrMat R} {u : String → Nat → Int → R} {M : R}
    (hu : ∀ s ∈ l, ∀ i < s.num, ∀ t, |u s.name i t| ≤ M) (c : Nat) (t : Int) :
    |convSum l ir u c t| ≤ M * tapSum l ir c := by
  unfold convSum tapSum
  refine abs_list_sum_le _ _ _ _ fun s hs => ?_
  refine abs_list_sum_le _ _ _ _ fun i hi => ?_
  have hv : ((ir s.name).ir i c).map (fun v => |v|) =
      (List.range ((ir s.name).ir i c).length).map fun k => |((ir s.name).ir i c).getD k 0| := by
    refine List.ext_getElem (by simp) fun n h1 h2 => ?_
    simp only [List.length_map] at h1
    simp [h1]
  rw [hv]
  refine abs_list_sum_le _ _ _ _ fun k _ => ?_
  rw [abs_mul, mul_comm]
  exact mul_le_mul_of_nonneg_right (hu s hs i (by simpa using hi) _) (abs_nonneg _)

end

section
variable {R S A P V : Type} [Field R] [LinearOrder R] [IsStrictOrderedRing R]
  {cfg : SimCfg R (IrMat R) (Fir R) S A P (DData R P V) (DOut R V)} {lp : ProcView R P}
  {srcs : String → S} {arr : A} {proc : P} {f0 : Fir R} {ds0 : List (Diag (DData R P V))}
  {st0 st : SimSt R (Fir R) S A P (DData R P V) (DOut R V)} {k : Nat}

/-- C150. Without processors and with sources whose samples are at most `M`, no
microphone sample is larger than `M` times the sum of the absolute values of the taps in
force, and no contribution larger than `M` times this sum for its source. -/
theorem C150_bounded (h : Started cfg lp srcs arr proc f0 ds0 st0) (hk : cfg.steps k st0 = .ok st)
    (hproc : cfg.proc = none) (hfilt : cfg.filt = firOps R) (hpos : ∀ a ∈ cfg.arrays, 0 < a.num)
    (hsh : cfg.PathShape arr) {x : String → Nat → Nat → R} {M : R} (hM : 0 ≤ M)
    (hx : ∀ a ∈ cfg.arrays, a.kind = .free → IsStream cfg.srcGet (srcs a.name) a.num (x a.name))
    (hb : ∀ a ∈ cfg.arrays, a.kind = .free → ∀ i < a.num, ∀ j, |x a.name i j| ≤ M)
    {m : ArrInfo} (hm : m ∈ cfg.arrays) (hmic : m.kind = .mic) :
    ∀ t ≤ k, ∃ ir : String → IrMat R,
      (∀ s ∈ cfg.arrays, s.kind ≠ .mic → cfg.IrAt arr s m t (ir s.name)) ∧
      ∀ c < m.num,
        (∃ v, cfg.Produced st0 m.name c t v ∧ |v| ≤ M * tapSum (cfg.arrays.filter fun s => s.kind != .mic) ir c) ∧
        (cfg.contrib = true → ∀ s ∈ cfg.arrays, s.kind ≠ .mic →
          ∃ v, cfg.Produced st0 (s.name ++ "~" ++ m.name) c t v ∧ |v| ≤ M * tapSum [s] ir c) := by
  have hu : ∀ s ∈ cfg.arrays, ∀ i < s.num, ∀ t, |cfg.played x s.name i t| ≤ M := by
    intro s hs i hi t
    unfold SimCfg.played
    by_cases hc : (∃ a ∈ cfg.arrays, a.name = s.name ∧ a.kind = .free) ∧
        -((if cfg.warm then cfg.B else 1 : Nat) : Int) < t
    · rw [if_pos hc]
      obtain ⟨⟨a, b1, b2, b3⟩, _⟩ := hc
      have := h.nm.inj a b1 s hs b2
      subst this
      exact hb a b1 b3 i hi _
    · rw [if_neg hc, abs_zero]; exact hM
  intro t ht
  obtain ⟨ir, g1, g2⟩ := C18_open_loop h hk hproc hfilt hpos hsh hx hm hmic t ht
  refine ⟨ir, g1, fun c hc => ⟨⟨_, (g2 c hc).1, ?_⟩, fun hcon s hs hsk => ⟨_, (g2 c hc).2 hcon s hs hsk, ?_⟩⟩⟩
  · exact abs_convSum_le (fun s hs => hu s (List.mem_filter.1 hs).1) c t
  · exact abs_convSum_le (fun s' hs' => by rw [List.mem_singleton.1 hs']; exact hu s hs) c t

end

/-! ### A case that meets the hypotheses -/

/-- A source that moves away and plays `1, -1, 1, ...`. -/
def altCfg : SimCfg ℚ (IrMat ℚ) (Fir ℚ) Nat Nat Unit (DData ℚ Unit ℚ) (DOut ℚ ℚ) :=
  { openCfg with srcGet := fun p n => .ok (p + n, [(List.range n).map fun k => (-1) ^ (p + k)]) }

theorem alt_shape : altCfg.PathShape 0 := by
  intro n a _ s m h hs hm hp
  cases hp
  simp only [altCfg, openCfg, movCfg, List.mem_cons, List.not_mem_nil, or_false] at hm
  rcases hm with rfl | rfl <;> rfl

/-- At time 3 the taps are 3 and 1, so the microphone hears at most 4. -/
example : ∃ st0 : SimSt ℚ (Fir ℚ) Nat Nat Unit (DData ℚ Unit ℚ) (DOut ℚ ℚ), ∃ v,
    altCfg.Produced st0 "mic" 0 3 v ∧ |v| ≤ 4 := by
  have hst : ∃ st0 st, Started altCfg ⟨0, fun p _ => .ok (p, fun _ _ _ => 0)⟩ (fun _ => 0) 0
      () demoFilt [] st0 ∧ altCfg.steps 3 st0 = .ok st := by
    refine ⟨_, _, ⟨⟨by decide, by decide, by decide, ?_, ?_⟩, rfl, by decide, rfl⟩, rfl⟩
    · rintro p ⟨⟩
    · rintro p ⟨⟩
  obtain ⟨st0, st, h, hk⟩ := hst
  obtain ⟨ir, g1, g2⟩ := C150_bounded h hk rfl rfl open_pos alt_shape (x := fun _ _ j => (-1) ^ j) (M := 1) (by decide)
    (by
      intro a ha hf
      rw [open_free ha hf]
      refine isStream_of_inv (fun off s => s = off) rfl ?_
      rintro off s n rfl
      refine ⟨s + n, ?_, rfl⟩
      simp only [altCfg, blockOf, List.range_one, List.map_cons, List.map_nil])
    (by
      intro a _ _ i _ j
      rw [abs_pow, abs_neg, abs_one, one_pow])
    (m := ⟨"mic", 1, .mic, false⟩) (by simp [altCfg, openCfg, movCfg]) rfl 3 (by decide)
  obtain ⟨⟨v, p1, p2⟩, -⟩ := g2 0 (by decide)
  refine ⟨st0, v, p1, p2.trans (le_of_eq ?_)⟩
  obtain ⟨a, a1, a2⟩ := g1 ⟨"src", 1, .free, true⟩ (by simp [altCfg, openCfg, movCfg]) (by decide)
  cases a1
  cases hir : ir "src" with
  | mk ni no f =>
    change Except.ok _ = Except.ok (ir "src") at a2
    rw [hir] at a2
    cases a2
    show 1 * ((((List.range 1).map fun i => ((((ir "src").ir i 0).map fun v => |v|).sum)).sum) + 0) = 4
    rw [hir]
    decide +kernel

end Verif

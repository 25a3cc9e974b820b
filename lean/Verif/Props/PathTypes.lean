/-
C99: the types of propagation that need no room.
-/
import Verif.Model.Rir
import Verif.Model.Fir
import Mathlib.Algebra.BigOperators.Group.List.Basic
import Mathlib.Algebra.Ring.Defs
import Mathlib.Data.List.GetD
import Mathlib.Algebra.Ring.Rat
import Mathlib.Algebra.Field.Rat
namespace Verif

section
variable {R Pt G : Type} [Semiring R]

/-- Whatever was played before, the next block `x` through the path `h` sounds as `y`. -/
def Sounds (h : IrMat R) (x y : Mat R) : Prop :=
  ∀ f : Fir R, f.mat = h → ∃ f', Fir.process f x = .ok (f', y) ∧ f'.mat = h

/-- A block of `n` channels of equal length. -/
def IsBlock (n : Nat) (x : Mat R) : Prop := x.length = n ∧ ∀ r ∈ x, r.length = numCols x

/-- The block of zeros for `n` channels and as many samples as `x`. -/
def silence (n : Nat) (x : Mat R) : Mat R := List.replicate n (List.replicate (numCols x) 0)

theorem newest_col {x : Mat R} {n : Nat} (hx : IsBlock n x) {k : Nat} (hk : k < numCols x) (old : List (List R)) {s : Nat}
    (hs : s < n) :
    ((((colsOf x (numCols x)).take (k + 1)).reverse ++ old).getD 0 []).getD s 0 = (x.getD s []).getD k 0 := by
  have hl : (colsOf x (numCols x)).length = numCols x := by simp [colsOf]
  have h1 : (colsOf x (numCols x)).take (k + 1) = (colsOf x (numCols x)).take k ++ [x.map fun r => r.getD k 0] := by
    rw [List.take_succ_eq_append_getElem (by omega)]
    simp [colsOf]
  rw [h1, List.reverse_append]
  simp only [List.reverse_singleton, List.cons_append, List.getD_cons_zero]
  have hs' : s < x.length := by rw [hx.1]; exact hs
  rw [List.getD_eq_getElem?_getD, List.getElem?_map, List.getD_eq_getElem _ _ hs', List.getElem?_eq_getElem hs']
  rfl

/-- Paths with one tap. -/
theorem oneTap_process {x : Mat R} {n n' : Nat} (hx : IsBlock n x) (t : Nat → Nat → R) (old : List (List R)) :
    ∃ f', Fir.process ⟨⟨n, n', fun i j => [t i j]⟩, old⟩ x = .ok (f', matOf n' (numCols x) fun m k =>
        ((List.range n).map fun s => t s m * (x.getD s []).getD k 0).sum) ∧ f'.mat = ⟨n, n', fun i j => [t i j]⟩ := by
  unfold Fir.process
  dsimp only
  rw [if_neg (by simp [hx.1])]
  refine ⟨⟨⟨n, n', fun i j => [t i j]⟩, (colsOf x (numCols x)).reverse ++ old⟩, ?_, rfl⟩
  congr 2
  unfold matOf
  refine List.map_congr_left fun m _ => List.map_congr_left fun k hk => ?_
  rw [List.mem_range] at hk
  unfold firOut
  dsimp only
  congr 1
  refine List.map_congr_left fun s hs => ?_
  rw [List.mem_range] at hs
  simp only [List.length_singleton, List.range_one, List.map_cons, List.map_nil, List.sum_cons, List.sum_nil, add_zero,
    List.getD_cons_zero]
  rw [newest_col hx hk old hs]

theorem block_eq {x : Mat R} {n : Nat} (hx : IsBlock n x) :
    matOf n (numCols x) (fun m k => (x.getD m []).getD k 0) = x := by
  unfold matOf
  apply List.ext_getElem
  · simp [hx.1]
  · intro m h1 h2
    rw [List.getElem_map, List.getElem_range]
    have hr := hx.2 x[m] (List.getElem_mem h2)
    dsimp only
    rw [List.getD_eq_getElem _ _ h2]
    apply List.ext_getElem
    · simp [hr]
    · intro k h3 h4
      rw [List.getElem_map, List.getElem_range, List.getD_eq_getElem _ _ h4]

theorem sum_pick {n m : Nat} (hm : m < n) (y : Nat → R) :
    ((List.range n).map fun s => (if s = m then 1 else 0) * y s).sum = y m := by
  induction n with
  | zero => omega
  | succ n ih =>
    rw [List.range_succ, List.map_append, List.sum_append]
    by_cases h : m = n
    · subst h
      have : ((List.range m).map fun s => (if s = m then (1 : R) else 0) * y s).sum = 0 := by
        apply List.sum_eq_zero
        intro z hz
        rw [List.mem_map] at hz
        obtain ⟨s, hs, rfl⟩ := hz
        rw [List.mem_range] at hs
        rw [if_neg (by omega), zero_mul]
      rw [this]
      simp
    · rw [ih (by omega)]
      simp [Ne.symm h]

/-- C99, "direct": without high-pass filter, source channel `k` is heard by microphone `k`
only, unchanged and without delay. -/
theorem C99_direct_partial (c : RirCfg R Pt G) (hp : c.highpass = false) (g : G) (s m : Geo Pt) (hn : s.num = m.num) :
    ∃ h, createPath c g s m "direct" = .ok (g, h) ∧ ∀ x, IsBlock s.num x → Sounds h x x := by
  refine ⟨⟨s.num, m.num, fun i j => [if i = j then 1 else 0]⟩, ?_, ?_⟩
  · simp [createPath, hn, hp]
  · rintro x hx ⟨M, old⟩ hM
    cases hM
    obtain ⟨f', h1, h2⟩ := oneTap_process (n' := m.num) hx (fun i j => if i = j then 1 else 0) old
    refine ⟨f', ?_, h2⟩
    rw [h1]
    congr 2
    conv => rhs; rw [← block_eq hx, hn]
    unfold matOf
    refine List.map_congr_left fun j hj => List.map_congr_left fun k _ => ?_
    rw [List.mem_range] at hj
    exact sum_pick (by omega) fun s => (x.getD s []).getD k 0

/-- C99, "none": without high-pass filter, the microphones hear nothing of the source. -/
theorem C99_none_partial (c : RirCfg R Pt G) (hp : c.highpass = false) (g : G) (s m : Geo Pt) :
    ∃ h, createPath c g s m "none" = .ok (g, h) ∧ ∀ x, IsBlock s.num x → Sounds h x (silence m.num x) := by
  refine ⟨⟨s.num, m.num, fun _ _ => [0]⟩, ?_, ?_⟩
  · simp [createPath, hp]
  · rintro x hx ⟨M, old⟩ hM
    cases hM
    obtain ⟨f', h1, h2⟩ := oneTap_process (n' := m.num) hx (fun _ _ => 0) old
    refine ⟨f', ?_, h2⟩
    rw [h1]
    congr 2
    unfold matOf silence
    simp [List.map_const']

/-- C99, "random": without high-pass filter, the path consists of normally distributed
numbers from the random generator, `max_room_ir_length` for every source and microphone. -/
theorem C99_random_partial (c : RirCfg R Pt G) (hp : c.highpass = false) (g : G) (s m : Geo Pt) :
    ∃ h, createPath c g s m "random" = .ok ((c.normal g s.num m.num c.irLen).1, h) ∧ h.numIn = s.num ∧
      h.numOut = m.num ∧ ∀ i < s.num, ∀ j < m.num, (h.ir i j).length = c.irLen ∧
        ∀ k < c.irLen, (h.ir i j)[k]? = some ((c.normal g s.num m.num c.irLen).2 i j k) := by
  refine ⟨⟨s.num, m.num, fun i j => (List.range c.irLen).map ((c.normal g s.num m.num c.irLen).2 i j)⟩, ?_, rfl, rfl, ?_⟩
  · simp [createPath, hp]
  · intro i _ j _
    refine ⟨by simp, ?_⟩
    intro k hk
    simp [hk]

theorem ismLoop_highpass (c : RirCfg R Pt G) (s m : Geo Pt) : ∀ (fuel n : Nat) (g : G) (ir : Nat → Nat → List R),
    ismLoop { c with highpass := true } s m fuel n g ir = ismLoop { c with highpass := false } s m fuel n g ir
  | 0, n, g, ir => by rw [ismLoop, ismLoop]
  | fuel + 1, n, g, ir => by
    rw [ismLoop, ismLoop]
    simp only [ismLoop_highpass c s m fuel]

/-- C99, the high-pass filter: it acts on the response of each pair by itself, whatever the
type, and nothing else changes. -/
theorem C99_highpass (c : RirCfg R Pt G) (hpad : 0 < c.pad) (hsos : ∀ r, (c.sos r).length = r.length) (g g' : G)
    (s m : Geo Pt) (t : String) (h : IrMat R)
    (h0 : createPath { c with highpass := false } g s m t = .ok (g', h)) :
    ∃ h', createPath { c with highpass := true } g s m t = .ok (g', h') ∧ h'.numIn = h.numIn ∧ h'.numOut = h.numOut ∧
      ∀ i j, (h'.ir i j).length = (h.ir i j).length ∧ ∃ a b, a.length = c.pad ∧ b.length = c.pad ∧
        c.sos (List.replicate c.pad 0 ++ h.ir i j ++ List.replicate c.pad 0) = a ++ h'.ir i j ++ b := by
  have key : createPath { c with highpass := true } g s m t =
      .ok (g', { h with ir := fun i j => filterRow c.pad c.sos (h.ir i j) }) := by
    have hi : ismPath { c with highpass := true } g s m = ismPath { c with highpass := false } g s m := by
      unfold ismPath
      rw [ismLoop_highpass]
    unfold createPath at h0 ⊢
    dsimp only at h0 ⊢
    rw [hi]
    by_cases h1 : t = "none"
    · rw [if_pos h1] at h0 ⊢
      cases h0; rfl
    rw [if_neg h1] at h0 ⊢
    by_cases h2 : t = "direct"
    · rw [if_pos h2] at h0 ⊢
      by_cases hn : s.num ≠ m.num
      · rw [if_pos hn] at h0; cases h0
      · rw [if_neg hn] at h0 ⊢
        cases h0; rfl
    rw [if_neg h2] at h0 ⊢
    by_cases h3 : t = "random"
    · rw [if_pos h3] at h0 ⊢
      cases h0; rfl
    rw [if_neg h3] at h0 ⊢
    by_cases h4 : t = "ism"
    · rw [if_pos h4] at h0 ⊢
      by_cases hd : c.dims = 3
      · rw [if_pos hd] at h0 ⊢
        generalize ismPath { c with highpass := false } g s m = z at h0 ⊢
        cases z with
        | error x => cases h0
        | ok gh => cases h0; rfl
      · rw [if_neg hd] at h0; cases h0
    · rw [if_neg h4] at h0; cases h0
  refine ⟨_, key, rfl, rfl, fun i j => ?_⟩
  have hl := hsos (List.replicate c.pad 0 ++ h.ir i j ++ List.replicate c.pad 0)
  simp only [List.length_append, List.length_replicate] at hl
  have hf : filterRow c.pad c.sos (h.ir i j) = ((c.sos (List.replicate c.pad 0 ++ h.ir i j ++ List.replicate c.pad 0)).take
      (c.pad + (h.ir i j).length)).drop c.pad := by
    unfold filterRow
    dsimp only
    rw [if_neg (by omega), hl, Nat.add_sub_cancel]
  show (filterRow c.pad c.sos (h.ir i j)).length = _ ∧ ∃ a b, _ ∧ _ ∧ _ = a ++ filterRow c.pad c.sos (h.ir i j) ++ b
  rw [hf]
  generalize c.sos (List.replicate c.pad 0 ++ h.ir i j ++ List.replicate c.pad 0) = y at hl
  refine ⟨by simp [hl], (y.take (c.pad + (h.ir i j).length)).take c.pad, y.drop (c.pad + (h.ir i j).length), by simp [hl],
    by simp [hl], ?_⟩
  rw [List.take_append_drop, List.take_append_drop]

/-- C99, what is rejected: "direct" between arrays of different size, an unknown type, and
image sources in another than three dimensions. -/
theorem C99_rejected (c : RirCfg R Pt G) (g : G) (s m : Geo Pt) :
    (s.num ≠ m.num → createPath c g s m "direct" = .error .assertion) ∧
    (∀ t, t ∉ ["none", "direct", "random", "ism"] → createPath c g s m t = .error .value) ∧
    (c.dims ≠ 3 → createPath c g s m "ism" = .error .value) := by
  refine ⟨?_, ?_, ?_⟩
  · intro h
    simp [createPath, h]
  · intro t ht
    simp only [List.mem_cons, List.not_mem_nil, or_false, not_or] at ht
    simp [createPath, ht]
  · intro h
    simp [createPath, h]

end

/-- A filter that removes the mean of two neighbours; it does not change the number of
samples. -/
def differenceFilter (r : List ℚ) : List ℚ :=
  (List.range r.length).map fun k => r.getD k 0 - (r.getD k 0 + r.getD (k + 1) 0) / 2

/-- Two sources and two microphones. -/
def fixedCfg (highpass : Bool) : RirCfg ℚ Nat Nat where
  irLen := 3
  dims := 3
  highpass := highpass
  pad := 2
  minDly := 0
  normal := fun g _ _ _ => (g + 1, fun i j k => ((g + 2 * i + j + k : Nat) : ℚ))
  roomRir := fun g ss ms => (g, ms.map fun m => ss.map fun s => [((m - s : Nat) : ℚ)])
  sos := differenceFilter

def fixedGeo : Geo Nat := ⟨2, [4, 6], true⟩

/-- C99 does not hold with a high-pass filter: it is applied to the "direct" path, too, of
which one sample remains.  The microphones hear half of the sound. -/
theorem C99_violated_highpass : ∃ h, createPath (fixedCfg true) 0 fixedGeo fixedGeo "direct" = .ok (0, h) ∧
    (∀ r, ((fixedCfg true).sos r).length = r.length) ∧
    (Fir.process ⟨h, []⟩ [[4, 6, 8], [2, 0, 0]]).map Prod.snd = .ok [[2, 3, 4], [1, 0, 0]] := by
  refine ⟨_, rfl, ?_, by decide +kernel⟩
  intro r
  simp [fixedCfg, differenceFilter]

/-- Without high-pass filter. -/
example : ∃ h, createPath (fixedCfg false) 0 fixedGeo fixedGeo "direct" = .ok (0, h) ∧
    (Fir.process ⟨h, [[7, 7]]⟩ [[4, 6, 8], [2, 0, 0]]).map Prod.snd = .ok [[4, 6, 8], [2, 0, 0]] ∧
    IsBlock fixedGeo.num ([[4, 6, 8], [2, 0, 0]] : Mat ℚ) := by
  refine ⟨_, rfl, by decide +kernel, by decide +kernel, ?_⟩
  intro r hr
  simp only [List.mem_cons, List.not_mem_nil, or_false] at hr
  rcases hr with rfl | rfl <;> rfl

/-- With high-pass filter. -/
example : ∃ h h', createPath (fixedCfg false) 0 fixedGeo fixedGeo "random" = .ok (1, h) ∧ h.ir 0 1 = [1, 2, 3] ∧
    createPath (fixedCfg true) 0 fixedGeo fixedGeo "random" = .ok (1, h') ∧ (h'.ir 0 1).length = 3 := by
  obtain ⟨h', e, -, -, hi⟩ := C99_highpass (fixedCfg false) (by decide) (by intro r; simp [fixedCfg, differenceFilter]) 0 1
    fixedGeo fixedGeo "random" _ rfl
  exact ⟨_, h', rfl, by decide +kernel, e, (hi 0 1).1⟩

end Verif

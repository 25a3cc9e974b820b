/-
C118: the drawn trajectories.
-/
import Verif.Model.SetupPlot
import Verif.Props.Trajectory
import Verif.Props.TrajectoryTime
import Verif.Lemmas.Logger
namespace Verif

section
variable {d : Nat}

theorem arrival_lt {pts : List (Vec d)} {T : ℝ} (hT : 0 < T) (h : ClosedPolygon pts) (k : Nat) (hk : k + 1 < pts.length) :
    arrival pts T k < arrival pts T (k + 1) := by
  have h1 := List.getElem?_eq_getElem (l := pts) (i := k) (by omega)
  have h2 := List.getElem?_eq_getElem (l := pts) (i := k + 1) hk
  rw [arrival_succ pts T k _ _ h1 h2]
  have hp := vdist_pos (h.distinct k _ _ h1 h2)
  have hl := pathLength_pos h.two h.distinct
  have : 0 < T * (vdist pts[k] pts[k + 1] / pathLength pts) := by positivity
  linarith

/-- The points that are drawn for constant speed, during the period. -/
theorem linearDrawn_speed (poly : List (Vec d)) (period samplerate : ℝ) (hT : 0 < period * samplerate)
    (hc : ClosedPolygon poly) (tot : Nat) (ht : (tot : ℝ) < period * samplerate) :
    ∃ k, k + 1 < poly.length ∧ arrival poly (period * samplerate) k ≤ tot ∧
      (tot : ℝ) < arrival poly (period * samplerate) (k + 1) ∧
      linearDrawn poly (linearCum poly period samplerate true) period samplerate tot = poly.take (k + 1) := by
  have hlen := hc.two
  have hL := pathLength_pos hc.two hc.distinct
  obtain ⟨k, hk, h1, h2⟩ := exists_segment (pts := poly) (T := period * samplerate) (tot : ℝ) (Nat.cast_nonneg tot)
    (poly.length - 1) (by rw [arrival_last _ _ hL.ne']; exact ht)
  refine ⟨k, by omega, h1, h2, ?_⟩
  unfold linearDrawn linearCum
  rw [if_neg (not_le.2 ht), if_pos rfl, mul_comm samplerate period]
  congr 1
  apply firstAbove_eq _ _ k _ _ (cum_arrival poly _ (k + 1) (by omega)) h2
  intro j hj c' hc'
  rw [cum_arrival poly _ j (by omega)] at hc'
  rw [← Option.some.inj hc']
  exact le_trans (arrival_le hT hc.distinct j k hj (by omega)) h1

/-- **C118 (partial)** A linear trajectory with constant speed: what is drawn for `tot` samples are the
corners it passes in that time, in order, from the start; the whole polygon if `tot` is at least a
period.  Missing: the way from the last corner. -/
theorem C118_corners_partial (pts poly : List (Vec d)) (period samplerate : ℝ) (hT : 0 < period * samplerate)
    (hpoly : anchorPoints pts = .ok poly) (hc : ClosedPolygon poly) (tot : Nat) :
    ∃ (f : ℝ → Except PyErr (Vec d)) (times : List ℝ), linearTrajectory pts period samplerate (some true) = .ok f ∧
      times.map f = (linearDrawn poly (linearCum poly period samplerate true) period samplerate tot).map .ok ∧
      times.head? = some 0 ∧ times.Pairwise (· < ·) ∧ (∀ t ∈ times, t ≤ tot) ∧
      (∀ (k : Nat) (p : Vec d), poly[k]? = some p → arrival poly (period * samplerate) k ≤ tot →
        arrival poly (period * samplerate) k ∈ times) ∧
      ∀ t ∈ times, ∃ k, k < poly.length ∧ t = arrival poly (period * samplerate) k := by
  obtain ⟨f, pos, hf, hfp, hcs⟩ := C63_constant_speed_partial pts poly period samplerate hT hpoly hc
  have hlen := hc.two
  have hmono : ∀ j k, j < k → k < poly.length → arrival poly (period * samplerate) j < arrival poly (period * samplerate) k := by
    intro j k hjk hk
    exact lt_of_lt_of_le (arrival_lt hT hc j (by omega)) (arrival_le hT hc.distinct (j + 1) k hjk hk)
  have key : ∀ m, 0 < m → m ≤ poly.length →
      linearDrawn poly (linearCum poly period samplerate true) period samplerate tot = poly.take m →
      (∀ k, k < poly.length → (arrival poly (period * samplerate) k ≤ tot ↔ k < m)) →
      ∃ (f : ℝ → Except PyErr (Vec d)) (times : List ℝ), linearTrajectory pts period samplerate (some true) = .ok f ∧
        times.map f = (linearDrawn poly (linearCum poly period samplerate true) period samplerate tot).map .ok ∧
        times.head? = some 0 ∧ times.Pairwise (· < ·) ∧ (∀ t ∈ times, t ≤ tot) ∧
        (∀ (k : Nat) (p : Vec d), poly[k]? = some p → arrival poly (period * samplerate) k ≤ tot →
          arrival poly (period * samplerate) k ∈ times) ∧
        ∀ t ∈ times, ∃ k, k < poly.length ∧ t = arrival poly (period * samplerate) k := by
    intro m hm hml hd hiff
    refine ⟨f, (List.range m).map fun (k : Nat) => arrival poly (period * samplerate) k, hf, ?_, ?_, ?_, ?_, ?_, ?_⟩
    · rw [hd]
      apply List.ext_getElem?
      intro k
      simp only [List.getElem?_map, List.getElem?_take, List.map_map]
      by_cases hk : k < m
      · have hg := List.getElem?_eq_getElem (l := poly) (i := k) (by omega)
        rw [List.getElem?_range hk, if_pos hk, hg]
        simp only [Option.map_some, Function.comp, hfp, hcs.visits k _ hg]
      · rw [List.getElem?_eq_none (by simp; omega), if_neg hk]; rfl
    · cases m with
      | zero => omega
      | succ m => rw [List.range_succ_eq_map, List.map_cons, List.head?_cons, arrival_zero]
    · rw [List.pairwise_map]
      apply List.Pairwise.imp_of_mem _ List.pairwise_lt_range
      intro a b _ hb hab
      exact hmono a b hab (by have := List.mem_range.1 hb; omega)
    · intro t ht
      obtain ⟨k, hk, rfl⟩ := List.mem_map.1 ht
      have := List.mem_range.1 hk
      exact (hiff k (by omega)).2 this
    · intro k p hp hle
      have := (List.getElem?_eq_some_iff.1 hp).1
      exact List.mem_map.2 ⟨k, List.mem_range.2 ((hiff k this).1 hle), rfl⟩
    · intro t ht
      obtain ⟨k, hk, rfl⟩ := List.mem_map.1 ht
      have := List.mem_range.1 hk
      exact ⟨k, by omega, rfl⟩
  by_cases ht : (tot : ℝ) < period * samplerate
  · obtain ⟨k, hk, h1, h2, h3⟩ := linearDrawn_speed poly period samplerate hT hc tot ht
    refine key (k + 1) (by omega) (by omega) h3 fun j hj => ⟨fun h => ?_, fun h => ?_⟩
    · by_contra hcon
      have := arrival_le hT hc.distinct (k + 1) j (by omega) hj
      linarith
    · exact le_trans (arrival_le hT hc.distinct j k (by omega) (by omega)) h1
  · refine key poly.length (by omega) le_rfl ?_ fun j hj => ⟨fun _ => hj, fun _ => ?_⟩
    · unfold linearDrawn
      rw [if_pos (not_lt.1 ht), List.take_length]
    · have := arrival_le hT hc.distinct j (poly.length - 1) (by omega) (by omega)
      rw [hcs.stop] at this
      linarith [not_lt.1 ht]

/-- **C118 (the code violates it)** Unless the simulation ends at a corner, the drawn line ends before the
position that is reached: at a corner passed earlier, some other point. -/
theorem C118_violated_end (pts poly : List (Vec d)) (period samplerate : ℝ) (hT : 0 < period * samplerate)
    (hpoly : anchorPoints pts = .ok poly) (hc : ClosedPolygon poly) (tot : Nat) (ht : (tot : ℝ) < period * samplerate)
    (hne : ∀ k, k < poly.length → arrival poly (period * samplerate) k ≠ tot) :
    ∃ (f : ℝ → Except PyErr (Vec d)) (p q : Vec d), linearTrajectory pts period samplerate (some true) = .ok f ∧
      (linearDrawn poly (linearCum poly period samplerate true) period samplerate tot).getLast? = some p ∧
      f tot = .ok q ∧ q ≠ p := by
  obtain ⟨f, pos, hf, hfp, hcs⟩ := C63_constant_speed_partial pts poly period samplerate hT hpoly hc
  obtain ⟨k, hk, h1, h2, h3⟩ := linearDrawn_speed poly period samplerate hT hc tot ht
  have hg := List.getElem?_eq_getElem (l := poly) (i := k) (by omega)
  refine ⟨f, poly[k], pos tot, hf, ?_, hfp _, ?_⟩
  · rw [h3, List.getLast?_eq_getElem?, List.length_take, Nat.min_eq_left (by omega)]
    simp [List.getElem?_take, hg]
  · intro he
    have hs := hcs.speed k hk (arrival poly (period * samplerate) k) tot le_rfl
      (arrival_lt hT hc k hk).le h1 h2.le
    rw [hcs.visits k _ hg, he] at hs
    simp only [sub_self, ne_eq, OfNat.ofNat_ne_zero, not_false_eq_true, zero_pow, Finset.sum_const_zero,
      Real.sqrt_zero] at hs
    have hL := pathLength_pos hc.two hc.distinct
    rcases mul_eq_zero.1 hs.symm with h | h
    · exact hne k (by omega) (by linarith [abs_eq_zero.1 h])
    · exact absurd h (by positivity)

/-- **C118 (the code violates it)** With equal times for the sides nothing at all is drawn if the
simulation ends in the last part of the period. -/
theorem C118_violated_time (poly : List (Vec d)) (period samplerate : ℝ) (hT : 0 < period * samplerate)
    (h0 : poly ≠ []) (tot : Nat) (h1 : (poly.length - 1 : ℝ) / poly.length * (period * samplerate) ≤ tot)
    (h2 : (tot : ℝ) < period * samplerate) :
    linearDrawn poly (linearCum poly period samplerate false) period samplerate tot = [] := by
  unfold linearDrawn linearCum
  rw [if_neg (not_le.2 h2), if_neg (by simp), firstAbove_none]
  · rfl
  intro c hc
  obtain ⟨k, hk, rfl⟩ := List.mem_map.1 hc
  have hk := List.mem_range.1 hk
  have hl : (0 : ℝ) < poly.length := by
    have := List.length_pos_iff.2 h0
    exact_mod_cast this
  refine le_trans ?_ h1
  have hk' : (k : ℝ) ≤ (poly.length : ℝ) - 1 := by
    have : (k : ℝ) + 1 ≤ poly.length := by exact_mod_cast hk
    linarith
  rw [show (k : ℝ) * (period / poly.length * samplerate) = (k : ℝ) / poly.length * (period * samplerate) by ring]
  gcongr

end

theorem drawArrays_error {arrs : List (String × DrawnArray)} {tot : Nat} {a : String × DrawnArray} (ha : a ∈ arrs)
    {e : PyErr} (h : a.2.draw tot = .error e) : ∃ e', drawArrays arrs tot = .error e' := by
  unfold drawArrays
  induction arrs with
  | nil => simp at ha
  | cons b arrs ih =>
    rw [List.mapM_cons]
    rcases List.mem_cons.1 ha with rfl | ha
    · rw [h]; exact ⟨_, rfl⟩
    · obtain ⟨e', he'⟩ := ih ha
      rw [he']
      cases b.2.draw tot <;> exact ⟨_, rfl⟩

/-- **C118 (the code violates it)** A circular trajectory with periods of less than 1000 samples: drawing
the arrays raises, so that no simulator is created, whatever the other arrays, and whether or not a
figure is wanted. -/
theorem C118_violated_circle (c : Circular) (pos : ℝ → ℝ × ℝ × ℝ) (hs : 0 < c.samplerate * max c.radialPeriod c.anglePeriod)
    (h : c.samplerate * max c.radialPeriod c.anglePeriod < 1000) (arrs : List (String × DrawnArray)) (name : String)
    (ha : (name, DrawnArray.moving [.circular c pos]) ∈ arrs) (tot : Nat) : ∃ e, drawArrays arrs tot = .error e := by
  have h0 : c.plotStep = 0 := by
    unfold Circular.plotStep
    rw [Int.floor_eq_zero_iff]
    constructor
    · positivity
    · rw [div_lt_one (by norm_num)]; exact h
  apply drawArrays_error ha (e := .zeroDivision)
  simp only [DrawnArray.draw, Drawable.draw, Circular.drawn, h0, if_true, List.mapM_cons]
  rfl

/-- **C118 (partial)** Longer periods: the drawn points are at least 1000 positions of the trajectory,
from the start, at equal distances in time of at least one sample, up to the end of the longer
period.  Missing: periods of less than 1000 samples, and shorter simulations, which are drawn alike. -/
theorem C118_circle_partial (c : Circular) (pos : ℝ → ℝ × ℝ × ℝ)
    (h : 1000 ≤ c.samplerate * max c.radialPeriod c.anglePeriod) (tot : Nat) :
    ∃ (step : Nat) (l : List (ℝ × ℝ)), 0 < step ∧ c.drawn pos tot = .ok l ∧ 1000 ≤ l.length ∧ l.length ≤ 2000 ∧
      (∀ k : Nat, k < l.length → l[k]? = some ((pos ((k * step : Nat) : ℝ)).1, (pos ((k * step : Nat) : ℝ)).2.1)) ∧
      (∀ k : Nat, k < l.length ↔ ((k * step : Nat) : ℝ) < c.samplerate * max c.radialPeriod c.anglePeriod) := by
  obtain ⟨M, hM⟩ : ∃ M, M = c.samplerate * max c.radialPeriod c.anglePeriod := ⟨_, rfl⟩
  rw [← hM] at h ⊢
  have hst : c.plotStep = ⌊M / 1000⌋ := by unfold Circular.plotStep; rw [hM]
  have h1 : (1 : Int) ≤ ⌊M / 1000⌋ := by
    rw [Int.le_floor, Int.cast_one, le_div_iff₀ (by norm_num)]; linarith
  obtain ⟨s, hs⟩ := Int.eq_ofNat_of_zero_le (show 0 ≤ ⌊M / 1000⌋ by omega)
  have hs1 : 1 ≤ s := by omega
  have hsr : (1 : ℝ) ≤ s := by exact_mod_cast hs1
  have hle : (s : ℝ) ≤ M / 1000 := by
    have := Int.floor_le (M / 1000); rw [hs] at this; exact_mod_cast this
  have hlt : M / 1000 < (s : ℝ) + 1 := by
    have := Int.lt_floor_add_one (M / 1000); rw [hs] at this; exact_mod_cast this
  have hq1 : 1000 ≤ M / s := by rw [le_div_iff₀ (by linarith)]; linarith [(le_div_iff₀ (by norm_num : (0 : ℝ) < 1000)).1 hle]
  have hq2 : M / s < 2000 := by
    rw [div_lt_iff₀ (by linarith)]
    have := (div_lt_iff₀ (by norm_num : (0 : ℝ) < 1000)).1 hlt
    nlinarith
  refine ⟨s, (List.range ⌈M / s⌉.toNat).map fun (k : Nat) => ((pos (k * s)).1, (pos (k * s)).2.1), by omega, ?_, ?_, ?_, ?_, ?_⟩
  · unfold Circular.drawn
    rw [← hM, hst, hs, if_neg (by omega)]
    simp
  · rw [List.length_map, List.length_range]
    have : (1000 : Int) ≤ ⌈M / s⌉ := by
      have : ((1000 : Int) : ℝ) ≤ ⌈M / s⌉ := le_trans (by exact_mod_cast hq1) (Int.le_ceil _)
      exact_mod_cast this
    omega
  · rw [List.length_map, List.length_range]
    have : ⌈M / s⌉ ≤ 2000 := Int.ceil_le.2 (by exact_mod_cast hq2.le)
    omega
  · intro k hk
    rw [List.length_map, List.length_range] at hk
    rw [List.getElem?_map, List.getElem?_range hk]
    simp
  · intro k
    rw [List.length_map, List.length_range, Int.lt_toNat, Int.lt_ceil, lt_div_iff₀ (by linarith)]
    push_cast
    rfl

/-- **C118 (the code violates it)** A circular trajectory is drawn for the whole of its longer period,
however short the simulation is, and a trajectory given by a function is not drawn. -/
theorem C118_violated_shorter (c : Circular) (pos : ℝ → ℝ × ℝ × ℝ) (tot tot' : Nat) :
    (Drawable.circular c pos).draw tot = (Drawable.circular c pos).draw tot' ∧ Drawable.func.draw tot = .ok [] :=
  ⟨rfl, rfl⟩

/-- **C118 (partial)** Whenever the arrays can be drawn, every one of them is, under its name and in order: one that stands still
by its positions, one that moves by the lines of all its trajectories. -/
theorem C118_all_partial {arrs : List (String × DrawnArray)} {tot : Nat} {r : List (String × List (List (ℝ × ℝ)))}
    (h : drawArrays arrs tot = .ok r) :
    List.Forall₂ (fun a o => o.1 = a.1 ∧
      (∀ pos, a.2 = .still pos → o.2 = [pos.map fun p => (p 0, p 1)]) ∧
      ∀ trajs, a.2 = .moving trajs →
        ∃ lss, List.Forall₂ (fun (t : Drawable) l => t.draw tot = .ok l) trajs lss ∧ o.2 = lss.flatten) arrs r := by
  refine (mapM_ok_forall₂ h).imp ?_
  rintro ⟨nm, d⟩ o ho
  dsimp only at ho
  cases d with
  | still pos =>
    cases ho
    refine ⟨rfl, ?_, ?_⟩
    · rintro _ ⟨⟩
      rfl
    · rintro _ ⟨⟩
  | moving trajs =>
    simp only [DrawnArray.draw] at ho
    cases hm : trajs.mapM fun t => t.draw tot with
    | error e => rw [hm] at ho; cases ho
    | ok lss =>
      rw [hm] at ho
      cases ho
      refine ⟨rfl, ?_, ?_⟩
      · rintro _ ⟨⟩
      · rintro _ ⟨⟩
        exact ⟨lss, mapM_ok_forall₂ hm, rfl⟩

/-! ### Examples -/

/-- The unit square in one second at 1000 Hz: after 300 samples two corners are drawn. -/
example : ∃ (f : ℝ → Except PyErr (Vec 2)) (times : List ℝ), linearTrajectory unitSquare 1 1000 (some true) = .ok f ∧
    times.map f = (linearDrawn (unitSquare ++ [![0, 0]]) (linearCum (unitSquare ++ [![0, 0]]) 1 1000 true) 1 1000 300).map .ok ∧
    times.head? = some 0 := by
  obtain ⟨f, times, h1, h2, h3, _⟩ := C118_corners_partial unitSquare _ 1 1000 (by norm_num) unitSquare_anchor unitSquare_closed 300
  exact ⟨f, times, h1, h2, h3⟩

/-- From 0 to 1 and back. -/
def thereAndBack : List (Vec 1) := [![0], ![1]]

theorem thereAndBack_anchor : anchorPoints thereAndBack = .ok (thereAndBack ++ [![0]]) := by
  unfold anchorPoints thereAndBack
  dsimp only
  rw [if_neg]
  · intro h
    have := h 0
    norm_num at this

theorem thereAndBack_closed : ClosedPolygon (thereAndBack ++ [![0]]) where
  two := by decide
  closed := rfl
  distinct := by
    intro k p q hp hq e
    subst e
    unfold thereAndBack at hp hq
    match k, hp, hq with
    | 0, hp, hq =>
      simp only [List.cons_append, List.getElem?_cons_zero, Option.some.injEq, Nat.zero_add, List.getElem?_cons_succ] at hp hq
      have := congrFun (hp.trans hq.symm) 0
      norm_num at this
    | 1, hp, hq =>
      simp only [List.cons_append, List.nil_append, List.getElem?_cons_zero, Option.some.injEq, List.getElem?_cons_succ] at hp hq
      have := congrFun (hp.trans hq.symm) 0
      norm_num at this
    | k + 2, hp, hq => simp at hq

/-- After 300 of 1000 samples it has left the corner 0 at which the line ends. -/
example : ∃ (f : ℝ → Except PyErr (Vec 1)) (p q : Vec 1), linearTrajectory thereAndBack 1 1000 (some true) = .ok f ∧
    (linearDrawn (thereAndBack ++ [![0]]) (linearCum (thereAndBack ++ [![0]]) 1 1000 true) 1 1000 300).getLast? = some p ∧
    f (300 : Nat) = .ok q ∧ q ≠ p :=
  C118_violated_end thereAndBack _ 1 1000 (by norm_num) thereAndBack_anchor thereAndBack_closed 300 (by norm_num) (by
    intro k hk
    have : k = 0 ∨ k = 1 ∨ k = 2 := by simp [thereAndBack] at hk; omega
    rcases this with rfl | rfl | rfl <;> norm_num [arrival, pathLength, thereAndBack, vdist])

/-- After 900 of 1000 samples nothing is drawn with equal times (four sides and five points). -/
example : linearDrawn (unitSquare ++ [![0, 0]]) (linearCum (unitSquare ++ [![0, 0]]) 1 1000 false) 1 1000 900 = [] :=
  C118_violated_time _ 1 1000 (by norm_num) (by simp) 900 (by norm_num [unitSquare]) (by norm_num)

/-- A turn in 0.1 s at 8000 Hz. -/
example : ∃ e, drawArrays [("mic", .still [![0, 0, 0]]),
    ("loudspeaker", .moving [.circular ⟨(1, 3), (1, 2, 3), 0.1, 0.1, 8000, 0⟩ fun _ => (0, 0, 0)])] 16000 = .error e :=
  C118_violated_circle ⟨(1, 3), (1, 2, 3), 0.1, 0.1, 8000, 0⟩ (fun _ => (0, 0, 0)) (by norm_num) (by norm_num) _ "loudspeaker"
    (by simp) 16000

/-- A turn in 1 s at 8000 Hz. -/
example : ∃ (step : Nat) (l : List (ℝ × ℝ)), 0 < step ∧
    Circular.drawn ⟨(1, 3), (1, 2, 3), 0.5, 1, 8000, 0⟩ (fun t => (t, 0, 0)) 100 = .ok l ∧ 1000 ≤ l.length := by
  obtain ⟨step, l, h1, h2, h3, _⟩ := C118_circle_partial ⟨(1, 3), (1, 2, 3), 0.5, 1, 8000, 0⟩ (fun t => (t, 0, 0))
    (by norm_num) 100
  exact ⟨step, l, h1, h2, h3⟩

/-- A source on two squares at once: both are drawn. -/
example : ∃ r, drawArrays [("mic", .still [![1, 2, 3]]), ("src", .moving
    [.linear [![0, 0, 0], ![1, 0, 0], ![0, 0, 0]] 1 1000 true, .linear [![0, 5, 0], ![1, 5, 0], ![0, 5, 0]] 1 1000 true])] 1000 = .ok r ∧
    r.map (fun x => x.2.length) = [1, 2] := ⟨_, rfl, rfl⟩

end Verif

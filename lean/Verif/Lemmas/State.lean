import Verif.Lemmas.Units
import Verif.Lemmas.Resize
import Verif.Spec.State

namespace Verif

section
variable {R P V : Type} [Field R] [DecidableEq R]

/-- What was saved could be read from the processor. -/
theorem recState_got (dims : String → Option Nat) (T : Tape R) (pf : Nat → Option P)
    (get : P → Except PyErr (List R)) : ∀ (ps : List (Int × Int)) (values : Mat (Option R))
    (times : List Int) (i : Nat) (d : DData R P V),
    savePieces (diagOps R P V) dims T pf ps (.recState get values times i) = .ok d →
    ∀ q ∈ ps, ∃ p v, pf q.2.toNat = some p ∧ get p = .ok v
  | [], _, _, _, _, _ => by intro q hq; cases hq
  | q :: ps, values, times, i, d, h => by
    unfold savePieces at h
    rw [List.foldlM_cons] at h
    cases hs : (diagOps R P V).save (.recState get values times i) (pf q.2.toNat)
        (cut dims T (q.1 - 1) (q.2 - q.1).toNat) (0, q.2 - q.1) q with
    | error x => rw [hs] at h; cases h
    | ok d1 =>
      rw [hs] at h
      simp only [diagOps, DData.save] at hs
      split at hs
      · cases hs
      · cases hp : pf q.2.toNat with
        | none => rw [hp] at hs; cases hs
        | some p =>
          rw [hp] at hs
          simp only at hs
          cases hg : get p with
          | error x => rw [hg] at hs; cases hs
          | ok v =>
            rw [hg] at hs
            simp only at hs
            split at hs
            · cases hs
            · split at hs
              · cases hs
              · cases hs
                intro q' hq'
                rcases List.mem_cons.1 hq' with rfl | hq'
                · exact ⟨p, v, hp, hg⟩
                · exact recState_got dims T pf get ps _ _ _ d h q' hq'

theorem broadcastRow_exact {α : Type} {v : List α} {n : Nat} (h : v.length = n) :
    broadcastRow v n = some v := by
  unfold broadcastRow; rw [if_pos h]

theorem zipWith_set {α : Type} (dim nv i : Nat) (g : Nat → Nat → Option α) (v : List α)
    (hv : v.length = dim) :
    List.zipWith (fun (r : List (Option α)) x => r.set i (some x)) (matOf dim nv g) v =
      matOf dim nv fun j t => if t = i then v[j]? else g j t := by
  unfold matOf
  refine List.ext_getElem (by simp [hv]) fun j h1 h2 => ?_
  have hj : j < v.length := by simp at h1; omega
  simp only [List.getElem_zipWith, List.getElem_map, List.getElem_range]
  refine List.ext_getElem (by simp) fun t h3 h4 => ?_
  simp only [List.getElem_set, List.getElem_map, List.getElem_range]
  by_cases ht : i = t
  · subst ht; simp [List.getElem?_eq_getElem hj]
  · rw [if_neg ht, if_neg (fun h => ht h.symm)]

/-- Storage of a state diagnostic after `m` saves; storage large enough. -/
theorem recState_pieces (dims : String → Option Nat) (T : Tape R) (pf : Nat → Option P)
    (get : P → Except PyErr (List R)) (dim nv : Nat) (junk : Int) (q : Nat → Int × Int)
    (hq : ∀ i, (q i).2 = (q i).1 + 1) (X : Nat → List R) :
    ∀ m ≤ nv, (∀ i < m, ∃ p, pf (q i).2.toNat = some p ∧ get p = .ok (X i) ∧ (X i).length = dim) →
    savePieces (diagOps R P V) dims T pf ((List.range m).map q)
        (.recState get (List.replicate dim (List.replicate nv none)) (List.replicate nv junk) 0) =
      .ok (.recState get (matOf dim nv fun j t => if t < m then (X t)[j]? else none)
        ((List.range nv).map fun t => if t < m then (q t).1 else junk) m)
  | 0, _, _ => by
    have e1 : List.replicate dim (List.replicate nv none) =
        matOf dim nv fun j t => if t < 0 then (X t)[j]? else none := by
      unfold matOf
      refine List.ext_getElem (by simp) fun j h1 h2 => ?_
      simp only [List.getElem_replicate, List.getElem_map]
      refine List.ext_getElem (by simp) fun t h3 h4 => ?_
      simp
    have e2 : List.replicate nv junk = (List.range nv).map fun t => if t < 0 then (q t).1 else junk := by
      refine List.ext_getElem (by simp) fun j h1 h2 => ?_
      simp
    rw [e1, e2]
    rfl
  | m + 1, hm, hX => by
    have ih := recState_pieces dims T pf get dim nv junk q hq X m (by omega) fun i hi => hX i (by omega)
    rw [List.range_succ, List.map_append, savePieces_append, ih]
    obtain ⟨p, h1, h2, h3⟩ := hX m (by omega)
    simp only [Except.bind, savePieces, List.map_cons, List.map_nil, List.foldlM_cons, List.foldlM_nil]
    rw [h1]
    have hs : (diagOps R P V).save
        (.recState get (matOf dim nv fun j t => if t < m then (X t)[j]? else none)
          ((List.range nv).map fun t => if t < m then (q t).1 else junk) m) (some p)
        (cut dims T ((q m).1 - 1) ((q m).2 - (q m).1).toNat) (0, (q m).2 - (q m).1) (q m) =
        .ok (.recState get (matOf dim nv fun j t => if t < m + 1 then (X t)[j]? else none)
          ((List.range nv).map fun t => if t < m + 1 then (q t).1 else junk) (m + 1)) := by
      simp only [diagOps, DData.save]
      rw [if_neg (by rw [hq m]; simp), h2]
      simp only
      rw [if_neg (by simp; omega), broadcastRow_exact (by rw [h3]; simp [matOf])]
      simp only
      rw [zipWith_set dim nv m _ _ h3]
      congr 3
      · funext j t
        by_cases ht : t = m
        · subst ht; simp
        · rw [if_neg ht]
          by_cases h : t < m
          · rw [if_pos h, if_pos (by omega)]
          · rw [if_neg h, if_neg (by omega)]
      · refine List.ext_getElem (by simp) fun t a1 a2 => ?_
        simp only [List.getElem_set, List.getElem_map, List.getElem_range]
        by_cases ht : m = t
        · subst ht; simp
        · rw [if_neg ht]
          by_cases h : t < m
          · rw [if_pos h, if_pos (by omega)]
          · rw [if_neg h, if_neg (by omega)]
    rw [hs]
    rfl

end

/-! ### `get_values_from_selection` -/

theorem take_findIdx_sorted {T : Nat → Int} {e : Int} : ∀ {l : List Nat},
    (l.map T).Pairwise (· < ·) →
    l.take (l.findIdx fun t => decide (T t ≥ e)) = l.filter fun t => decide (T t < e)
  | [], _ => rfl
  | t :: l, h => by
    rw [List.map_cons, List.pairwise_cons] at h
    rw [List.findIdx_cons, List.filter_cons]
    by_cases ht : T t ≥ e
    · have h1 : l.filter (fun t => decide (T t < e)) = [] := by
        rw [List.filter_eq_nil_iff]
        intro x hx
        have := h.1 (T x) (List.mem_map_of_mem hx)
        simp only [decide_eq_true_eq]
        omega
      rw [decide_eq_true ht, decide_eq_false (by omega)]
      simp [h1]
    · rw [decide_eq_false ht, decide_eq_true (by omega)]
      simp only [cond_false, List.take_succ_cons, if_true]
      rw [take_findIdx_sorted h.2]

/-- `get_values_from_selection` when something was saved before the index (or nothing at all). -/
theorem getSelection_matOf {α : Type} (num n : Nat) (hnum : 0 < num) (p : Nat → Bool)
    (g : Nat → Nat → α) (T : Nat → Int) (e : Int)
    (hT : (((List.range n).filter p).map T).Pairwise (· < ·))
    (hfirst : ∀ t, ((List.range n).filter p).head? = some t → T t < e) :
    getSelection (matOf num n fun j t => if p t then some (g j t) else none) ((List.range n).map T) e =
      .ok ((List.range num).map (fun j =>
          (((List.range n).filter p).filter fun t => decide (T t < e)).map (g j)),
        (((List.range n).filter p).filter fun t => decide (T t < e)).map T) := by
  have hmask : ∀ j, ((List.range n).map fun t => if p t then some (g j t) else none).map Option.isSome =
      (List.range n).map p := by
    intro j
    rw [List.map_map]
    refine List.map_congr_left fun t _ => ?_
    simp only [Function.comp]
    cases p t <;> rfl
  have hts : ∀ l : List Nat, ((l.map T).zip (l.map p)).filterMap
      (fun x => if x.2 then some x.1 else none) = (l.filter p).map T := by
    intro l
    induction l with
    | nil => rfl
    | cons a l ih =>
      simp only [List.map_cons, List.zip_cons_cons, List.filterMap_cons, List.filter_cons]
      rw [ih]
      cases p a <;> rfl
  obtain ⟨m, rfl⟩ : ∃ m, num = m + 1 := ⟨num - 1, by omega⟩
  unfold getSelection matOf
  rw [List.range_succ_eq_map, List.map_cons]
  simp only
  rw [← List.map_cons (f := fun j => (List.range n).map fun t => if p t then some (g j t) else none),
    ← List.range_succ_eq_map, if_neg, if_neg]
  · rw [hmask, hts]
    have hsg : ((List.range (m + 1)).map fun j => (List.range n).map fun t =>
        if p t then some (g j t) else none).map (fun r => r.filterMap id) =
        (List.range (m + 1)).map fun j => ((List.range n).filter p).map (g j) := by
      rw [List.map_map]
      exact List.map_congr_left fun j _ => filterMap_mask p (g j) _
    rw [hsg]
    have key := take_findIdx_sorted (T := T) (e := e) hT
    generalize (List.range n).filter p = sel at *
    by_cases h0 : (sel.map T).length = 0
    · rw [if_pos h0]
      have : sel = [] := List.length_eq_zero_iff.1 (by simpa using h0)
      subst this
      simp
    · rw [if_neg h0]
      have hall : ∀ k, sel.take k = (sel.filter fun t => decide (T t < e)) →
          (Except.ok (((List.range (m + 1)).map fun j => sel.map (g j)).map (fun r => r.take k),
            (sel.map T).take k) : Except PyErr (Mat α × List Int)) =
          .ok ((List.range (m + 1)).map (fun j => (sel.filter fun t => decide (T t < e)).map (g j)),
            (sel.filter fun t => decide (T t < e)).map T) := by
        intro k hk
        rw [← hk, List.map_map]
        simp only [← List.map_take]
        congr 2
        refine List.map_congr_left fun j _ => ?_
        simp only [Function.comp, List.map_take]
      apply hall
      by_cases hany : (sel.map T).any fun t => decide (t ≥ e)
      · rw [if_pos hany, List.findIdx_map]
        cases sel with
        | nil => simp at h0
        | cons t sel =>
          have ht := hfirst t rfl
          rw [if_neg]
          · exact key
          · rw [List.findIdx_cons]
            simp only [Function.comp]
            rw [decide_eq_false (by omega)]
            simp
      · rw [if_neg hany, if_pos rfl]
        have hno : ∀ t ∈ sel, T t < e := by
          intro t ht
          simp only [List.any_map, List.any_eq_true, not_exists, not_and, Function.comp, decide_eq_true_eq] at hany
          have := hany t ht
          omega
        rw [List.filter_eq_self.2 (fun t ht => decide_eq_true (hno t ht))]
        simp
  · simp
  · simp only [List.any_map, List.any_eq_true, not_exists, not_and, Function.comp]
    intro j _
    rw [hmask, hmask]
    simp

/-! ### Runs -/

theorem ends_le_lastEnd {lo : Int} : ∀ {l : List (Int × Int)}, (l.map Prod.snd).Pairwise (· < ·) →
    ∀ q ∈ l, q.2 ≤ lastEnd lo l
  | [], _ => by intro q hq; cases hq
  | p :: l, h => by
    rw [List.map_cons, List.pairwise_cons] at h
    intro q hq
    show q.2 ≤ lastEnd p.2 l
    rcases List.mem_cons.1 hq with rfl | hq
    · cases l with
      | nil => exact le_refl _
      | cons p' l =>
        have h1 := h.1 p'.2 (by simp)
        have h2 := ends_le_lastEnd (lo := q.2) h.2 p' (by simp)
        omega
    · exact ends_le_lastEnd h.2 q hq

theorem lastEnd_le {b : Int} : ∀ {l : List (Int × Int)} {lo : Int}, lo ≤ b → (∀ q ∈ l, q.2 ≤ b) → lastEnd lo l ≤ b
  | [], _, h, _ => h
  | q :: l, _, _, hl => lastEnd_le (l := l) (lo := q.2) (hl q (by simp)) fun q hq => hl q (by simp [hq])

theorem mid_of_sorted {A B : List Int} {x e : Int} (h : (A ++ x :: B).Pairwise (· < ·)) (he : e ∈ A ++ x :: B)
    (hx : e ≤ x) (hA : ∀ a ∈ A, a < e) : e = x := by
  rcases List.mem_append.1 he with h1 | h1
  · have := hA e h1; omega
  · rcases List.mem_cons.1 h1 with h1 | h1
    · exact h1
    · have := (List.pairwise_cons.1 (List.pairwise_append.1 h).2.1).1 e h1
      omega

/-- Exports of a list of increasing indices, cut at the last one served. -/
theorem served_eq {l xs ys : List Int} {b : Int} (h : l = xs ++ ys)
    (hx : ∀ x ∈ xs, x ≤ b) (hy : ∀ y ∈ ys, b < y) : xs = l.filter fun x => decide (x ≤ b) := by
  rw [h, List.filter_append, List.filter_eq_self.2 (fun x hx' => decide_eq_true (hx x hx')),
    List.filter_eq_nil_iff.2 (fun y hy' => by have := hy y hy'; simpa using this), List.append_nil]

section
variable {R IR F S A P V : Type} [Field R] [DecidableEq R]
  {cfg : SimCfg R IR F S A P (DData R P V) (DOut R V)} {lp : ProcView R P}
  {srcs : String → S} {arr : A} {proc : P} {f0 : F} {ds0 : List (Diag (DData R P V))}
  {st0 fin : SimSt R F S A P (DData R P V) (DOut R V)}

theorem mkRecordState_ok {info : DiagInfo} {name : String} {get : P → Except PyErr (List R)} {dim : Nat}
    {ex : Option IdxSel} {f : Nat} {junk : Int} {d : Diag (DData R P V)}
    (h : mkRecordState info name get dim ex (some (.every f)) junk = .ok d) :
    0 < f ∧ d.name = name ∧ d.saveAt = IvCounter.init (freqIvs f info.tot 1) ∧
      exportCounter info ex = .ok d.exportAt ∧
      d.data = .recState get (List.replicate dim (List.replicate ((info.tot + f - 1) / f) none))
        (List.replicate ((info.tot + f - 1) / f) junk) 0 := by
  unfold mkRecordState stateCounters at h
  dsimp only at h
  cases h1 : IvCounter.fromFrequency f info.tot false with
  | error x => rw [h1] at h; cases h
  | ok r =>
    obtain ⟨c, nv⟩ := r
    cases h2 : exportCounter info ex with
    | error x => rw [h1, h2] at h; cases h
    | ok ex' =>
      rw [h1, h2] at h
      cases h
      obtain ⟨a, b, c⟩ := fromFrequency_eq h1
      subst c
      exact ⟨a, rfl, b, rfl, rfl⟩

theorem div_le_ceil (m f : Nat) (hf : 0 < f) : m / f ≤ (m + f - 1) / f :=
  Nat.div_le_div_right (by omega)

/-- The storage of a state diagnostic after the pieces `qs`, with the states
that were seen. -/
theorem DiagRun.state_saved {ok : String → Prop} {T : Tape R} {pf : Nat → Option P}
    (h : DiagRun cfg ds0 st0 fin ok T pf)
    {get : P → Except PyErr (List R)} {dim f nv m : Nat} {junk : Int} (hf : 0 < f)
    (hm : m ≤ cfg.tot / f) (hnv : cfg.tot / f ≤ nv)
    (hdim : ∀ p v, get p = .ok v → v.length = dim) {dd : DData R P V}
    (hs : savePieces (diagOps R P V) cfg.dims T pf
      ((List.range m).map fun i => ((((i + 1) * f : Nat) : Int) - 1, (((i + 1) * f : Nat) : Int)))
      (.recState get (List.replicate dim (List.replicate nv none)) (List.replicate nv junk) 0) = .ok dd) :
    ∃ X : Nat → List R, (∀ i < m, (X i).length = dim ∧ ∃ s, cfg.StateAt st0 ((i + 1) * f) s ∧ get s = .ok (X i)) ∧
      dd = .recState get (matOf dim nv fun j t => if t < m then (X t)[j]? else none)
        ((List.range nv).map fun t => if t < m then (((t + 1) * f : Nat) : Int) - 1 else junk) m := by
  have hgot := recState_got _ _ _ _ _ _ _ _ _ hs
  have hX : ∀ i, ∃ v, i < m → ∃ p, pf ((i + 1) * f) = some p ∧ get p = .ok v := by
    intro i
    by_cases hi : i < m
    · obtain ⟨p, v, h1, h2⟩ := hgot _ (List.mem_map_of_mem (List.mem_range.2 hi))
      simp only [Int.toNat_natCast] at h1
      exact ⟨v, fun _ => ⟨p, h1, h2⟩⟩
    · exact ⟨[], fun hi' => absurd hi' hi⟩
  obtain ⟨X, hX⟩ := Classical.axiomOfChoice hX
  have hbound : ∀ i < m, (i + 1) * f < cfg.tot + cfg.mbs := by
    intro i hi
    have h1 : (i + 1) * f ≤ cfg.tot :=
      le_trans (Nat.mul_le_mul_right f (show i + 1 ≤ cfg.tot / f by omega)) (Nat.div_mul_le_self _ _)
    have := h.block
    omega
  refine ⟨X, ?_, ?_⟩
  · intro i hi
    obtain ⟨p, h1, h2⟩ := hX i hi
    exact ⟨hdim _ _ h2, p, h.state _ (hbound i hi) _ h1, h2⟩
  · rw [recState_pieces cfg.dims T pf get dim nv junk
      (fun i => ((((i + 1) * f : Nat) : Int) - 1, (((i + 1) * f : Nat) : Int))) (fun i => by simp) X m (by omega)
      (fun i hi => by
        obtain ⟨p, h1, h2⟩ := hX i hi
        exact ⟨p, by rw [← h1]; exact congrArg _ (Int.toNat_natCast _), h2, hdim _ _ h2⟩)] at hs
    exact (Except.ok.inj hs).symm

theorem freqIvs_all {f m K : Nat} (hK : m < K) :
    (freqIvs f m 1).filter (fun q => decide (q.2 < (K : Int))) = freqIvs f m 1 := by
  rw [List.filter_eq_self]
  intro q hq
  have := freqIvs_le q hq
  simp only [decide_eq_true_eq]
  omega

theorem prefix_range_map {α : Type} {n : Nat} {g : Nat → α} {qs : List α}
    (h : qs <+: (List.range n).map g) : ∃ m ≤ n, qs = (List.range m).map g := by
  have h1 := List.prefix_iff_eq_take.1 h
  refine ⟨min qs.length n, by omega, ?_⟩
  rw [← List.map_take, List.take_range] at h1
  exact h1

theorem lastEnd_freq (m f : Nat) :
    lastEnd 0 ((List.range m).map fun i => ((((i + 1) * f : Nat) : Int) - 1, (((i + 1) * f : Nat) : Int))) =
      ((m * f : Nat) : Int) := by
  cases m with
  | zero => simp [lastEnd]
  | succ m => rw [List.range_succ, List.map_append, List.map_cons, List.map_nil, lastEnd_concat]

/-- Saving the processor property. -/
theorem instant_pieces (dims : String → Option Nat) (T : Tape R) (pf : Nat → Option P)
    (get : P → Except PyErr V) : ∀ (ps : List (Int × Int)) (q : Int × Int) (v0 : Option V) (d : DData R P V),
    savePieces (diagOps R P V) dims T pf (ps ++ [q]) (.instant get v0) = .ok d →
    ∃ p v, pf q.2.toNat = some p ∧ get p = .ok v ∧ d = .instant get (some v)
  | ps, q, v0, d, h => by
    have hkeep : ∀ (ps : List (Int × Int)) v0 (d : DData R P V),
        savePieces (diagOps R P V) dims T pf ps (.instant get v0) = .ok d → ∃ v1, d = .instant get v1 := by
      intro ps
      induction ps with
      | nil => intro v0 d h; cases h; exact ⟨_, rfl⟩
      | cons q ps ih =>
        intro v0 d h
        unfold savePieces at h
        rw [List.foldlM_cons] at h
        simp only [diagOps, DData.save] at h
        cases hp : pf q.2.toNat with
        | none => rw [hp] at h; cases h
        | some p =>
          rw [hp] at h
          cases hg : get p with
          | error x => simp only [hg] at h; cases h
          | ok v => simp only [hg] at h; exact ih _ _ h
    rw [savePieces_append] at h
    cases h1 : savePieces (diagOps R P V) dims T pf ps (.instant get v0) with
    | error x => rw [h1] at h; cases h
    | ok d1 =>
      rw [h1] at h
      obtain ⟨v1, rfl⟩ := hkeep _ _ _ h1
      simp only [Except.bind, savePieces, List.foldlM_cons, List.foldlM_nil, diagOps, DData.save] at h
      cases hp : pf q.2.toNat with
      | none => rw [hp] at h; cases h
      | some p =>
        rw [hp] at h
        cases hg : get p with
        | error x => simp only [hg] at h; cases h
        | ok v => simp only [hg] at h; cases h; exact ⟨p, v, rfl, hg, rfl⟩

/-- Instant diagnostics: what is exported and when. -/
theorem DiagRun.instants {ok : String → Prop} {T : Tape R} {pf : Nat → Option P}
    (h : DiagRun cfg ds0 st0 fin ok T pf) (hplot : cfg.plotNone = false) {get : P → Except PyErr V} {l : List Int}
    {d : Diag (DData R P V)} (hmem : d ∈ ds0) (hsv : d.saveAt = IvCounter.init (l.map fun i => (i - 1, i)))
    (hex : d.exportAt.left = l) (hdata : d.data = .instant get none) (hl : l.Pairwise (· < ·))
    (hpos : ∀ x ∈ l, 1 ≤ x) :
    (evOf d.name fin.log).map Event.time = l.filter (· < ((cfg.tot + cfg.mbs : Nat) : Int)) ∧
    ∀ ev ∈ evOf d.name fin.log, ∃ s v, cfg.StateAt st0 ev.time.toNat s ∧ get s = .ok v ∧
      ev.out = .value (some v) := by
  have hinc : ∀ (l : List Int) (lo : Int), l.Pairwise (· < ·) → (∀ x ∈ l, lo + 1 ≤ x) →
      Increasing lo (l.map fun i => (i - 1, i)) := by
    intro l
    induction l with
    | nil => intro _ _ _; trivial
    | cons x l ih =>
      intro lo hl hlo
      rw [List.pairwise_cons] at hl
      refine ⟨?_, ?_, ih x hl.2 fun y hy => by have := hl.1 y hy; omega⟩
      · have := hlo x (by simp)
        simp only; omega
      · simp only; omega
  obtain ⟨d', _, _, ps, xs, hps, _, hleft, htimes, hout, hnext⟩ := h.unit_spec d hmem
    (by rw [hdata]; intro _ hn; cases hn) _ hsv
    (hinc l 0 hl (by simpa using hpos)) (by intro q hq; obtain ⟨i, _, rfl⟩ := List.mem_map.1 hq; simp)
  have hps' : ps = (l.filter fun x => decide (x < ((cfg.tot + cfg.mbs : Nat) : Int))).map fun i => (i - 1, i) := by
    rw [hps, List.filter_map]; rfl
  have hends : ps.map Prod.snd = l.filter fun x => decide (x < ((cfg.tot + cfg.mbs : Nat) : Int)) := by
    rw [hps', List.map_map]; exact List.map_id' _
  have hsorted : (ps.map Prod.snd).Pairwise (· < ·) := by rw [hends]; exact hl.filter _
  have hK : (0 : Int) ≤ ((cfg.tot + cfg.mbs : Nat) : Int) - 1 := by have := h.block; omega
  have hxs : xs = l.filter fun x => decide (x < ((cfg.tot + cfg.mbs : Nat) : Int)) := by
    have h1 := served_eq (b := lastEnd 0 ps) hleft
      (by
        intro x hx
        rw [← htimes] at hx
        obtain ⟨ev, hev, rfl⟩ := List.mem_map.1 hx
        obtain ⟨qs, hqs, _, _, _, hle, _⟩ := hout ev hev
        refine le_trans hle ?_
        obtain ⟨rest, rfl⟩ := hqs
        rcases List.eq_nil_or_concat rest with rfl | ⟨r, q, rfl⟩
        · simp
        · rw [List.concat_eq_append, ← List.append_assoc, lastEnd_concat]
          refine lastEnd_le ?_ ?_
          · have : q.2 ∈ l.filter fun x => decide (x < ((cfg.tot + cfg.mbs : Nat) : Int)) := by
              rw [← hends]; simp
            have := hpos _ (List.mem_filter.1 this).1
            omega
          · intro q' hq'
            have := ends_le_lastEnd (lo := 0) hsorted q' (by simp [hq'])
            rwa [List.concat_eq_append, ← List.append_assoc, lastEnd_concat] at this)
      (hnext hplot (by rw [hex]; exact hl))
    rw [h1, hex]
    apply List.filter_congr
    intro x hx
    have hx1 := hpos x hx
    by_cases hlt : x < ((cfg.tot + cfg.mbs : Nat) : Int)
    · rw [decide_eq_true hlt, decide_eq_true]
      have : x ∈ ps.map Prod.snd := by
        rw [hends]; exact List.mem_filter.2 ⟨hx, decide_eq_true hlt⟩
      obtain ⟨q, hq, rfl⟩ := List.mem_map.1 this
      exact ends_le_lastEnd hsorted q hq
    · rw [decide_eq_false hlt, decide_eq_false]
      have : lastEnd 0 ps ≤ ((cfg.tot + cfg.mbs : Nat) : Int) - 1 := lastEnd_le hK (by
        intro q hq
        have : q.2 ∈ ps.map Prod.snd := List.mem_map_of_mem hq
        rw [hends] at this
        have := (List.mem_filter.1 this).2
        simp only [decide_eq_true_eq] at this
        omega)
      omega
  refine ⟨by rw [htimes, hxs], ?_⟩
  intro ev hev
  obtain ⟨qs, hqs, dd, hsave, ho, hle, hprompt⟩ := hout ev hev
  have hmemx : ev.time ∈ l.filter fun x => decide (x < ((cfg.tot + cfg.mbs : Nat) : Int)) := by
    rw [← hxs, ← htimes]; exact List.mem_map_of_mem hev
  have h1 := hpos _ (List.mem_filter.1 hmemx).1
  rcases List.eq_nil_or_concat qs with rfl | ⟨q', q, rfl⟩
  · have : ev.time ≤ 0 := hle
    omega
  · rw [List.concat_eq_append] at hqs hsave hle hprompt
    rw [lastEnd_concat] at hle
    obtain ⟨rest, hrest⟩ := hqs
    have hpr : lastEnd 0 q' < ev.time := by
      rcases hprompt hplot (by rw [hex]; exact hl) with h2 | h2
      · omega
      · rwa [List.dropLast_concat] at h2
    have hL : ps.map Prod.snd = q'.map Prod.snd ++ q.2 :: rest.map Prod.snd := by
      rw [← hrest]; simp
    have hsorted' := hsorted
    rw [hL] at hsorted'
    have heq : ev.time = q.2 := by
      refine mid_of_sorted hsorted' (by rw [← hL, hends]; exact hmemx) hle ?_
      intro a ha
      obtain ⟨a', ha', rfl⟩ := List.mem_map.1 ha
      have := ends_le_lastEnd (lo := 0) (List.pairwise_append.1 hsorted').1 a' ha'
      omega
    rw [hdata] at hsave
    obtain ⟨p, v, g1, g2, rfl⟩ := instant_pieces _ _ _ _ _ _ _ _ hsave
    rw [← heq] at g1
    have hlt : ev.time.toNat < cfg.tot + cfg.mbs := by
      have := (List.mem_filter.1 hmemx).2
      simp only [decide_eq_true_eq] at this
      omega
    refine ⟨p, v, h.state _ hlt _ g1, g2, ?_⟩
    simp only [DData.output, Except.ok.injEq] at ho
    exact ho.symm

end

end Verif

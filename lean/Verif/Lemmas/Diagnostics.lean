import Verif.Model.Diagnostics
import Verif.Lemmas.Produced

namespace Verif

section
variable {R P V : Type}

theorem sigSelect_eq (S : Sigs R) (name : String) (sel : Option (List Int)) (i j : Int) :
    sigSelect S name sel i j =
      match sigGet S name i j with
      | .error x => .error x
      | .ok m => selectRows m sel := by
  unfold sigSelect sigGet
  cases S name <;> rfl

theorem sigSelect_local (dims : String → Option Nat) (T : Tape R) (a b L : Nat) (hab : a ≤ b)
    (hb : b ≤ L) (name : String) (sel : Option (List Int)) :
    sigSelect (cut dims T 0 L) name sel a b =
      sigSelect (cut dims T a (b - a)) name sel 0 ((b : Int) - a) := by
  rw [sigSelect_eq, sigSelect_eq]
  have e1 : (b : Int) = (a : Int) + ((b - a : Nat) : Int) := by omega
  have e2 : (b : Int) - a = ((0 : Nat) : Int) + ((b - a : Nat) : Int) := by omega
  rw [e2]
  conv_lhs => rw [e1]
  rw [sigGet_cut T 0 L name a (b - a) (by omega)]
  have := sigGet_cut (dims := dims) T (a : Int) (b - a) name 0 (b - a) (by omega)
  simp only [Nat.cast_zero, zero_add, add_zero] at this ⊢
  rw [this]

theorem diagOps_local [Field R] [DecidableEq R] (dims : String → Option Nat) :
    (diagOps R P V).Local dims := by
  intro d p T a b L g hab hb
  have hs := fun name sel => sigSelect_local dims T a b L hab hb name sel
  show DData.save d p _ _ _ = DData.save d p _ _ _
  unfold DData.save
  cases d with
  | recSignal name chan signal => simp only [hs]
  | recState get values times i => rfl
  | power name chan pw => simp only [hs, sub_zero]
  | ratio n nc dn dc q vals => simp only [hs, sub_zero]
  | instant get v => rfl
  | sfPower name q pw => simp only [hs]
  | spectrum name chan w signal k => simp only [hs, sub_zero]
  | summary name func q mean => simp only [hs]

theorem pyIndex_range {α : Type} (num : Nat) (g : Nat → α) (i : Int) :
    pyIndex ((List.range num).map g) i =
      match (if 0 ≤ i ∧ i < num then some i.toNat
        else if -(num : Int) ≤ i ∧ i < 0 then some (num + i).toNat else none) with
      | none => .error .index
      | some c => .ok (g c) := by
  unfold pyIndex
  simp only [List.length_map, List.length_range]
  by_cases h0 : i < 0
  · rw [if_pos h0, if_neg (show ¬ (0 ≤ i ∧ i < (num : Int)) by omega)]
    by_cases h1 : i + num < 0
    · rw [if_pos h1, if_neg (by omega)]
    · rw [if_neg h1, if_pos (show -(num : Int) ≤ i ∧ i < 0 by omega)]
      have hlt : (i + num).toNat < num := by omega
      rw [List.getElem?_eq_getElem (by simpa using hlt)]
      simp only [List.getElem_map, List.getElem_range]
      rw [Int.add_comm]
  · rw [if_neg h0]
    by_cases h1 : i < num
    · have hlt : i.toNat < num := by omega
      rw [if_pos (by omega), List.getElem?_eq_getElem (by simpa using hlt)]
      simp
    · rw [if_neg (by omega), if_neg (by omega), List.getElem?_eq_none (by simp; omega)]

theorem selectRows_matOf {α : Type} (num n : Nat) (f : Nat → Nat → α) (chan : Option (List Int)) :
    selectRows (matOf num n f) chan =
      match chanRows num chan with
      | none => .error .index
      | some rows => .ok (rows.map fun c => (List.range n).map fun k => f c k) := by
  cases chan with
  | none => rfl
  | some is =>
    unfold selectRows chanRows matOf
    induction is with
    | nil => rfl
    | cons i is ih =>
      simp only at ih ⊢
      rw [List.mapM_cons, List.mapM_cons, pyIndex_range]
      generalize (if 0 ≤ i ∧ i < (num : Int) then some i.toNat
        else if -(num : Int) ≤ i ∧ i < 0 then some ((num : Int) + i).toNat else none) = o
      cases o with
      | none => rfl
      | some c =>
        simp only
        rw [show (Except.ok ((List.range n).map fun k => f c k) >>= fun r => do
            let rs ← is.mapM (pyIndex ((List.range num).map fun c => (List.range n).map fun k => f c k))
            pure (r :: rs)) = (do
            let rs ← is.mapM (pyIndex ((List.range num).map fun c => (List.range n).map fun k => f c k))
            pure (((List.range n).map fun k => f c k) :: rs) : Except PyErr _) from rfl]
        rw [ih]
        cases is.mapM (fun i => if 0 ≤ i ∧ i < (num : Int) then some i.toNat
          else if -(num : Int) ≤ i ∧ i < 0 then some ((num : Int) + i).toNat else none) with
        | none => rfl
        | some rows => rfl

theorem sigSelect_cut (dims : String → Option Nat) (T : Tape R) (a : Int) (n : Nat) (name : String)
    (num : Nat) (hd : dims name = some num) (chan : Option (List Int)) (rows : List Nat)
    (hr : chanRows num chan = some rows) :
    sigSelect (cut dims T a n) name chan 0 n =
      .ok (rows.map fun c => (List.range n).map fun (k : Nat) => T name c (a + k)) := by
  rw [sigSelect_eq]
  have := sigGet_cut (dims := dims) T a n name 0 n (by omega)
  simp only [Nat.cast_zero, zero_add, add_zero] at this
  rw [this]
  unfold tGet
  rw [hd]
  simp only
  rw [selectRows_matOf, hr]

theorem broadcastMat_exact {α : Type} (rows : List Nat) (n : Nat) (g : Nat → Nat → α) :
    broadcastMat (rows.map fun c => (List.range n).map fun k => g c k) rows.length n =
      some (rows.map fun c => (List.range n).map fun k => g c k) := by
  unfold broadcastMat broadcastChan
  rw [if_pos (by simp)]
  simp only [Option.bind_some]
  induction rows with
  | nil => rfl
  | cons c rows ih =>
    rw [List.map_cons, List.mapM_cons, ih]
    unfold broadcastRow
    rw [if_pos (by simp)]
    rfl

/-- Writing one piece into the recording. -/
theorem recSignal_save [Field R] (dims : String → Option Nat) (T : Tape R) (pr : Option P)
    (name : String) (num : Nat) (hd : dims name = some num) (chan : Option (List Int))
    (rows : List Nat) (hr : chanRows num chan = some rows) (tot : Nat) (f : Nat → Nat → Option R)
    (s e : Int) (h0 : 0 ≤ s) (hse : s < e) (he : e ≤ tot) :
    DData.save (.recSignal name chan (matOf rows.length tot f) : DData R P V) pr
        (cut dims T (s - 1) (e - s).toNat) (0, e - s) (s, e) =
      .ok (.recSignal name chan (matOf rows.length tot fun j t =>
        if s ≤ t ∧ (t : Int) < e then some (T name (rows.getD j 0) (t - 1)) else f j t)) := by
  let : Zero (Option R) := ⟨none⟩
  obtain ⟨s', hs'⟩ := Int.eq_ofNat_of_zero_le h0
  obtain ⟨n, hn⟩ := Int.eq_ofNat_of_zero_le (show 0 ≤ e - s by omega)
  have e1 : e - s = (n : Int) := hn
  have e2 : s = (s' : Int) := hs'
  have e3 : e = (s' : Int) + n := by omega
  unfold DData.save
  simp only
  rw [e1, Int.toNat_natCast, sigSelect_cut dims T (s - 1) n name num hd chan rows hr]
  simp only
  rw [e3, e2, pyAssign2_matOf rows.length tot s' n f (by omega)]
  have hb := broadcastMat_exact rows n (fun c k => some (T name c ((s' : Int) - 1 + k)))
  have hm : (List.map (fun r => List.map some r)
      (List.map (fun c => List.map (fun (k : Nat) => T name c ((s' : Int) - 1 + k)) (List.range n)) rows)) =
      rows.map fun c => (List.range n).map fun (k : Nat) => some (T name c ((s' : Int) - 1 + k)) := by
    simp [Function.comp_def]
  rw [hm, hb]
  simp only [Option.map_some]
  congr 2
  apply matOf_congr
  intro c t hc ht
  by_cases hin : s' ≤ t ∧ t < s' + n
  · rw [if_pos hin, if_pos (by omega)]
    have h1 : t - s' < n := by omega
    have h2 : ((s' : Int) - 1 + ((t - s' : Nat) : Int)) = t - 1 := by omega
    simp [matVal, List.getD_eq_getElem?_getD, hc, h1, h2]
  · rw [if_neg hin, if_neg (by omega)]

/-- Writing all pieces into the recording. -/
theorem recSignal_pieces [Field R] [DecidableEq R] (dims : String → Option Nat) (T : Tape R)
    (pf : Nat → Option P) (name : String) (num : Nat) (hd : dims name = some num)
    (chan : Option (List Int)) (rows : List Nat) (hr : chanRows num chan = some rows) (tot : Nat) :
    ∀ (ps : List (Int × Int)) (f : Nat → Nat → Option R),
      (∀ q ∈ ps, 0 ≤ q.1 ∧ q.1 < q.2 ∧ q.2 ≤ tot) →
      savePieces (diagOps R P V) dims T pf ps (.recSignal name chan (matOf rows.length tot f)) =
        .ok (.recSignal name chan (matOf rows.length tot fun j t =>
          if ps.any (fun q => decide (q.1 ≤ (t : Int)) && decide ((t : Int) < q.2)) then
            some (T name (rows.getD j 0) (t - 1)) else f j t))
  | [], f, _ => by simp [savePieces]; rfl
  | q :: ps, f, h => by
    obtain ⟨h1, h2, h3⟩ := h q (by simp)
    have := recSignal_save (V := V) dims T (pf q.2.toNat) name num hd chan rows hr tot f q.1 q.2 h1 h2 h3
    unfold savePieces
    rw [List.foldlM_cons]
    have hs : (diagOps R P V).save = DData.save := rfl
    rw [hs, this]
    show savePieces (diagOps R P V) dims T pf ps _ = _
    rw [recSignal_pieces dims T pf name num hd chan rows hr tot ps _ fun q hq => h q (by simp [hq])]
    congr 2
    apply matOf_congr
    intro c t _ _
    simp only [List.any_cons, Bool.or_eq_true, Bool.and_eq_true, decide_eq_true_eq]
    by_cases hp : (ps.any fun q => decide (q.1 ≤ (t : Int)) && decide ((t : Int) < q.2)) = true
    · rw [if_pos hp, if_pos (.inr hp)]
    · rw [if_neg hp]
      by_cases hq : q.1 ≤ (t : Int) ∧ (t : Int) < q.2
      · rw [if_pos hq, if_pos (.inl hq)]
      · rw [if_neg hq, if_neg (by rintro (h | h) <;> contradiction)]

/-! ### pieces and intervals -/

theorem Chain.covered {a b : Int} (t : Nat) : ∀ {ps : List (Int × Int)}, Chain a ps b →
    (Covered ps t ↔ a ≤ (t : Int) ∧ (t : Int) < b)
  | [], h => by
    unfold Covered
    cases h
    simp
  | q :: ps, h => by
    obtain ⟨h1, h2, h3⟩ := h
    have ih := Chain.covered t h3
    have hle := h3.le
    have : Covered (q :: ps) t ↔ (q.1 ≤ (t : Int) ∧ (t : Int) < q.2) ∨ Covered ps t := by
      unfold Covered; simp
    rw [this, ih]
    omega

theorem covered_append (ps qs : List (Int × Int)) (t : Nat) :
    Covered (ps ++ qs) t ↔ Covered ps t ∨ Covered qs t := by
  unfold Covered
  simp only [List.mem_append]
  constructor
  · rintro ⟨q, h | h, h'⟩
    · exact .inl ⟨q, h, h'⟩
    · exact .inr ⟨q, h, h'⟩
  · rintro (⟨q, h, h'⟩ | ⟨q, h, h'⟩)
    · exact ⟨q, .inl h, h'⟩
    · exact ⟨q, .inr h, h'⟩

theorem covered_cons (q : Int × Int) (qs : List (Int × Int)) (t : Nat) :
    Covered (q :: qs) t ↔ (q.1 ≤ (t : Int) ∧ (t : Int) < q.2) ∨ Covered qs t := by
  unfold Covered; simp

/-- Cutting intervals into pieces keeps the covered indices. -/
theorem Refine.covered {ivs ps : List (Int × Int)} (h : Refine ivs ps) (t : Nat) :
    Covered ps t ↔ Covered ivs t := by
  induction h with
  | nil => rfl
  | cons hc _ ih => rw [covered_append, covered_cons, hc.covered, ih]

theorem Chain.increasing {a b lo : Int} (hlo : lo ≤ a) {qs : List (Int × Int)}
    (hq : Increasing b qs) : ∀ {ps : List (Int × Int)}, Chain a ps b → Increasing lo (ps ++ qs)
  | [], h => by
    cases h
    cases qs with
    | nil => trivial
    | cons q qs => exact ⟨by have := hq.1; omega, hq.2⟩
  | q :: ps, h => by
    obtain ⟨h1, h2, h3⟩ := h
    exact ⟨by omega, h2, Chain.increasing (le_refl _) hq h3⟩

theorem Refine.increasing {ivs ps : List (Int × Int)} (h : Refine ivs ps) :
    ∀ {lo : Int}, Increasing lo ivs → Increasing lo ps := by
  induction h with
  | nil => intro lo _; trivial
  | cons hc _ ih =>
    intro lo hi
    exact hc.increasing hi.1 (ih hi.2.2)

theorem Increasing.bounds : ∀ {lo : Int} {ps : List (Int × Int)}, Increasing lo ps →
    ∀ q ∈ ps, lo ≤ q.1 ∧ q.1 < q.2
  | _, [], _, q, hq => by cases hq
  | lo, p :: ps, h, q, hq => by
    obtain ⟨h1, h2, h3⟩ := h
    rcases List.mem_cons.1 hq with rfl | hq
    · exact ⟨h1, h2⟩
    · have := h3.bounds q hq; omega

theorem Increasing.after : ∀ {lo : Int} {qs rest : List (Int × Int)}, Increasing lo (qs ++ rest) →
    ∀ q ∈ rest, lastEnd lo qs ≤ q.1
  | lo, [], rest, h, q, hq => (h.bounds q hq).1
  | lo, p :: qs, rest, h, q, hq => h.2.2.after q hq

/-- The pieces of a prefix cover what is covered below its end. -/
theorem covered_prefix {ps qs : List (Int × Int)} (hi : Increasing 0 ps) (hq : qs <+: ps) {t : Nat}
    (ht : (t : Int) < lastEnd 0 qs) : Covered qs t ↔ Covered ps t := by
  obtain ⟨rest, rfl⟩ := hq
  rw [covered_append]
  constructor
  · exact .inl
  · rintro (h | ⟨q, h, h', _⟩)
    · exact h
    · have := hi.after q h; omega

theorem any_covered (ps : List (Int × Int)) (t : Nat) :
    (ps.any (fun q => decide (q.1 ≤ (t : Int)) && decide ((t : Int) < q.2))) = decide (Covered ps t) := by
  rw [Bool.eq_iff_iff, decide_eq_true_iff, List.any_eq_true]
  simp only [Bool.and_eq_true, decide_eq_true_eq]
  rfl

theorem Refine.ends_le {ivs ps : List (Int × Int)} (h : Refine ivs ps) {b : Int}
    (hb : ∀ q ∈ ivs, q.2 ≤ b) : ∀ q ∈ ps, q.2 ≤ b := by
  induction h with
  | nil => intro q hq; cases hq
  | cons hc _ ih =>
    intro q hq
    rcases List.mem_append.1 hq with hq | hq
    · have h1 := hc.ends_le q hq
      have h2 := hb _ (List.mem_cons_self ..)
      simp only at h2
      omega
    · exact ih (fun q hq => hb q (by simp [hq])) q hq

theorem Refine.lastEnd_eq {ivs ps : List (Int × Int)} (h : Refine ivs ps)
    (hne : ∀ q ∈ ivs, q.1 < q.2) : ∀ lo, lastEnd lo ps = lastEnd lo ivs := by
  induction h with
  | nil => intro lo; rfl
  | cons hc _ ih =>
    rename_i a b ivs ps qs _
    intro lo
    have hps : ps ≠ [] := by
      rintro rfl
      have := hne (a, b) (by simp)
      cases hc
      simp at this
    rw [lastEnd_append, hc.lastEnd_eq lo hps, ih (fun q hq => hne q (by simp [hq]))]
    rfl

/-! ### selection of the exported values -/

theorem filterMap_mask {α : Type} (p : Nat → Bool) (g : Nat → α) : ∀ l : List Nat,
    (l.map fun t => if p t then some (g t) else none).filterMap id = (l.filter p).map g
  | [] => rfl
  | t :: l => by
    rw [List.map_cons, List.filterMap_cons, filterMap_mask p g l, List.filter_cons]
    cases p t <;> simp

theorem zip_mask (p : Nat → Bool) : ∀ l : List Nat,
    (l.zip (l.map p)).filterMap (fun q => if q.2 then some ((q.1 : Nat) : Int) else none) =
      (l.filter p).map fun t => ((t : Nat) : Int)
  | [] => rfl
  | t :: l => by
    rw [List.map_cons, List.zip_cons_cons, List.filterMap_cons, zip_mask p l, List.filter_cons]
    cases p t <;> simp

theorem pySlice_to {α : Type} (f : Nat → α) (tot e : Nat) (he : e ≤ tot) :
    pySlice ((List.range tot).map f) 0 (e : Int) = (List.range e).map f := by
  have := pySlice_range f tot 0 e (by omega)
  simpa using this

/-- `get_values_up_to_idx` returns the set entries before the index. -/
theorem getUpTo_matOf {α : Type} (num tot : Nat) (hnum : 0 < num) (p : Nat → Bool)
    (g : Nat → Nat → α) (e : Nat) (he : e ≤ tot) :
    getUpTo (matOf num tot fun j t => if p t then some (g j t) else none) (e : Int) =
      .ok ((List.range num).map (fun j => ((List.range e).filter p).map (g j)),
        ((List.range e).filter p).map fun t => ((t : Nat) : Int)) := by
  unfold getUpTo
  have hc : (matOf num tot fun j t => if p t then some (g j t) else none).map
      (fun r => pySlice r 0 (e : Int)) =
      (List.range num).map fun j => (List.range e).map fun t => if p t then some (g j t) else none := by
    unfold matOf
    rw [List.map_map]
    apply List.map_congr_left
    intro j _
    exact pySlice_to (fun t => if p t then some (g j t) else none) tot e he
  have hmask : ∀ j, ((List.range e).map fun t => if p t then some (g j t) else none).map Option.isSome =
      (List.range e).map p := by
    intro j
    rw [List.map_map]
    apply List.map_congr_left
    intro t _
    simp only [Function.comp]
    cases p t <;> rfl
  simp only [hc]
  obtain ⟨m, rfl⟩ : ∃ m, num = m + 1 := ⟨num - 1, by omega⟩
  rw [List.range_succ_eq_map, List.map_cons]
  simp only
  rw [← List.map_cons (f := fun j => (List.range e).map fun t => if p t then some (g j t) else none),
    ← List.range_succ_eq_map]
  rw [if_neg, if_neg]
  · rw [hmask]
    simp only [Int.toNat_natCast]
    rw [zip_mask, List.map_map]
    congr 2
    apply List.map_congr_left
    intro j _
    exact filterMap_mask p (g j) _
  · simp
  · simp only [List.any_map, List.any_eq_true, not_exists, not_and, Function.comp]
    intro j _
    rw [hmask, hmask]
    simp

/-! ### constructors -/

theorem mkRecordSignal_ok {info : DiagInfo} {name sig : String} {ex : Option IdxSel}
    {sv : Option (List (Int × Int))} {numCh : Nat} {chan : Option (List Int)}
    {d : Diag (DData R P V)} (h : mkRecordSignal info name sig ex sv numCh chan = .ok d) :
    d.name = name ∧ signalSaveAt info sv = .ok d.saveAt ∧ exportCounter info ex = .ok d.exportAt ∧
      d.data = .recSignal sig chan (matOf numCh info.tot fun _ _ => none) ∧
      (∀ l, chan = some l → l.length = numCh) := by
  unfold mkRecordSignal at h
  cases h1 : signalSaveAt info sv with
  | error x => rw [h1] at h; cases h
  | ok c =>
    cases h2 : exportCounter info ex with
    | error x => rw [h1, h2] at h; cases h
    | ok e =>
      rw [h1, h2] at h
      simp only [bind, Except.bind] at h
      split at h
      · cases h
      · rename_i hc
        cases h
        refine ⟨rfl, rfl, rfl, ?_, ?_⟩
        · simp only
          congr 1
          unfold matOf
          apply List.ext_getElem <;> simp
        · rintro l rfl
          simpa using hc

end
end Verif

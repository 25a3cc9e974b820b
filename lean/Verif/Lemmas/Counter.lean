import Verif.Model.Counter
import Verif.Spec.Counter
import Mathlib.Tactic.SplitIfs
import Mathlib.Data.List.Basic
import Mathlib.Data.Int.ModEq

namespace Verif

theorem phaseLen_eq_specLen (l : Option Int) : phaseLen l = specLen l := by
  cases l with
  | none => rfl
  | some i =>
    cases i with
    | ofNat n => simp [phaseLen, specLen]
    | negSucc n => simp [phaseLen, specLen]

/-- Phases of positive length with their start. -/
def posStarts : Option Nat → List (String × Option Int) → List (String × Option Nat)
  | _, [] => []
  | acc, (nm, l) :: r =>
    if posLen (specLen l) then (nm, acc) :: posStarts (addInf acc (specLen l)) r
    else posStarts (addInf acc (specLen l)) r

theorem kept_eq (lens : List (String × Option Int)) : ∀ acc,
    (((lens.map fun q => (q.1, phaseLen q.2)).zip
      (startIdxs acc ((lens.map fun q => (q.1, phaseLen q.2)).map (·.2)))).filter
        fun q => posLen q.1.2).map (fun q => (q.1.1, q.2)) = posStarts acc lens := by
  induction lens with
  | nil => intro acc; simp [posStarts]
  | cons q rest ih =>
    intro acc
    obtain ⟨nm, l⟩ := q
    have := ih (addInf acc (specLen l))
    simp only [List.map_cons, startIdxs, List.zip_cons_cons, posStarts, phaseLen_eq_specLen] at this ⊢
    by_cases h : posLen (specLen l)
    · simp only [List.filter_cons, h, if_true, List.map_cons]
      rw [this]
    · simp only [List.filter_cons, h, if_false, Bool.false_eq_true]
      rw [this]

theorem posStarts_none (lens : List (String × Option Int)) :
    ∀ q ∈ posStarts none lens, q.2 = none := by
  induction lens with
  | nil => simp [posStarts]
  | cons q rest ih =>
    obtain ⟨nm, l⟩ := q
    have e : addInf none (specLen l) = none := by simp [addInf]
    simp only [posStarts, e]
    split_ifs
    · intro q hq
      rcases List.mem_cons.1 hq with rfl | hq
      · rfl
      · exact ih q hq
    · exact ih

theorem posStarts_nil_phaseAt : ∀ (rest : List (String × Option Int)) (acc : Option Nat),
    posStarts acc rest = [] → ∀ n, phaseAt rest n = none := by
  intro rest
  induction rest with
  | nil => intro _ _ n; rfl
  | cons q rest ih =>
    intro acc h n
    obtain ⟨nm, l⟩ := q
    simp only [posStarts] at h
    split_ifs at h with hp
    cases hl : specLen l with
    | none => simp [hl, posLen] at hp
    | some L =>
      have : L = 0 := by simpa [hl, posLen] using hp
      subst this
      simp only [phaseAt, hl, Nat.not_lt_zero, if_false]
      exact ih _ h _

theorem posStarts_head : ∀ (rest : List (String × Option Int)) (a : Nat) (nm : String)
    (st : Option Nat) (tl : List (String × Option Nat)),
    posStarts (some a) rest = (nm, st) :: tl →
    st = some a ∧ ∃ l rest', posLen (specLen l) = true ∧
      tl = posStarts (addInf (some a) (specLen l)) rest' ∧
      ∀ n, phaseAt rest n = phaseAt ((nm, l) :: rest') n := by
  intro rest
  induction rest with
  | nil => intro a nm st tl h; simp [posStarts] at h
  | cons q rest ih =>
    intro a nm st tl h
    obtain ⟨nm0, l⟩ := q
    simp only [posStarts] at h
    split_ifs at h with hp
    · simp only [List.cons.injEq, Prod.mk.injEq] at h
      obtain ⟨⟨rfl, rfl⟩, rfl⟩ := h
      exact ⟨rfl, l, rest, hp, rfl, fun n => rfl⟩
    · cases hl : specLen l with
      | none => simp [hl, posLen] at hp
      | some L =>
        have : L = 0 := by simpa [hl, posLen] using hp
        subst this
        have e : addInf (some a) (some 0) = some a := by simp [addInf]
        rw [hl, e] at h
        obtain ⟨h1, l', rest', h2, h3, h4⟩ := ih a nm st tl h
        refine ⟨h1, l', rest', h2, h3, fun n => ?_⟩
        rw [← h4]
        simp [phaseAt, hl]

/-- Invariant of a running phase counter at sample `idx`. -/
def PhaseInv (lens : List (String × Option Int)) (idx : Nat) (s : PhaseSt) : Prop :=
  ∃ nm l rest b, posLen (specLen l) = true ∧ s.phase = some nm ∧ s.idx = idx ∧ b ≤ idx ∧
    s.first = (idx == b) ∧
    (∀ L, specLen l = some L → idx < b + L ∨ posStarts (some (b + L)) rest = []) ∧
    s.names = (posStarts (addInf (some b) (specLen l)) rest).map (·.1) ∧
    s.starts = (if (posStarts (addInf (some b) (specLen l)) rest) = [] then [none]
      else (posStarts (addInf (some b) (specLen l)) rest).map (·.2)) ∧
    ∀ n, b ≤ n → phaseAt lens n = phaseAt ((nm, l) :: rest) (n - b)

theorem phaseInv_progress {lens idx s} (h : PhaseInv lens idx s) :
    ∃ s', s.progress = .ok s' ∧ PhaseInv lens (idx + 1) s' := by
  obtain ⟨nm, l, rest, b, hp, hph, hidx, hb, hf, hend, hn, hs, hat⟩ := h
  have hne : (idx + 1 == b) = false := by simp; omega
  cases hl : specLen l with
  | none =>
    have e : addInf (some b) none = none := by simp [addInf]
    rw [hl, e] at hn hs
    have hstart : ∃ t, s.starts = none :: t := by
      cases hps : posStarts none rest with
      | nil => rw [hps] at hs; exact ⟨[], by simpa using hs⟩
      | cons q t =>
        have := posStarts_none rest q (by rw [hps]; simp)
        rw [hps] at hs
        exact ⟨t.map (·.2), by simpa [this] using hs⟩
    obtain ⟨t, ht⟩ := hstart
    refine ⟨{ s with idx := s.idx + 1, first := false }, by simp [PhaseSt.progress, ht], ?_⟩
    refine ⟨nm, l, rest, b, hp, hph, by simp [hidx], by omega, by simp [hne], ?_, ?_, ?_, hat⟩
    · intro L hL; rw [hl] at hL; cases hL
    · rw [hl, e]; exact hn
    · rw [hl, e]; exact hs
  | some L =>
    have e : addInf (some b) (some L) = some (b + L) := by simp [addInf]
    have hend' := hend L hl
    rw [hl, e] at hn hs
    cases hps : posStarts (some (b + L)) rest with
    | nil =>
      rw [hps] at hs
      simp only [if_true] at hs
      refine ⟨{ s with idx := s.idx + 1, first := false }, by simp [PhaseSt.progress, hs], ?_⟩
      refine ⟨nm, l, rest, b, hp, hph, by simp [hidx], by omega, by simp [hne], ?_, ?_, ?_, hat⟩
      · intro L' hL; rw [hl] at hL; cases hL; exact Or.inr hps
      · rw [hl, e]; exact hn
      · rw [hl, e, hps]; simpa using hs
    | cons q t =>
      obtain ⟨nm', st'⟩ := q
      obtain ⟨rfl, l', rest', hp', htl, hat'⟩ := posStarts_head _ _ _ _ _ hps
      rw [hps] at hn hs hend'
      simp only [reduceCtorEq, if_false, List.map_cons, or_false] at hs hn hend'
      by_cases hge : idx + 1 ≥ b + L
      · have hge' : s.idx + 1 ≥ b + L := by omega
        refine ⟨{ s with idx := s.idx + 1, phase := some nm', names := t.map (·.1), first := true
                         starts := if (t.map (·.2)).length = 0 then [none] else t.map (·.2) }, ?_, ?_⟩
        · simp only [PhaseSt.progress, hs, hge', if_true, PhaseSt.nextPhase, hn]
        · have hb' : b + L = idx + 1 := by omega
          refine ⟨nm', l', rest', b + L, hp', rfl, by simp [hidx], by omega, by simp [hb'], ?_, ?_, ?_, ?_⟩
          · intro L' hL'
            left
            have : 0 < L' := by simpa [hL', posLen] using hp'
            omega
          · simp only [htl]
          · simp only [htl, List.length_map, List.length_eq_zero_iff]
          · intro n hn'
            rw [hat n (by omega)]
            simp only [phaseAt, hl]
            rw [if_neg (by omega), hat']
            have : n - b - L = n - (b + L) := by omega
            rw [this]
            rfl
      · have hge' : ¬ s.idx + 1 ≥ b + L := by omega
        refine ⟨{ s with idx := s.idx + 1, first := false }, ?_, ?_⟩
        · simp only [PhaseSt.progress, hs, hge', if_false]
        · refine ⟨nm, l, rest, b, hp, hph, by simp [hidx], by omega, by simp [hne], ?_, ?_, ?_, hat⟩
          · intro L' hL; rw [hl] at hL; cases hL; left; omega
          · rw [hl, e, hps]; simpa using hn
          · rw [hl, e, hps]; simpa using hs

theorem phaseInv_init {lens : List (String × Option Int)}
    (h : ∃ q ∈ lens, posLen (specLen q.2) = true) :
    ∃ s, PhaseSt.init lens = .ok s ∧ PhaseInv lens 0 s := by
  have hk := kept_eq lens (some 0)
  have hne : posStarts (some 0) lens ≠ [] := by
    intro h0
    have : ∀ (rest : List (String × Option Int)) acc, posStarts acc rest = [] →
        ∀ q ∈ rest, ¬ posLen (specLen q.2) = true := by
      intro rest
      induction rest with
      | nil => simp
      | cons q rest ih =>
        intro acc h0 q' hq'
        obtain ⟨nm, l⟩ := q
        simp only [posStarts] at h0
        split_ifs at h0 with hp
        rcases List.mem_cons.1 hq' with rfl | hq'
        · exact hp
        · exact ih _ h0 _ hq'
    obtain ⟨q, hq, hq'⟩ := h
    exact this lens _ h0 q hq hq'
  cases hps : posStarts (some 0) lens with
  | nil => exact absurd hps hne
  | cons q t =>
    obtain ⟨nm, st⟩ := q
    obtain ⟨rfl, l, rest, hp, htl, hat⟩ := posStarts_head _ _ _ _ _ hps
    rw [hps] at hk
    refine ⟨{ phase := some nm, first := true, idx := 0, names := t.map (·.1)
              starts := if (t.map (·.2)).length = 0 then [none] else t.map (·.2) }, ?_, ?_⟩
    · unfold PhaseSt.init
      simp only
      have h1 := congrArg (List.map Prod.fst) hk
      have h2 := congrArg (List.map Prod.snd) hk
      simp only [List.map_map, List.map_cons, Function.comp_def] at h1 h2
      simp only [List.map_map, Function.comp_def] at h1 h2 ⊢
      simp only [PhaseSt.nextPhase, h1, h2]
    · refine ⟨nm, l, rest, 0, hp, rfl, rfl, le_refl _, rfl, ?_, ?_, ?_, ?_⟩
      · intro L hL
        left
        have : 0 < L := by simpa [hL, posLen] using hp
        omega
      · simp only [htl]
      · simp only [htl, List.length_map, List.length_eq_zero_iff]
      · intro n _; rw [hat]; rfl

theorem phaseAfter_inv {lens : List (String × Option Int)}
    (h : ∃ q ∈ lens, posLen (specLen q.2) = true) (n : Nat) :
    ∃ s, phaseAfter lens n = .ok s ∧ PhaseInv lens n s := by
  induction n with
  | zero => exact phaseInv_init h
  | succ n ih =>
    obtain ⟨s, h1, h2⟩ := ih
    obtain ⟨s', h3, h4⟩ := phaseInv_progress h2
    exact ⟨s', by simp [phaseAfter, h1, h3], h4⟩

/-! ### Events -/

theorem checkEvents_spec (idx : Int) : ∀ (defs : List (String × Int × Int)) (acc : List String),
    (∀ q ∈ defs, q.2.1 ≠ 0) →
    checkEvents idx defs acc = .ok (acc ++ (defs.filter fun q => (idx - q.2.2).fmod q.2.1 = 0).map (·.1)) := by
  intro defs
  induction defs with
  | nil => intro acc _; simp [checkEvents]
  | cons q rest ih =>
    intro acc h
    obtain ⟨nm, f, o⟩ := q
    have hf : f ≠ 0 := h (nm, f, o) (by simp)
    simp only [checkEvents, hf, if_false]
    rw [ih _ (fun q hq => h q (by simp [hq]))]
    by_cases hd : (idx - o).fmod f = 0
    · simp [hd]
    · simp [hd]

theorem dictSet_mem {defs : List (String × Int × Int)} {cur : String → Option (Int × Int)}
    (hcur : ∀ name f o, (name, f, o) ∈ defs ↔ cur name = some (f, o)) (n : String) (f o : Int)
    (name : String) (f' o' : Int) :
    (name, f', o') ∈ dictSet defs n (f, o) ↔
      (if name = n then some (f, o) else cur name) = some (f', o') := by
  unfold dictSet
  split_ifs with h1 h2 h2
  · subst h2
    simp only [List.mem_map, Prod.exists, Option.some.injEq]
    simp only [List.any_eq_true, beq_iff_eq] at h1
    obtain ⟨q, hq, hqn⟩ := h1
    constructor
    · rintro ⟨a, b, c, hm, he⟩
      split_ifs at he with hh
      · simpa using he
      · simp only [Prod.mk.injEq] at he
        obtain ⟨rfl, rfl, rfl⟩ := he
        simp at hh
    · intro he
      refine ⟨q.1, q.2.1, q.2.2, hq, ?_⟩
      simp [hqn, he]
  · simp only [List.mem_map, Prod.exists]
    rw [← hcur]
    constructor
    · rintro ⟨a, b, c, hm, he⟩
      split_ifs at he with hh
      · simp only [Prod.mk.injEq] at he
        exact absurd he.1.symm h2
      · rw [← he]; exact hm
    · intro hm
      exact ⟨name, f', o', hm, by simp [h2]⟩
  · subst h2
    simp only [List.mem_append, List.mem_singleton, Prod.mk.injEq, true_and, Option.some.injEq]
    constructor
    · rintro (hm | ⟨rfl, rfl⟩)
      · exfalso
        apply h1
        simp only [List.any_eq_true, beq_iff_eq]
        exact ⟨_, hm, rfl⟩
      · exact ⟨rfl, rfl⟩
    · rintro ⟨rfl, rfl⟩; exact Or.inr ⟨rfl, rfl⟩
  · simp only [List.mem_append, List.mem_singleton, Prod.mk.injEq]
    rw [← hcur]
    constructor
    · rintro (hm | ⟨rfl, _⟩)
      · exact hm
      · exact absurd rfl h2
    · exact Or.inl

theorem events_run : ∀ (ops : List EventOp) (s0 : EventSt) (cur : String → Option (Int × Int)),
      (∀ name f o, (name, f, o) ∈ s0.defs ↔ cur name = some (f, o)) →
      (∀ q ∈ s0.defs, q.2.1 ≠ 0) →
      (∀ op ∈ ops, ∀ n f o, op = .add n f o → f ≠ 0) →
      ∃ s, s0.run (ops ++ [.progress]) = .ok s ∧
        ∀ name, name ∈ s.event ↔
          ∃ f o, eventDef cur ops name = some (f, o) ∧ (s0.idx + countProgress ops + 1) ≡ o [ZMOD f] := by
  intro ops
  induction ops with
  | nil =>
    intro s0 cur hcur h0 _
    refine ⟨{ s0 with idx := s0.idx + 1
                      event := (s0.defs.filter fun q => (s0.idx + 1 - q.2.2).fmod q.2.1 = 0).map (·.1) },
      ?_, ?_⟩
    · simp [EventSt.run, EventSt.progress, checkEvents_spec _ _ _ h0]
    · intro name
      simp only [List.mem_map, List.mem_filter, decide_eq_true_eq, countProgress, eventDef]
      constructor
      · rintro ⟨⟨nm, f, o⟩, ⟨hm, hz⟩, rfl⟩
        refine ⟨f, o, (hcur _ _ _).1 hm, ?_⟩
        rw [Int.modEq_comm, Int.modEq_iff_dvd]
        have := Int.dvd_of_fmod_eq_zero hz
        simpa using this
      · rintro ⟨f, o, hm, hz⟩
        refine ⟨(name, f, o), ⟨(hcur _ _ _).2 hm, ?_⟩, rfl⟩
        rw [Int.modEq_comm, Int.modEq_iff_dvd] at hz
        simpa using Int.fmod_eq_zero_of_dvd hz
  | cons op ops ih =>
    intro s0 cur hcur h0 ho
    cases op with
    | progress =>
      obtain ⟨s, h1, h3⟩ := ih { s0 with idx := s0.idx + 1
                                         event := (s0.defs.filter fun q => (s0.idx + 1 - q.2.2).fmod q.2.1 = 0).map (·.1) }
        cur hcur h0 (fun op hop => ho op (by simp [hop]))
      refine ⟨s, ?_, ?_⟩
      · simp only [List.cons_append, EventSt.run, EventSt.progress, checkEvents_spec _ _ _ h0,
          List.nil_append]
        exact h1
      · intro name
        rw [h3]
        simp only [countProgress, eventDef]
        push_cast
        have : s0.idx + 1 + (countProgress ops : Int) + 1 = s0.idx + ((countProgress ops : Int) + 1) + 1 := by
          omega
        rw [this]
    | add n f o =>
      have hf : f ≠ 0 := ho _ (by simp) n f o rfl
      obtain ⟨s, h1, h3⟩ := ih (s0.add n f o) (fun x => if x = n then some (f, o) else cur x)
        (fun name f' o' => dictSet_mem hcur n f o name f' o') (by
        rintro ⟨nm, f', o'⟩ hq
        have := (dictSet_mem hcur n f o nm f' o').1 hq
        split_ifs at this
        · simp only [Option.some.injEq, Prod.mk.injEq] at this
          rw [← this.1]; exact hf
        · exact h0 _ ((hcur _ _ _).2 this))
        (fun op hop => ho op (by simp [hop]))
      exact ⟨s, h1, h3⟩

end Verif

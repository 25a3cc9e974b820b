import Verif.Lemmas.Counter

/-! Properties C53 - C55: phase and event counters. -/
namespace Verif

/-- C53. After `n` calls of `progress`, as long as some phase contains sample
`n`, the counter reports that phase, and `first_sample` holds exactly on its
first sample.  Construction and all calls succeed. -/
theorem C53_phase (lens : List (String × Option Int)) (n : Nat) (name : String) (first : Bool)
    (h : phaseAt lens n = some (name, first)) :
    ∃ s, phaseAfter lens n = .ok s ∧ s.phase = some name ∧ s.first = first := by
  have hpos : ∃ q ∈ lens, posLen (specLen q.2) = true := by
    by_contra hc
    have : ∀ (rest : List (String × Option Int)), (∀ q ∈ rest, ¬ posLen (specLen q.2) = true) →
        ∀ n, phaseAt rest n = none := by
      intro rest
      induction rest with
      | nil => intro _ n; rfl
      | cons q rest ih =>
        intro h n
        obtain ⟨nm, l⟩ := q
        have h0 := h (nm, l) (by simp)
        cases hl : specLen l with
        | none => simp [hl, posLen] at h0
        | some L =>
          have : L = 0 := by simpa [hl, posLen] using h0
          subst this
          simp only [phaseAt, hl, Nat.not_lt_zero, if_false]
          exact ih (fun q hq => h q (by simp [hq])) _
    rw [this lens (fun q hq hq' => hc ⟨q, hq, hq'⟩)] at h
    cases h
  obtain ⟨s, h1, nm, l, rest, b, hp, hph, hidx, hb, hf, hend, hn, hs, hat⟩ := phaseAfter_inv hpos n
  refine ⟨s, h1, ?_⟩
  have := hat n hb
  rw [h] at this
  have key : phaseAt ((nm, l) :: rest) (n - b) = some (nm, n - b == 0) ∨
      phaseAt ((nm, l) :: rest) (n - b) = none := by
    simp only [phaseAt]
    cases hl : specLen l with
    | none => left; rfl
    | some L =>
      simp only
      by_cases hlt : n - b < L
      · left; rw [if_pos hlt]
      · right
        rw [if_neg hlt]
        rcases hend L hl with h' | h'
        · omega
        · exact posStarts_nil_phaseAt _ _ h' _
  rcases key with key | key
  · rw [key] at this
    simp only [Option.some.injEq, Prod.mk.injEq] at this
    obtain ⟨rfl, rfl⟩ := this
    refine ⟨hph, ?_⟩
    rw [hf, Bool.eq_iff_iff]
    simp
    omega
  · rw [key] at this; cases this

example : ∃ s, phaseAfter [("init", some 2), ("skip", some 0), ("wait", some 3), ("run", some (-1))] 5
    = .ok s ∧ s.phase = some "run" ∧ s.first = true :=
  C53_phase _ _ _ _ (by decide)

/-- C54 holds for the degenerate part only: C54 asks for phase `None` after
all phases are over; what the code guarantees instead is that the counter never
fails and stays in the last phase of positive length.  -/
theorem C54_phase_never_none_violated (lens : List (String × Option Int))
    (hpos : ∃ q ∈ lens, ∃ L : Nat, 0 < L ∧ q.2 = some (L : Int)) (n : Nat) :
    ∃ s, phaseAfter lens n = .ok s ∧ s.phase ≠ none := by
  have : ∃ q ∈ lens, posLen (specLen q.2) = true := by
    obtain ⟨q, hq, L, hL, hq'⟩ := hpos
    refine ⟨q, hq, ?_⟩
    rw [hq']
    simpa [specLen, posLen] using hL
  obtain ⟨s, h1, nm, _, _, _, _, hph, _⟩ := phaseAfter_inv this n
  exact ⟨s, h1, by rw [hph]; simp⟩

/-- A concrete counter that has run out of phases at sample 5 (of total 5) and
still reports its last phase. -/
example : phaseAt [("a", some 2), ("b", some 3)] 5 = none ∧
    (phaseAfter [("a", some 2), ("b", some 3)] 5).toOption.map (·.phase) = some (some "b") := by
  decide

/-- C54, what can be said: with an infinite last phase the counter never runs
out of phases, so the reported phase is always the right one. -/
theorem C54_infinite_last_partial (lens : List (String × Option Int)) (last : String) (n : Nat) :
    ∃ s name first, phaseAfter (lens ++ [(last, none)]) n = .ok s ∧
      phaseAt (lens ++ [(last, none)]) n = some (name, first) ∧ s.phase = some name := by
  have : ∀ (lens : List (String × Option Int)) n, ∃ q, phaseAt (lens ++ [(last, none)]) n = some q := by
    intro lens
    induction lens with
    | nil => intro n; exact ⟨_, rfl⟩
    | cons q rest ih =>
      intro n
      obtain ⟨nm, l⟩ := q
      simp only [List.cons_append, phaseAt]
      cases specLen l with
      | none => exact ⟨_, rfl⟩
      | some L =>
        simp only
        split_ifs
        · exact ⟨_, rfl⟩
        · exact ih _
  obtain ⟨⟨name, first⟩, hq⟩ := this lens n
  obtain ⟨s, h1, h2, _⟩ := C53_phase _ _ _ _ hq
  exact ⟨s, name, first, h1, hq, h2⟩

/-- A counter without any phase of positive length cannot be constructed. -/
example : PhaseSt.init [("a", some 0)] = .error .index := by decide

/-- C55. Let `cur` be the event table as a function of the name.  After any
sequence of `add_event`/`progress` calls that ends with `progress` (all
frequencies non-zero), the reported events are exactly the currently defined
events whose offset is congruent to the number of progress calls modulo their
frequency. -/
theorem C55_events (defs : List (String × Int × Int)) (cur : String → Option (Int × Int))
    (hcur : ∀ name f o, (name, f, o) ∈ defs ↔ cur name = some (f, o)) (ops : List EventOp)
    (hd : ∀ q ∈ defs, q.2.1 ≠ 0)
    (ho : ∀ op ∈ ops, ∀ n f o, op = .add n f o → f ≠ 0) :
    ∃ s, (EventSt.init defs).run (ops ++ [.progress]) = .ok s ∧
      ∀ name, name ∈ s.event ↔ ∃ f o, eventDef cur ops name = some (f, o) ∧
        ((countProgress ops + 1 : Nat) : Int) ≡ o [ZMOD f] := by
  obtain ⟨s, h1, h3⟩ := events_run ops (EventSt.init defs) cur hcur hd ho
  refine ⟨s, h1, fun name => ?_⟩
  rw [h3]
  simp [EventSt.init]

example : ((EventSt.init [("a", 4, 0), ("b", 1, 0), ("c", 8, 4)]).run
    [.progress, .progress, .progress, .progress]).toOption.map (·.event) =
    some ["a", "b", "c"] := by decide

example : ∃ s, (EventSt.init [("a", 4, 0)]).run ([.progress, .add "z" 2 0] ++ [.progress]) = .ok s ∧
    ∀ name, name ∈ s.event ↔ ∃ f o,
      eventDef (fun x => if x = "a" then some (4, 0) else none) [.progress, .add "z" 2 0] name =
        some (f, o) ∧ ((1 + 1 : Nat) : Int) ≡ o [ZMOD f] :=
  C55_events _ _ (by intro n f o; simp [eq_comm]) _ (by simp)
    (by intro op hop n f o h; subst h; simp at hop; omega)

end Verif

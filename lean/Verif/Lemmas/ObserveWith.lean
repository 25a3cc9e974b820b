/-
The diagnostics of the active noise control example without the evaluation microphones.
-/
import Verif.Lemmas.HideWith
import Verif.Props.Power
import Verif.Spec.Hide
import Verif.Spec.ValidRoom
namespace Verif

theorem except_bind_ok {ε α β : Type} {x : Except ε α} {f : α → Except ε β} {y : β} :
    (x >>= f) = .ok y ↔ ∃ a, x = .ok a ∧ f a = .ok y := by
  cases x with
  | error e =>
    constructor
    · intro h; cases h
    · rintro ⟨a, h, -⟩; cases h
  | ok a =>
    constructor
    · exact fun h => ⟨a, rfl, h⟩
    · rintro ⟨b, h, hf⟩; cases h; exact hf

theorem numOfArray_filter {Pt : Type} (arrays : List (Arr Pt)) (M : List String) {nm : String} (h : M.contains nm = false) :
    numOfArray (arrays.filter fun a => !M.contains a.name) nm = numOfArray arrays nm := by
  have : (arrays.filter fun a => !M.contains a.name).find? (fun a => a.name == nm) = arrays.find? fun a => a.name == nm := by
    rw [List.find?_filter]
    congr 1
    funext a
    cases e : a.name == nm with
    | false => simp
    | true =>
      have e' : a.name = nm := by simpa using e
      rw [e', h]
      simp
  unfold numOfArray
  rw [this]

section
variable {R P V Pt : Type}

theorem mkRecordFilter_name {info : DiagInfo} {name : String} {get : P → Except PyErr V} {sv : Option IdxSel}
    {d : Diag (DData R P V)} (h : mkRecordFilter info name get sv = .ok d) : d.name = name ∧ d.data.reads = [] := by
  unfold mkRecordFilter at h
  simp only [except_bind_ok] at h
  obtain ⟨a, -, b, -, h⟩ := h
  cases h
  exact ⟨rfl, rfl⟩

/-- The diagnostics without "eval" are the others. -/
theorem ancDiagnostics_eval [Field R] [DecidableEq R] {info : DiagInfo} {arrays : List (Arr Pt)} {get : P → Except PyErr V} {ds : List (Diag (DData R P V))}
    (h : ancDiagnostics info arrays get = .ok ds) :
    ancDiagnostics info (arrays.filter fun a => !["eval"].contains a.name) get =
        .ok (ds.filter fun d => d.name != "spatial_noise_reduction") ∧
      ∀ d ∈ ds, (d.name != "spatial_noise_reduction") = true → ∀ k ∈ d.data.reads,
        k ∈ ["error", "noise~error", "loudspeaker", "loudspeaker~error", "ref"] := by
  have hany : ((arrays.filter fun a => !["eval"].contains a.name).any fun a => a.name == "eval") = false := by
    rw [List.any_eq_false]
    intro a ha
    have := (List.mem_filter.1 ha).2
    simpa using this
  unfold ancDiagnostics at h ⊢
  rw [numOfArray_filter _ _ (by decide), numOfArray_filter _ _ (by decide), numOfArray_filter _ _ (by decide), hany]
  simp only [except_bind_ok] at h
  obtain ⟨d1, h1, d2, h2, d3, h3, d4, h4, d5, h5, d6, h6, nl, hl, d7, h7, ne, he, d8, h8, nr, hr, d9, h9, d10, h10, d11, h11, d12, h12, h⟩ := h
  have n1 := (mkSignalPowerRatio_ok h1); have n2 := mkSignalPower_ok h2; have n3 := mkSignalPower_ok h3
  have n4 := mkSignalPower_ok h4; have n5 := mkSignalPower_ok h5; have n6 := mkSignalPower_ok h6
  have n7 := mkRecordSignal_ok h7; have n8 := mkRecordSignal_ok h8; have n9 := mkRecordSignal_ok h9
  have n10 := mkRecordSignal_ok h10; have n11 := mkRecordSignal_ok h11; have n12 := mkRecordFilter_name h12
  have hf : [d1, d2, d3, d4, d5, d6, d7, d8, d9, d10, d11, d12].filter (fun d => d.name != "spatial_noise_reduction") =
      [d1, d2, d3, d4, d5, d6, d7, d8, d9, d10, d11, d12] := by
    rw [List.filter_eq_self]
    intro d hd
    simp only [List.mem_cons, List.not_mem_nil, or_false] at hd
    rcases hd with rfl | rfl | rfl | rfl | rfl | rfl | rfl | rfl | rfl | rfl | rfl | rfl
    · rw [n1.1]; decide
    · rw [n2.1]; decide
    · rw [n3.1]; decide
    · rw [n4.1]; decide
    · rw [n5.1]; decide
    · rw [n6.1]; decide
    · rw [n7.1]; decide
    · rw [n8.1]; decide
    · rw [n9.1]; decide
    · rw [n10.1]; decide
    · rw [n11.1]; decide
    · rw [n12.1]; decide
  have hr' : ∀ d ∈ [d1, d2, d3, d4, d5, d6, d7, d8, d9, d10, d11, d12], ∀ k ∈ d.data.reads,
        k ∈ ["error", "noise~error", "loudspeaker", "loudspeaker~error", "ref"] := by
    intro d hd k hk
    simp only [List.mem_cons, List.not_mem_nil, or_false] at hd
    rcases hd with rfl | rfl | rfl | rfl | rfl | rfl | rfl | rfl | rfl | rfl | rfl | rfl
    · rw [n1.2.2.2] at hk; simp only [DData.reads, List.mem_cons, List.not_mem_nil, or_false] at hk ⊢; tauto
    · rw [n2.2.2.2] at hk; simp only [DData.reads, List.mem_cons, List.not_mem_nil, or_false] at hk ⊢; tauto
    · rw [n3.2.2.2] at hk; simp only [DData.reads, List.mem_cons, List.not_mem_nil, or_false] at hk ⊢; tauto
    · rw [n4.2.2.2] at hk; simp only [DData.reads, List.mem_cons, List.not_mem_nil, or_false] at hk ⊢; tauto
    · rw [n5.2.2.2] at hk; simp only [DData.reads, List.mem_cons, List.not_mem_nil, or_false] at hk ⊢; tauto
    · rw [n6.2.2.2] at hk; simp only [DData.reads, List.mem_cons, List.not_mem_nil, or_false] at hk ⊢; tauto
    · rw [n7.2.2.2.1] at hk; simp only [DData.reads, List.mem_cons, List.not_mem_nil, or_false] at hk ⊢; tauto
    · rw [n8.2.2.2.1] at hk; simp only [DData.reads, List.mem_cons, List.not_mem_nil, or_false] at hk ⊢; tauto
    · rw [n9.2.2.2.1] at hk; simp only [DData.reads, List.mem_cons, List.not_mem_nil, or_false] at hk ⊢; tauto
    · rw [n10.2.2.2.1] at hk; simp only [DData.reads, List.mem_cons, List.not_mem_nil, or_false] at hk ⊢; tauto
    · rw [n11.2.2.2.1] at hk; simp only [DData.reads, List.mem_cons, List.not_mem_nil, or_false] at hk ⊢; tauto
    · rw [n12.2] at hk; cases hk
  have hres : ∃ x : List (Diag (DData R P V)), ds = [d1, d2, d3, d4, d5, d6, d7, d8, d9, d10, d11, d12] ++ x ∧
      ∀ d ∈ x, d.name = "spatial_noise_reduction" := by
    split at h
    · simp only [except_bind_ok] at h
      obtain ⟨d13, h13, h⟩ := h
      cases h
      exact ⟨[d13], rfl, fun d hd => by rw [List.mem_singleton.1 hd]; exact (mkSignalPowerRatio_ok h13).1⟩
    · cases h
      exact ⟨[], by simp, fun d hd => by cases hd⟩
  obtain ⟨x, rfl, hx⟩ := hres
  refine ⟨?_, ?_⟩
  · rw [List.filter_append, hf, List.filter_eq_nil_iff.2 (fun d hd => by rw [hx d hd]; decide), List.append_nil]
    simp only [except_bind_ok]
    exact ⟨d1, h1, d2, h2, d3, h3, d4, h4, d5, h5, d6, h6, nl, hl, d7, h7, ne, he, d8, h8, nr, hr, d9, h9, d10, h10, d11, h11, d12, h12, rfl⟩
  · intro d hd hk
    rw [List.mem_append] at hd
    rcases hd with hd | hd
    · exact hr' d hd
    · rw [hx d hd] at hk
      simp at hk

end

/-- Names that do not end like "eval". -/
theorem signalOf_eval (contrib : Bool) (infos : List ArrInfo) {k : String} (hk : k.toList.getLast? ≠ some 'l') :
    signalOf contrib infos ["eval"] k = false := by
  unfold signalOf
  rw [Bool.or_eq_false_iff]
  constructor
  · cases h : ["eval"].contains k with
    | false => rfl
    | true =>
      have : k = "eval" := by simpa using h
      rw [this] at hk
      exact absurd rfl hk
  · rw [Bool.and_eq_false_iff]
    right
    rw [List.any_eq_false]
    intro p hp h
    rw [Bool.and_eq_true] at h
    have h1 : p.2.name = "eval" := by simpa using h.1
    have h2 : k = contribName p.1 p.2 := by simpa using h.2
    apply hk
    rw [h2, contribName, h1]
    simp

section
variable {K R : Type}

/-- Where the path types come from. -/
theorem planned_types {freq : Nat} {as : List (Arr (K × K × K))} {os : List (PathOp R)} {t s m x : String}
    (h : (planned freq as os t).types s m = some x) : x = t ∨ x = "modified" ∨ ∃ s m, PathOp.type s m x ∈ os := by
  have h0 : ∀ (as : List (Arr (K × K × K))) (c : Coll (K × K × K) (IrMat R)), (c.addAll as).types = c.types := by
    intro as
    induction as with
    | nil => intro c; rfl
    | cons a as ih =>
      intro c
      have : c.addAll (a :: as) = (c.addArray a).1.addAll as := rfl
      rw [this, ih]
      unfold Coll.addArray
      split
      · rfl
      · dsimp only
        split <;> rfl
  have hset : ∀ (f : String → String → Option String) (a b v s m x : String), set2 f a b v s m = some x → x = v ∨ f s m = some x := by
    intro f a b v s m x hx
    unfold set2 at hx
    split at hx
    · exact .inl (Option.some.inj hx).symm
    · exact .inr hx
  have h1 : ∀ (os : List (PathOp R)) (c : Coll (K × K × K) (IrMat R)) (s m x : String),
      (os.foldl Coll.op c).types s m = some x → c.types s m = some x ∨ ∃ s m, PathOp.type s m x ∈ os := by
    intro os
    induction os with
    | nil => intro c s m x hx; exact .inl hx
    | cons o os ih =>
      intro c s m x hx
      rw [List.foldl_cons] at hx
      rcases ih _ s m x hx with hx | ⟨s', m', hx⟩
      · cases o with
        | path hh a b =>
          left
          simp only [Coll.op, Coll.setPropPath] at hx
          split at hx
          · exact hx
          · split at hx
            · exact hx
            · split at hx
              · split at hx
                · exact hx
                · split at hx <;> exact hx
              · exact hx
        | type a b v =>
          simp only [Coll.op, Coll.setPathType] at hx
          split at hx
          · exact .inl hx
          · split at hx
            · exact .inl hx
            · rcases hset _ _ _ _ _ _ _ hx with rfl | hx
              · exact .inr ⟨a, b, by simp⟩
              · exact .inl hx
      · exact .inr ⟨s', m', by simp [hx]⟩
  have h2 : ∀ (l : List (String × String)) (c : Coll (K × K × K) (IrMat R)) (s m x : String),
      (l.foldl (fun (c : Coll (K × K × K) (IrMat R)) p =>
        if (c.types p.1 p.2).isNone && (c.paths p.1 p.2).isNone then { c with types := set2 c.types p.1 p.2 t }
        else if (c.paths p.1 p.2).isSome then { c with types := set2 c.types p.1 p.2 "modified" } else c) c).types s m = some x →
      x = t ∨ x = "modified" ∨ c.types s m = some x := by
    intro l
    induction l with
    | nil => intro c s m x hx; exact .inr (.inr hx)
    | cons p l ih =>
      intro c s m x hx
      rw [List.foldl_cons] at hx
      rcases ih _ s m x hx with hx | hx | hx
      · exact .inl hx
      · exact .inr (.inl hx)
      · split at hx
        · rcases hset _ _ _ _ _ _ _ hx with hx | hx
          · exact .inl hx
          · exact .inr (.inr hx)
        · split at hx
          · rcases hset _ _ _ _ _ _ _ hx with hx | hx
            · exact .inr (.inl hx)
            · exact .inr (.inr hx)
          · exact .inr (.inr hx)
  rcases h2 _ _ s m x h with hx | hx | hx
  · exact .inl hx
  · exact .inr (.inl hx)
  · rcases h1 _ _ s m x hx with hx | hx
    · rw [h0] at hx
      cases hx
    · exact .inr (.inr hx)

end

end Verif

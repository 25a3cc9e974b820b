/-
C117: several sources joined to one.
-/
import Verif.Model.SourceArray
import Verif.Lemmas.Again
import Verif.Props.Sources
import Mathlib.Data.List.Basic
namespace Verif

/-- The channels of several streams, one stream after the other; each comes with its number of channels. -/
def stackStreams {R : Type} [Inhabited R] : List (Nat × (Nat → Nat → R)) → Nat → Nat → R
  | [], _, _ => default
  | (ch, x) :: l, c, t => if c < ch then x c t else stackStreams l (c - ch) t

theorem blockOf_stack {R : Type} [Inhabited R] (off n : Nat) : ∀ l : List (Nat × (Nat → Nat → R)),
    blockOf (stackStreams l) (l.map Prod.fst).sum off n = (l.map fun e => blockOf e.2 e.1 off n).flatten
  | [] => rfl
  | (ch, x) :: l => by
    rw [List.map_cons, List.sum_cons, List.map_cons, List.flatten_cons, ← blockOf_stack off n l]
    unfold blockOf
    dsimp only
    rw [List.range_add, List.map_append, List.map_map]
    congr 1
    · apply List.map_congr_left
      intro c hc
      simp only [stackStreams, if_pos (List.mem_range.1 hc)]
    · apply List.map_congr_left
      intro c _
      simp [stackStreams]

/-- All members deliver the requested block of their streams. -/
theorem members_next {σ R : Type} {get : σ → Nat → Except PyErr (σ × List (List R))} (off n : Nat) :
    ∀ (ms : List (σ × Nat × (Nat → Nat → R))), (∀ m ∈ ms, StreamAt get m.1 m.2.1 off m.2.2) →
      ∃ ms' : List (σ × Nat × (Nat → Nat → R)), ms'.map Prod.snd = ms.map Prod.snd ∧
        (∀ m ∈ ms', StreamAt get m.1 m.2.1 (off + n) m.2.2) ∧
        ((ms.map Prod.fst).mapM fun s => get s n) =
          .ok ((ms'.map Prod.fst).zip (ms.map fun m => blockOf m.2.2 m.2.1 off n))
  | [], _ => ⟨[], rfl, by simp, rfl⟩
  | m :: ms, h => by
    obtain ⟨s', hs, hn⟩ := (h m (by simp)).next n
    obtain ⟨ms', h1, h2, h3⟩ := members_next off n ms fun m hm => h m (by simp [hm])
    refine ⟨(s', m.2) :: ms', by simp [h1], ?_, ?_⟩
    · intro m' hm'
      rcases List.mem_cons.1 hm' with rfl | hm'
      · exact hn
      · exact h2 m' hm'
    · rw [List.map_cons, List.mapM_cons, hs, h3]
      rfl

theorem sourceArrayGet_next {σ R : Type} [Inhabited R] {get : σ → Nat → Except PyErr (σ × List (List R))} (off n : Nat)
    (ms : List (σ × Nat × (Nat → Nat → R))) (hne : ms ≠ []) (h : ∀ m ∈ ms, StreamAt get m.1 m.2.1 off m.2.2) :
    ∃ ms' : List (σ × Nat × (Nat → Nat → R)), ms'.map Prod.snd = ms.map Prod.snd ∧
      (∀ m ∈ ms', StreamAt get m.1 m.2.1 (off + n) m.2.2) ∧
      sourceArrayGet get (ms.map Prod.fst) n = .ok (ms'.map Prod.fst,
        blockOf (stackStreams (ms.map Prod.snd)) ((ms.map Prod.snd).map Prod.fst).sum off n) := by
  obtain ⟨ms', h1, h2, h3⟩ := members_next off n ms h
  refine ⟨ms', h1, h2, ?_⟩
  have hl : (ms'.map Prod.fst).length = (ms.map fun m => blockOf m.2.2 m.2.1 off n).length := by
    have := congrArg List.length h1
    simpa using this
  unfold sourceArrayGet
  rw [if_neg (by simpa using hne), h3]
  dsimp only
  rw [List.map_fst_zip (by omega), List.map_snd_zip (by omega), blockOf_stack, List.map_map]
  rfl

/-- **C117 (partial)** A `SourceArray` of any number of sources, each delivering a stream: it delivers the
channels of all of them, in order, as one stream.  Missing: what `amplitude` does, and the use in a
simulation. -/
theorem C117_joined_partial {σ R : Type} [Inhabited R] {get : σ → Nat → Except PyErr (σ × List (List R))}
    (ms : List (σ × Nat × (Nat → Nat → R))) (hne : ms ≠ []) (h : ∀ m ∈ ms, IsStream get m.1 m.2.1 m.2.2) :
    IsStream (sourceArrayGet get) (ms.map Prod.fst) (ms.map fun m => m.2.1).sum
      (stackStreams (ms.map fun m => m.2)) := by
  have key : ∀ (ns : List Nat) (off : Nat) (ms : List (σ × Nat × (Nat → Nat → R))), ms ≠ [] →
      (∀ m ∈ ms, StreamAt get m.1 m.2.1 off m.2.2) →
      ∃ s', runRequests (sourceArrayGet get) (ms.map Prod.fst) ns =
        .ok (s', blocksOf (stackStreams (ms.map Prod.snd)) ((ms.map Prod.snd).map Prod.fst).sum off ns) := by
    intro ns
    induction ns with
    | nil => intro off ms _ _; exact ⟨_, rfl⟩
    | cons n ns ih =>
      intro off ms hne h
      obtain ⟨ms', h1, h2, h3⟩ := sourceArrayGet_next off n ms hne h
      obtain ⟨s', hs⟩ := ih (off + n) ms' (by rintro rfl; exact hne (by simpa using h1.symm)) h2
      refine ⟨s', ?_⟩
      simp only [runRequests, h3, hs, blocksOf, h1]
  intro ns
  obtain ⟨s', hs⟩ := key ns 0 ms hne fun m hm => (h m hm : StreamAt get m.1 m.2.1 0 m.2.2)
  refine ⟨s', ?_⟩
  rw [hs, List.map_map]
  rfl

/-- **C117** Channel `c` of the `i`-th source is where the channels of the sources before it end. -/
theorem C117_channel {R : Type} [Inhabited R] (l : List (Nat × (Nat → Nat → R))) (m : Nat × (Nat → Nat → R))
    (l' : List (Nat × (Nat → Nat → R))) (c t : Nat) (hc : c < m.1) :
    stackStreams (l ++ m :: l') ((l.map Prod.fst).sum + c) t = m.2 c t := by
  induction l with
  | nil => simp [stackStreams, hc]
  | cons e l ih =>
    rw [List.cons_append, List.map_cons, List.sum_cons, stackStreams, if_neg (by omega),
      show e.1 + (l.map Prod.fst).sum + c - e.1 = (l.map Prod.fst).sum + c by omega, ih]

/-- **C117 (the code violates it)** A `SourceArray` cannot be the source of an array of sources, whatever
the number of sources. -/
theorem C117_violated_use {σ : Type} (ss : List σ) (num : Nat) :
    setSource num (sourceArrayChannels ss) = Except.error PyErr.attribute := rfl

/-- **C117** An array accepts exactly the sources that have as many channels as it has elements. -/
theorem C117_accepted (num : Nat) (ch : Option Nat) : setSource num ch = Except.ok () ↔ ch = some num := by
  unfold setSource
  cases ch with
  | none => simp
  | some c => by_cases h : c = num <;> simp [h]

example : setSource 3 (some 4) ≠ Except.ok () := fun h => by simpa using (C117_accepted 3 (some 4)).1 h

theorem mkSourceArray_one {α σ : Type} (make : α → Except PyErr σ) (num : Nat) (a : α) (o : σ) (h : make a = .ok o) :
    mkSourceArray make num (.one a) = .ok (List.replicate num o) := by
  have : ∀ l : List Nat, (∀ i ∈ l, i < num) →
      (l.mapM fun i => match (List.replicate num a)[i]? with
        | none => Except.error PyErr.index
        | some a => make a) = .ok (List.replicate l.length o) := by
    intro l
    induction l with
    | nil => intro _; rfl
    | cons i l ih =>
      intro hl
      have hi : i < num := hl i (by simp)
      rw [List.mapM_cons, ih fun i hi => hl i (by simp [hi])]
      simp only [List.getElem?_replicate, hi, if_true, h, List.length_cons, List.replicate_succ]
      rfl
  have h' := this (List.range num) fun i hi => List.mem_range.1 hi
  rw [List.length_range] at h'
  exact h'

/-- **C117 (the code violates it)** The amplitude is passed as the number of channels: `num` white noise
sources with amplitude `a` and power `p` are sources with `a` channels each and power `p`. -/
theorem C117_violated_amplitude (seeded : Nat → Nat → ℝ) (num a : Nat) (p : ℝ) :
    mkSourceArray (fun a => WhiteObj.create seeded a (.num p) none) num (.one a) =
      .ok (List.replicate num ⟨a, .num p, ⟨seeded 123456, 0⟩⟩) :=
  mkSourceArray_one _ _ _ _ rfl

/-- **C117 (the code violates it)** All of these sources draw the same numbers: the block of each is the
same. -/
theorem C117_violated_equal (seeded : Nat → Nat → ℝ) (num a n : Nat) (p : ℝ) (hnum : 0 < num) :
    ∃ ss ss' b, mkSourceArray (fun a => WhiteObj.create seeded a (.num p) none) num (.one a) = .ok ss ∧
      sourceArrayGet WhiteObj.get ss n = .ok (ss', (List.replicate num b).flatten) := by
  obtain ⟨o', b, hb⟩ : ∃ o' b, WhiteObj.get ⟨a, .num p, ⟨seeded 123456, 0⟩⟩ n = .ok (o', b) := ⟨_, _, rfl⟩
  refine ⟨_, List.replicate num o', b, C117_violated_amplitude seeded num a p, ?_⟩
  have : ∀ k, ((List.replicate k (WhiteObj.mk a (.num p) ⟨seeded 123456, 0⟩)).mapM fun s => WhiteObj.get s n) =
      .ok (List.replicate k (o', b)) := by
    intro k
    induction k with
    | zero => rfl
    | succ k ih => rw [List.replicate_succ, List.mapM_cons, hb, ih]; rfl
  unfold sourceArrayGet
  rw [if_neg (by intro h; have := congrArg List.length h; simp at this; omega), this]
  simp

/-! ### Examples -/

/-- Two noise sources with one and two channels, drawn from `0, 1, 2, ...`. -/
def exMembers : List (WhiteSt Int × Nat × (Nat → Nat → Int)) :=
  [({ ch := 1, std := fun _ => 2, rng := { z := fun k => k, pos := 0 } }, 1,
    fun c k => 2 * (fun k : Nat => (k : Int)) (0 + (k * 1 + c))),
   ({ ch := 2, std := fun _ => 3, rng := { z := fun k => k, pos := 5 } }, 2,
    fun c k => 3 * (fun k : Nat => (k : Int)) (5 + (k * 2 + c)))]

example : IsStream (sourceArrayGet WhiteSt.get) (exMembers.map Prod.fst) 3 (stackStreams (exMembers.map fun m => m.2)) :=
  C117_joined_partial exMembers (by simp [exMembers]) (by
    intro m hm
    simp only [exMembers, List.mem_cons, List.not_mem_nil, or_false] at hm
    rcases hm with rfl | rfl <;> exact C32_white_noise _ _ _ _)

example : (sourceArrayGet WhiteSt.get (exMembers.map Prod.fst) 2).toOption.map Prod.snd =
    some [[0, 2], [15, 21], [18, 24]] := by decide

example : stackStreams (exMembers.map fun m => m.2) 2 1 = 24 := by decide

example : mkSourceArray (fun a => WhiteObj.create (fun _ _ => 0) a (.num 4) none) 3 (.one 2) =
    .ok (List.replicate 3 ⟨2, .num 4, ⟨fun _ => 0, 0⟩⟩) := C117_violated_amplitude _ 3 2 4

example : ∃ ss ss' b, mkSourceArray (fun a => WhiteObj.create (fun _ (k : Nat) => (k : ℝ)) a (.num 4) none) 3 (.one 2) = .ok ss ∧
    sourceArrayGet WhiteObj.get ss 7 = .ok (ss', (List.replicate 3 b).flatten) :=
  C117_violated_equal _ 3 2 7 4 (by decide)

end Verif

import Verif.Model.RirInfo
import Verif.Lemmas.Rir
import Mathlib.Algebra.BigOperators.Group.List.Basic
import Mathlib.Algebra.Order.BigOperators.Group.List
import Mathlib.Tactic.Linarith
import Mathlib.Tactic.Positivity
namespace Verif

section
variable {R Pt G : Type} [Field R] [LinearOrder R]

/-- `e` is the maximum of the levels with property `S`, `-inf` if there is none, `nan` if
one of them is `nan`. -/
def Db.IsMax (e : Db R) (S : Db R → Prop) : Prop :=
  (S .nan → e = .nan) ∧
  (¬ S .nan → e ≠ .nan ∧ (S e ∨ e = .negInf) ∧
    ∀ x, S (.fin x) → ∃ y, e = .fin y ∧ x ≤ y)

theorem Db.isMax_empty : Db.IsMax (R := R) .negInf (fun _ => False) :=
  ⟨fun h => h.elim, fun _ => ⟨by simp, .inr rfl, fun _ h => h.elim⟩⟩

theorem Db.IsMax.single (d : Db R) : Db.IsMax d (fun x => x = d) := by
  refine ⟨fun h => h.symm, fun h => ⟨fun e => h e.symm, .inl rfl, fun x hx => ⟨x, hx.symm, le_rfl⟩⟩⟩

theorem Db.IsMax.union {e e' : Db R} {S S' : Db R → Prop} (h : e.IsMax S) (h' : e'.IsMax S') :
    (e.max e').IsMax (fun d => S d ∨ S' d) := by
  refine ⟨?_, ?_⟩
  · rintro (hs | hs)
    · rw [h.1 hs]; rfl
    · rw [h'.1 hs]; cases e <;> rfl
  · intro hn
    have h1 := h.2 fun hs => hn (.inl hs)
    have h2 := h'.2 fun hs => hn (.inr hs)
    obtain ⟨a1, a2, a3⟩ := h1
    obtain ⟨b1, b2, b3⟩ := h2
    cases e with
    | nan => exact absurd rfl a1
    | negInf =>
      cases e' with
      | nan => exact absurd rfl b1
      | negInf =>
        refine ⟨by simp [Db.max], .inr rfl, ?_⟩
        rintro x (hx | hx)
        · obtain ⟨y, hy, _⟩ := a3 x hx; cases hy
        · obtain ⟨y, hy, _⟩ := b3 x hx; cases hy
      | fin b =>
        refine ⟨by simp [Db.max], ?_, ?_⟩
        · rcases b2 with hb | hb
          · exact .inl (.inr hb)
          · cases hb
        · rintro x (hx | hx)
          · obtain ⟨y, hy, _⟩ := a3 x hx; cases hy
          · exact b3 x hx
    | fin a =>
      cases e' with
      | nan => exact absurd rfl b1
      | negInf =>
        refine ⟨by simp [Db.max], ?_, ?_⟩
        · rcases a2 with ha | ha
          · exact .inl (.inl ha)
          · cases ha
        · rintro x (hx | hx)
          · exact a3 x hx
          · obtain ⟨y, hy, _⟩ := b3 x hx; cases hy
      | fin b =>
        refine ⟨by simp [Db.max], ?_, ?_⟩
        · left
          simp only [Db.max]
          split
          · rcases b2 with hb | hb
            · exact .inr hb
            · cases hb
          · rcases a2 with ha | ha
            · exact .inl ha
            · cases ha
        · rintro x (hx | hx)
          · obtain ⟨y, hy, hxy⟩ := a3 x hx
            cases hy
            refine ⟨_, rfl, ?_⟩
            split
            · next hab => exact hxy.trans hab
            · exact hxy
          · obtain ⟨y, hy, hxy⟩ := b3 x hx
            cases hy
            refine ⟨_, rfl, ?_⟩
            split
            · exact hxy
            · next hab => exact hxy.trans (le_of_lt (not_le.1 hab))

theorem Db.IsMax.congr {e : Db R} {S S' : Db R → Prop} (h : e.IsMax S) (hs : ∀ d, S d ↔ S' d) : e.IsMax S' := by
  have : S = S' := funext fun d => propext (hs d)
  rwa [← this]

theorem Db.IsMax.fold {α : Type} (f : α → Db R) : ∀ (l : List α) {e : Db R} {S : Db R → Prop}, e.IsMax S →
    (l.foldl (fun e r => e.max (f r)) e).IsMax (fun d => S d ∨ ∃ r ∈ l, d = f r)
  | [], e, S, h => h.congr fun d => by simp
  | r :: l, e, S, h => by
    rw [List.foldl_cons]
    refine (Db.IsMax.fold f l (h.union (.single (f r)))).congr fun d => ?_
    simp only [List.mem_cons, exists_eq_or_imp]
    tauto

theorem truncInfo_eq (lg : R → R) (len : Nat) (rirs : List (List (List R))) :
    truncInfo lg len rirs =
      (rirs.flatten.foldl (fun e r => e.max (truncError lg r (min r.length len))) .negInf,
        rirs.flatten.foldl (fun e r => e.max (truncValue lg r (min r.length len))) .negInf) := by
  have inner : ∀ (l : List (List R)) (a : Db R × Db R), l.foldl (fun acc rir =>
      (acc.1.max (truncError lg rir (min rir.length len)), acc.2.max (truncValue lg rir (min rir.length len)))) a =
      (l.foldl (fun e r => e.max (truncError lg r (min r.length len))) a.1,
        l.foldl (fun e r => e.max (truncValue lg r (min r.length len))) a.2) := by
    intro l
    induction l with
    | nil => intro a; rfl
    | cons r l ih => intro a; simp only [List.foldl_cons, ih]
  have outer : ∀ (l : List (List (List R))) (a : Db R × Db R), l.foldl (fun acc receiver =>
      receiver.foldl (fun acc rir =>
        (acc.1.max (truncError lg rir (min rir.length len)), acc.2.max (truncValue lg rir (min rir.length len)))) acc) a =
      (l.flatten.foldl (fun e r => e.max (truncError lg r (min r.length len))) a.1,
        l.flatten.foldl (fun e r => e.max (truncValue lg r (min r.length len))) a.2) := by
    intro l
    induction l with
    | nil => intro a; rfl
    | cons r l ih => intro a; rw [List.foldl_cons, ih, inner, List.flatten_cons, List.foldl_append, List.foldl_append]
  unfold truncInfo
  exact outer rirs _

/-- The levels of the responses for the microphones before `J`. -/
def levelsBefore (c : RirCfg R Pt G) (g : G) (ss ms : List Pt) (f : List R → Db R) (J : Nat) (d : Db R) : Prop :=
  ∃ i < ss.length, ∃ j < ms.length, j < J ∧ ∃ r, c.simulated g ss ms i j = some r ∧ d = f r

theorem levels_step {c : RirCfg R Pt G} (hc : c.Lawful) (g : G) (ss ms : List Pt) (f : List R → Db R) (b : Nat)
    (d : Db R) : levelsBefore c g ss ms f (500 * (b + 1)) d ↔ levelsBefore c g ss ms f (500 * b) d ∨
      (False ∨ ∃ r ∈ (c.roomRir (c.stateBefore g ss ms b) ss (micBatch ms b)).2.flatten, d = f r) := by
  have hlen := hc.receivers (c.stateBefore g ss ms b) ss (micBatch ms b)
  rw [micBatch_length] at hlen
  constructor
  · rintro ⟨i, hi, j, hj, hJ, r, hr, rfl⟩
    by_cases hlt : j < 500 * b
    · exact .inl ⟨i, hi, j, hj, hlt, r, hr, rfl⟩
    · refine .inr (.inr ⟨r, ?_, rfl⟩)
      unfold RirCfg.simulated at hr
      rw [show j / 500 = b by omega] at hr
      obtain ⟨x, hx, hr⟩ := Option.bind_eq_some_iff.1 hr
      exact List.mem_flatten.2 ⟨x, List.mem_of_getElem? hx, List.mem_of_getElem? hr⟩
  · rintro (⟨i, hi, j, hj, hJ, r, hr, rfl⟩ | h | ⟨r, hr, rfl⟩)
    · exact ⟨i, hi, j, hj, by omega, r, hr, rfl⟩
    · exact h.elim
    · obtain ⟨x, hx, hr⟩ := List.mem_flatten.1 hr
      have hxl := hc.sources _ _ _ x hx
      obtain ⟨k, hk, hkx⟩ := List.getElem_of_mem hx
      obtain ⟨i, hi, hir⟩ := List.getElem_of_mem hr
      refine ⟨i, by omega, 500 * b + k, by omega, by omega, r, ?_, rfl⟩
      unfold RirCfg.simulated
      rw [show (500 * b + k) / 500 = b by omega, show (500 * b + k) % 500 = k by omega,
        List.getElem?_eq_getElem hk, hkx, Option.bind_some, List.getElem?_eq_getElem hi, hir]

theorem ismMetaLoop_spec {c : RirCfg R Pt G} (hc : c.Lawful) (lg : R → R) {src mic : Geo Pt}
    (ho : mic.omni = true) {g : G} : ∀ (fuel b : Nat) {acc : Db R × Db R} {room : Option (List (List (List R)))},
      mic.pos.length - 500 * b ≤ fuel →
      acc.1.IsMax (levelsBefore c g src.pos mic.pos (fun r => truncError lg r (min r.length c.irLen)) (500 * b)) →
      acc.2.IsMax (levelsBefore c g src.pos mic.pos (fun r => truncValue lg r (min r.length c.irLen)) (500 * b)) →
      (0 < b → room = some (c.roomRir (c.stateBefore g src.pos mic.pos (b - 1)) src.pos (micBatch mic.pos (b - 1))).2) →
      (b = 0 → room = none) → (0 < b → 500 * (b - 1) < mic.pos.length) →
      ∃ acc' room', ismMetaLoop c lg src mic fuel (min (500 * b) mic.pos.length)
          (c.stateBefore g src.pos mic.pos b) acc room = .ok (acc', room') ∧
        acc'.1.IsMax (levelsBefore c g src.pos mic.pos (fun r => truncError lg r (min r.length c.irLen)) mic.pos.length) ∧
        acc'.2.IsMax (levelsBefore c g src.pos mic.pos (fun r => truncValue lg r (min r.length c.irLen)) mic.pos.length) ∧
        (mic.pos = [] → room' = none) ∧
        (mic.pos ≠ [] → room' = some (c.roomRir (c.stateBefore g src.pos mic.pos ((mic.pos.length - 1) / 500)) src.pos
          (micBatch mic.pos ((mic.pos.length - 1) / 500))).2)
  | fuel, b, acc, room, hf, h1, h2, h3, h4, h5 => by
    by_cases hle : mic.pos.length ≤ 500 * b
    · refine ⟨acc, room, ?_, h1.congr ?_, h2.congr ?_, ?_, ?_⟩
      · unfold ismMetaLoop
        rw [if_pos (by omega)]
      · intro d
        constructor
        · rintro ⟨i, hi, j, hj, _, h⟩; exact ⟨i, hi, j, hj, hj, h⟩
        · rintro ⟨i, hi, j, hj, _, h⟩; exact ⟨i, hi, j, hj, by omega, h⟩
      · intro d
        constructor
        · rintro ⟨i, hi, j, hj, _, h⟩; exact ⟨i, hi, j, hj, hj, h⟩
        · rintro ⟨i, hi, j, hj, _, h⟩; exact ⟨i, hi, j, hj, by omega, h⟩
      · intro he
        apply h4
        by_contra hb
        have := h5 (by omega)
        rw [he] at this
        simp at this
      · intro hne
        have hpos := List.length_pos_of_ne_nil hne
        have hb : 0 < b := by omega
        have h5 := h5 hb
        rw [h3 hb, show (mic.pos.length - 1) / 500 = b - 1 by omega]
    · cases fuel with
      | zero => omega
      | succ fuel =>
        have hmin : min (500 * b) mic.pos.length = 500 * b := by omega
        rw [hmin]
        unfold ismMetaLoop
        rw [if_neg hle]
        simp only
        rw [if_neg (by rw [ho]; decide)]
        have hbat : List.take (min 500 (mic.pos.length - 500 * b)) (List.drop (500 * b) mic.pos) =
            micBatch mic.pos b := by
          unfold micBatch
          rw [List.take_eq_take_iff, List.length_drop]
          omega
        rw [hbat]
        have hst : 500 * b + min 500 (mic.pos.length - 500 * b) = min (500 * (b + 1)) mic.pos.length := by
          omega
        rw [hst]
        refine ismMetaLoop_spec hc lg ho fuel (b + 1) (by omega) ?_ ?_ (fun _ => rfl) (fun h => by omega)
          (fun _ => by simp; omega)
        · rw [truncInfo_eq]
          exact (h1.union (Db.IsMax.fold _ _ Db.isMax_empty)).congr fun d => (levels_step hc g _ _ _ b d).symm
        · rw [truncInfo_eq]
          exact (h2.union (Db.IsMax.fold _ _ Db.isMax_empty)).congr fun d => (levels_step hc g _ _ _ b d).symm

theorem energy_nonneg [IsStrictOrderedRing R] (l : List R) : 0 ≤ energy l :=
  List.sum_nonneg fun x hx => by
    obtain ⟨y, _, rfl⟩ := List.mem_map.1 hx
    positivity

theorem energy_append (l l' : List R) : energy (l ++ l') = energy l + energy l' := by
  simp [energy]

theorem energy_drop_le [IsStrictOrderedRing R] (l : List R) (n : Nat) : energy (l.drop n) ≤ energy l := by
  have h := energy_append (l.take n) (l.drop n)
  rw [List.take_append_drop] at h
  rw [h]
  exact le_add_of_nonneg_left (energy_nonneg _)

theorem energy_eq_zero [IsStrictOrderedRing R] : ∀ (l : List R), energy l = 0 ↔ ∀ x ∈ l, x = 0
  | [] => by simp [energy]
  | x :: l => by
    have h1 : energy (x :: l) = x ^ 2 + energy l := by simp [energy]
    have h2 := energy_nonneg l
    have h3 : 0 ≤ x ^ 2 := by positivity
    rw [h1, List.forall_mem_cons, ← energy_eq_zero l]
    constructor
    · intro h
      have : x ^ 2 = 0 := le_antisymm (by linarith) h3
      exact ⟨by simpa using this, by linarith⟩
    · rintro ⟨rfl, h⟩
      simp [h]

theorem maxAbs_fold [IsStrictOrderedRing R] : ∀ (l : List R) (m : R), 0 ≤ m →
    m ≤ l.foldl (fun m x => if m ≤ |x| then |x| else m) m ∧
    (∀ x ∈ l, |x| ≤ l.foldl (fun m x => if m ≤ |x| then |x| else m) m) ∧
    (l.foldl (fun m x => if m ≤ |x| then |x| else m) m = m ∨
      ∃ x ∈ l, l.foldl (fun m x => if m ≤ |x| then |x| else m) m = |x|)
  | [], m, _ => ⟨le_rfl, by simp, .inl rfl⟩
  | x :: l, m, hm => by
    rw [List.foldl_cons]
    have hm' : m ≤ (if m ≤ |x| then |x| else m) ∧ |x| ≤ (if m ≤ |x| then |x| else m) := by
      split
      · next h => exact ⟨h, le_rfl⟩
      · next h => exact ⟨le_rfl, le_of_lt (not_le.1 h)⟩
    obtain ⟨h1, h2, h3⟩ := maxAbs_fold l (if m ≤ |x| then |x| else m) (hm.trans hm'.1)
    refine ⟨hm'.1.trans h1, ?_, ?_⟩
    · intro y hy
      rcases List.mem_cons.1 hy with rfl | hy
      · exact hm'.2.trans h1
      · exact h2 y hy
    · rcases h3 with h3 | ⟨y, hy, h3⟩
      · rw [h3]
        split
        · exact .inr ⟨x, by simp, rfl⟩
        · exact .inl rfl
      · exact .inr ⟨y, by simp [hy], h3⟩

theorem maxAbs_spec [IsStrictOrderedRing R] (l : List R) : 0 ≤ maxAbs l ∧ (∀ x ∈ l, |x| ≤ maxAbs l) ∧
    (l ≠ [] → ∃ x ∈ l, maxAbs l = |x|) := by
  obtain ⟨h1, h2, h3⟩ := maxAbs_fold l 0 le_rfl
  refine ⟨h1, h2, fun hne => ?_⟩
  rcases h3 with h3 | h3
  · obtain ⟨x, hx⟩ := List.exists_mem_of_ne_nil l hne
    refine ⟨x, hx, ?_⟩
    have h4 := h2 x hx
    have : maxAbs l = 0 := h3
    rw [this]
    unfold maxAbs at this
    rw [this] at h4
    exact (le_antisymm h4 (abs_nonneg x)).symm
  · exact h3

theorem maxAbs_pos [IsStrictOrderedRing R] {l : List R} (h : ∃ x ∈ l, x ≠ 0) : 0 < maxAbs l := by
  obtain ⟨x, hx, h0⟩ := h
  exact (abs_pos.2 h0).trans_le ((maxAbs_spec l).2.1 x hx)

end
end Verif

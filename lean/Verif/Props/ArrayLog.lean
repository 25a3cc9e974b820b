/-
C14, C42: where a moving array is, and the log of its positions.
-/
import Verif.Lemmas.Array
namespace Verif

section
variable {Pt H G : Type}

/-- An array after the updates of the iterations `0, ..., n-1`, of which every `freq`-th
moves it. -/
def Arr.movedTo (freq n : Nat) (a : Arr Pt) : Arr Pt :=
  match a.traj with
  | none => a
  | some f => { a with
      pos := if n = 0 then a.pos else f (freq * ((n - 1) / freq))
      log := a.log ++ ((List.range n).filter fun u => decide (freq ∣ u)).map fun u => (u, f u) }

theorem movedTo_step_due {freq n : Nat} (hd : freq ∣ n) (a : Arr Pt) :
    (a.movedTo freq n).update n = a.movedTo freq (n + 1) := by
  unfold Arr.movedTo Arr.update
  cases ht : a.traj with
  | none => simp [ht]
  | some f =>
    simp only [ht, Nat.add_sub_cancel, if_neg (Nat.succ_ne_zero n)]
    rw [Nat.mul_div_cancel' hd, List.range_succ, List.filter_append, List.map_append]
    simp [hd]

theorem movedTo_step {freq n : Nat} (hd : ¬ freq ∣ n) (a : Arr Pt) : a.movedTo freq n = a.movedTo freq (n + 1) := by
  unfold Arr.movedTo
  cases ht : a.traj with
  | none => rfl
  | some f =>
    have hn : n ≠ 0 := fun h => hd (h ▸ Nat.dvd_zero freq)
    simp only [if_neg hn, if_neg (Nat.succ_ne_zero n), Nat.add_sub_cancel]
    rw [List.range_succ, List.filter_append]
    have h1 : freq * ((n - 1) / freq) = freq * (n / freq) := by
      obtain ⟨m, rfl⟩ : ∃ m, n = m + 1 := ⟨n - 1, by omega⟩
      rw [Nat.add_sub_cancel, Nat.succ_div, if_neg hd, Nat.add_zero]
    rw [h1]
    simp [hd]

theorem after_arrays {gen : GenFn Pt H G} {c : Coll Pt H} (hc : c.Consistent) {g : G} :
    ∀ (n : Nat) {g' : G} {c' : Coll Pt H}, Coll.after gen (g, c) n = .ok (g', c') →
      c'.arrays = c.arrays.map (Arr.movedTo c.freq n)
  | 0, g', c', h => by
    cases h
    have : (Arr.movedTo c.freq 0 : Arr Pt → Arr Pt) = id := by
      funext a
      unfold Arr.movedTo
      cases ht : a.traj <;> simp
      cases a
      simp_all
    rw [this, List.map_id]
  | n + 1, g', c', h => by
    unfold Coll.after at h
    cases h1 : Coll.after gen (g, c) n with
    | error x => rw [h1] at h; cases h
    | ok y =>
      rw [h1] at h
      obtain ⟨gy, cy⟩ := y
      have inv := after_spec hc n h1
      have ih := after_arrays hc n h1
      simp only at h
      by_cases hd : c.freq ∣ n
      · obtain ⟨ps, r', k1, k2, k3, k4⟩ := update_spec inv.con (by rw [inv.freq]; exact hd) h
        rw [k4]
        show cy.arrays.map (Arr.update n) = _
        rw [ih, List.map_map]
        exact List.map_congr_left fun a _ => movedTo_step_due hd a
      · have hmod : n % c.freq ≠ 0 := fun h0 => hd (Nat.dvd_of_mod_eq_zero h0)
        unfold Coll.update at h
        split at h
        · cases h
        · rw [if_pos (by simp only [inv.freq]; exact hmod)] at h
          cases h
          rw [ih]
          exact List.map_congr_left fun a _ => movedTo_step hd a

/-- C42, the arrays: after the updates of `n` iterations a moving array is where its
trajectory is at the last iteration that is a multiple of `array_update_freq`, and its log
lists every such iteration with the position at that time, in order and each once.  Arrays
that do not move are unchanged. -/
theorem C42_positions {gen : GenFn Pt H G} {c c' : Coll Pt H} (hc : c.Consistent) {n : Nat} {g g' : G}
    (h : Coll.after gen (g, c) n = .ok (g', c')) {a : Arr Pt} (ha : a ∈ c.arrays) :
    ∃ a' ∈ c'.arrays, a'.name = a.name ∧ (a.traj = none → a' = a) ∧ ∀ f, a.traj = some f →
      (1 ≤ n → a'.pos = f (c.freq * ((n - 1) / c.freq))) ∧
      a'.log = a.log ++ ((List.range n).filter fun u => decide (c.freq ∣ u)).map fun u => (u, f u) := by
  refine ⟨a.movedTo c.freq n, ?_, ?_, ?_, ?_⟩
  · rw [after_arrays hc n h]
    exact List.mem_map_of_mem ha
  · unfold Arr.movedTo
    cases a.traj <;> rfl
  · intro ht
    unfold Arr.movedTo
    rw [ht]
  · intro f ht
    unfold Arr.movedTo
    rw [ht]
    exact ⟨fun hn => if_neg (by omega), rfl⟩

/-- C14, the start: an array is created with the points given, or at the points where its
trajectory starts, with an empty log and as many objects as points. -/
theorem C14_created {name : String} {kind : Option ArrKind} {omni : Bool} {p : PosArg Pt} {a : Arr Pt}
    (h : mkArr name kind omni p = .ok a) :
    a.name = name ∧ a.kind = kind ∧ a.omni = omni ∧ a.log = [] ∧ a.num = a.pos.length ∧ a.Initial ∧
      (∀ l, p = .groups l → l ≠ [] ∧ a.pos = l.flatten ∧ a.traj = none) ∧
      (∀ l, p = .mat l → a.pos = l ∧ a.traj = none) ∧
      (∀ f, p = .traj f → a.pos = f 0 ∧ a.traj = some f) := by
  cases p with
  | groups l =>
    cases l with
    | nil => cases h
    | cons x l =>
      cases h
      refine ⟨rfl, rfl, rfl, rfl, rfl, ?_, ?_, ?_, ?_⟩
      · intro f hf; cases hf
      · intro l' hl; cases hl; exact ⟨List.cons_ne_nil _ _, rfl, rfl⟩
      · intro l' hl; cases hl
      · intro l' hl; cases hl
  | mat l =>
    cases h
    refine ⟨rfl, rfl, rfl, rfl, rfl, ?_, ?_, ?_, ?_⟩
    · intro f hf; cases hf
    · intro l' hl; cases hl
    · intro l' hl; cases hl; exact ⟨rfl, rfl⟩
    · intro l' hl; cases hl
  | traj f =>
    cases h
    refine ⟨rfl, rfl, rfl, rfl, rfl, ?_, ?_, ?_, ?_⟩
    · intro f' hf; cases hf; rfl
    · intro l' hl; cases hl
    · intro l' hl; cases hl
    · intro l' hl; cases hl; exact ⟨rfl, rfl⟩

/-- A moving microphone pair is created at time 0. -/
example : ∃ a, mkArr "m" (some .mic) true (.traj fun u => [7 + u, 8 + u]) = .ok a ∧ a.pos = [7, 8] ∧ a.num = 2 :=
  ⟨_, by rfl, by rfl, by rfl⟩

end

/-- Updates every second iteration: after five iterations the array is where its trajectory
is at time 4, and the log has the times 0, 2, 4. -/
example : ∃ gc, Coll.after (fun (g : Nat) (a b : Geo Nat) (_ : String) => .ok (g + 1, (a.pos, b.pos)))
      (0, { (Coll.empty 2).addAll [⟨"s", some .free, 1, [0], none, 1, none, true, []⟩,
        ⟨"m", some .mic, 1, [7], none, 1, some fun u => [7 + u], true, []⟩] with
        types := fun _ _ => some "ism" }) 5 = .ok gc ∧
    gc.2.arrays.map (fun a => (a.pos, a.log)) = [([0], []), ([11], [(0, [7]), (2, [9]), (4, [11])])] :=
  ⟨_, by rfl, by rfl⟩

end Verif

import Verif.Spec.Tape
import Verif.Lemmas.PySlice
import Verif.Lemmas.Stream
import Mathlib.Data.List.GetD

namespace Verif

theorem matVal_matOf {R : Type} [Zero R] (ch n : Nat) (f : Nat → Nat → R) {c k : Nat}
    (hc : c < ch) (hk : k < n) : matVal (matOf ch n f) c k = f c k := by
  simp [matVal, matOf, hc, hk]

theorem matOf_congr {R : Type} {ch n : Nat} {f g : Nat → Nat → R}
    (h : ∀ c k, c < ch → k < n → f c k = g c k) : matOf ch n f = matOf ch n g := by
  refine List.map_congr_left fun c hc => List.map_congr_left fun k hk => ?_
  exact h c k (by simpa using hc) (by simpa using hk)

theorem cut_congr {R : Type} {dims : String → Option Nat} {T T' : Tape R} {a a' : Int} {L : Nat}
    (h : ∀ k num c (p : Nat), dims k = some num → c < num → p < L → T k c (a + p) = T' k c (a' + p)) :
    cut dims T a L = cut dims T' a' L := by
  funext k
  unfold cut
  cases hd : dims k with
  | none => rfl
  | some num =>
    simp only [Option.map_some, Option.some.injEq]
    exact matOf_congr fun c p hc hp => h k num c p hd hc hp

/-! ### rows -/

theorem pySlice_range {α : Type} (f : Nat → α) (L i n : Nat) (h : i + n ≤ L) :
    pySlice ((List.range L).map f) i ((i : Int) + n) = (List.range n).map fun k => f (i + k) := by
  unfold pySlice
  have e1 : ((i : Int) + n) = ((i + n : Nat) : Int) := by push_cast; rfl
  rw [e1, pyClamp_nat (by simp; omega), pyClamp_nat (by simp; omega)]
  apply List.ext_getElem
  · simp; omega
  · intro k h1 h2
    simp

theorem broadcastRow_length {α : Type} {v w : List α} {n : Nat} (h : broadcastRow v n = some w) :
    w.length = n := by
  unfold broadcastRow at h
  split at h
  · cases h; assumption
  · split at h
    · cases h; simp
    · cases h

theorem pyAssign_range {α : Type} [Zero α] (f : Nat → α) (L i n : Nat) (h : i + n ≤ L) (v : List α) :
    pyAssign ((List.range L).map f) i ((i : Int) + n) v =
      (broadcastRow v n).map fun w => (List.range L).map fun p =>
        if i ≤ p ∧ p < i + n then w.getD (p - i) 0 else f p := by
  unfold pyAssign
  have e1 : ((i : Int) + n) = ((i + n : Nat) : Int) := by push_cast; rfl
  rw [e1, pyClamp_nat (by simp; omega), pyClamp_nat (by simp; omega)]
  have e2 : i + n - i = n := by omega
  have e3 : max i (i + n) = i + n := by omega
  simp only [e3, e2]
  cases hb : broadcastRow v n with
  | none => rfl
  | some w =>
    have hw := broadcastRow_length hb
    simp only [Option.map_some, Option.some.injEq]
    apply List.ext_getElem
    · simp; omega
    · intro p h1 h2
      simp only [List.length_map, List.length_range] at h2
      simp only [List.getElem_map, List.getElem_range]
      by_cases hp : p < i
      · rw [if_neg (by omega), List.getElem_append_left (by simp; omega),
          List.getElem_append_left (by simp; omega)]
        simp
      · by_cases hp2 : p < i + n
        · rw [if_pos (by omega), List.getElem_append_left (by simp; omega),
            List.getElem_append_right (by simp; omega)]
          have hl : (List.take i (List.map f (List.range L))).length = i := by simp; omega
          simp only [hl]
          rw [List.getD_eq_getElem _ _ (by omega)]
        · rw [if_neg (by omega), List.getElem_append_right (by simp; omega)]
          simp only [List.length_append, List.length_take, List.length_map, List.length_range,
            List.getElem_drop, List.getElem_map, List.getElem_range]
          congr 1
          omega

theorem pyAddAssign_range {α : Type} [Zero α] [Add α] (f : Nat → α) (L i n : Nat) (h : i + n ≤ L)
    (v : List α) :
    pyAddAssign ((List.range L).map f) i ((i : Int) + n) v =
      (broadcastRow v n).map fun w => (List.range L).map fun p =>
        if i ≤ p ∧ p < i + n then f p + w.getD (p - i) 0 else f p := by
  unfold pyAddAssign
  have e1 : ((i : Int) + n) = ((i + n : Nat) : Int) := by push_cast; rfl
  rw [e1, pyClamp_nat (by simp; omega), pyClamp_nat (by simp; omega)]
  have e2 : i + n - i = n := by omega
  have e3 : max i (i + n) = i + n := by omega
  simp only [e3, e2]
  cases hb : broadcastRow v n with
  | none => rfl
  | some w =>
    have hw := broadcastRow_length hb
    simp only [Option.map_some, Option.some.injEq]
    have hz : (List.zipWith (· + ·) (List.drop i (List.take (i + n) (List.map f (List.range L)))) w).length = n := by
      simp; omega
    apply List.ext_getElem
    · simp; omega
    · intro p h1 h2
      simp only [List.length_map, List.length_range] at h2
      simp only [List.getElem_map, List.getElem_range]
      by_cases hp : p < i
      · rw [if_neg (by omega), List.getElem_append_left (by rw [List.length_append, hz]; simp; omega),
          List.getElem_append_left (by simp; omega)]
        simp
      · by_cases hp2 : p < i + n
        · rw [if_pos (by omega), List.getElem_append_left (by rw [List.length_append, hz]; simp; omega),
            List.getElem_append_right (by simp; omega)]
          have hl : (List.take i (List.map f (List.range L))).length = i := by simp; omega
          simp only [hl]
          rw [List.getD_eq_getElem _ _ (by omega)]
          simp only [List.getElem_zipWith, List.getElem_drop, List.getElem_take, List.getElem_map,
            List.getElem_range]
          congr 2
          omega
        · rw [if_neg (by omega), List.getElem_append_right (by rw [List.length_append, hz]; simp; omega)]
          simp only [List.length_append, hz, List.length_take, List.length_map, List.length_range,
            List.getElem_drop, List.getElem_map, List.getElem_range]
          congr 1
          omega

/-! ### arrays -/

theorem mapM_zip_aux {α β γ : Type} (op : List α → List α → Option γ) (g : β → List α)
    (br : List α → Option (List α)) (h : β → List α → γ)
    (H : ∀ c x, op (g c) x = (br x).map (h c)) :
    ∀ (l : List β) (w : List (List α)), l.length = w.length →
      (List.zip (l.map g) w).mapM (fun p => op p.1 p.2) =
        (w.mapM br).map fun w' => List.zipWith h l w'
  | [], [], _ => by simp
  | [], _ :: _, hl => by simp at hl
  | _ :: _, [], hl => by simp at hl
  | c :: l, x :: w, hl => by
    have ih := mapM_zip_aux op g br h H l w (by simpa using hl)
    simp only [List.map_cons, List.zip_cons_cons, List.mapM_cons, H, ih]
    cases br x with
    | none => rfl
    | some x' =>
      cases w.mapM br with
      | none => rfl
      | some w' => rfl

theorem mapM_length {α β : Type} {f : α → Option β} :
    ∀ {l : List α} {l' : List β}, l.mapM f = some l' → l'.length = l.length
  | [], l', h => by simp at h; subst h; rfl
  | x :: xs, l', h => by
    rw [List.mapM_cons] at h
    cases hx : f x with
    | none => rw [hx] at h; cases h
    | some y =>
      cases hxs : xs.mapM f with
      | none => rw [hx, hxs] at h; cases h
      | some ys =>
        rw [hx, hxs] at h
        cases h
        simp [mapM_length hxs]

theorem broadcastChan_length {α : Type} {v w : List (List α)} {n : Nat}
    (h : broadcastChan v n = some w) : w.length = n := by
  unfold broadcastChan at h
  split at h
  · cases h; assumption
  · split at h
    · cases h; simp
    · cases h

theorem broadcastMat_length {R : Type} {v w : Mat R} {num n : Nat}
    (h : broadcastMat v num n = some w) : w.length = num := by
  unfold broadcastMat at h
  cases hb : broadcastChan v num with
  | none => rw [hb] at h; cases h
  | some u =>
    rw [hb] at h
    have := mapM_length h
    rw [this, broadcastChan_length hb]

theorem pyRows_matOf {R : Type} {op : List R → List R → Option (List R)}
    {num n : Nat} {g : Nat → List R} {h : Nat → List R → List R}
    (H : ∀ c x, op (g c) x = (broadcastRow x n).map (h c)) (v : Mat R) :
    pyRows op ((List.range num).map g) v =
      (broadcastMat v num n).map fun w => (List.range num).map fun c => h c (w.getD c []) := by
  unfold pyRows broadcastMat
  simp only [List.length_map, List.length_range]
  cases hb : broadcastChan v num with
  | none => rfl
  | some u =>
    have hu := broadcastChan_length hb
    simp only [Option.bind_some]
    rw [mapM_zip_aux op g _ h H _ _ (by simpa using hu.symm)]
    cases hw : u.mapM (fun r => broadcastRow r n) with
    | none => rfl
    | some w =>
      have hl := mapM_length hw
      simp only [Option.map_some, Option.some.injEq]
      apply List.ext_getElem
      · simp; omega
      · intro k h1 h2
        simp only [List.length_map, List.length_range] at h2
        simp only [List.getElem_zipWith, List.getElem_range, List.getElem_map]
        rw [List.getD_eq_getElem _ _ (by omega)]

theorem pySlice2_matOf {R : Type} (num L i n : Nat) (f : Nat → Nat → R) (h : i + n ≤ L) :
    pySlice2 (matOf num L f) i ((i : Int) + n) = matOf num n fun c k => f c (i + k) := by
  unfold pySlice2 matOf
  rw [List.map_map]
  refine List.map_congr_left fun c _ => ?_
  exact pySlice_range (f c) L i n h

theorem pyAssign2_matOf {R : Type} [Zero R] (num L i n : Nat) (f : Nat → Nat → R) (h : i + n ≤ L)
    (v : Mat R) :
    pyAssign2 (matOf num L f) i ((i : Int) + n) v =
      (broadcastMat v num n).map fun w => matOf num L fun c p =>
        if i ≤ p ∧ p < i + n then matVal w c (p - i) else f c p :=
  pyRows_matOf (op := fun r x => pyAssign r i ((i : Int) + n) x)
    (g := fun c => (List.range L).map fun k => f c k)
    (h := fun c w => (List.range L).map fun p =>
      if i ≤ p ∧ p < i + n then w.getD (p - i) 0 else f c p)
    (fun c x => pyAssign_range (f c) L i n h x) v

theorem pyAddAssign2_matOf {R : Type} [Zero R] [Add R] (num L i n : Nat) (f : Nat → Nat → R)
    (h : i + n ≤ L) (v : Mat R) :
    pyAddAssign2 (matOf num L f) i ((i : Int) + n) v =
      (broadcastMat v num n).map fun w => matOf num L fun c p =>
        if i ≤ p ∧ p < i + n then f c p + matVal w c (p - i) else f c p :=
  pyRows_matOf (op := fun r x => pyAddAssign r i ((i : Int) + n) x)
    (g := fun c => (List.range L).map fun k => f c k)
    (h := fun c w => (List.range L).map fun p =>
      if i ≤ p ∧ p < i + n then f c p + w.getD (p - i) 0 else f c p)
    (fun c x => pyAddAssign_range (f c) L i n h x) v

/-! ### signals -/

section
variable {R : Type} {dims : String → Option Nat}

theorem sigGet_cut (T : Tape R) (off : Int) (L : Nat) (name : String) (i n : Nat) (h : i + n ≤ L) :
    sigGet (cut dims T off L) name i ((i : Int) + n) = tGet dims T name (off + i) n := by
  unfold sigGet tGet cut
  cases dims name with
  | none => rfl
  | some num =>
    simp only [Option.map_some]
    rw [pySlice2_matOf _ _ _ _ _ h]
    congr 1
    refine matOf_congr fun c k _ _ => ?_
    congr 1
    push_cast
    ring

theorem cut_set (T T' : Tape R) (off : Int) (L : Nat) (name : String) (num : Nat)
    (hd : dims name = some num) (hother : ∀ k, k ≠ name → T' k = T k) :
    (cut dims T off L).set name (matOf num L fun c p => T' name c (off + p)) = cut dims T' off L := by
  funext k
  unfold Sigs.set cut
  by_cases hk : k = name
  · subst hk; simp [hd]
  · rw [if_neg hk, hother k hk]

theorem sigAssign_cut [Zero R] (T : Tape R) (off : Int) (L : Nat) (name : String) (i n : Nat)
    (h : i + n ≤ L) (v : Mat R) :
    sigAssign (cut dims T off L) name i ((i : Int) + n) v =
      (tAssign dims T name (off + i) n v).map fun T' => cut dims T' off L := by
  unfold sigAssign tAssign
  cases hd : dims name with
  | none => simp [cut, hd, Except.map]
  | some num =>
    have : cut dims T off L name = some (matOf num L fun c p => T name c (off + p)) := by
      simp [cut, hd]
    simp only [this]
    rw [pyAssign2_matOf _ _ _ _ _ h]
    cases hb : broadcastMat v num n with
    | none => rfl
    | some w =>
      simp only [Option.map_some, Except.map]
      congr 1
      rw [← cut_set T (T.write name (off + i) n w) off L name num hd (fun k hk => by
        funext c t; simp [Tape.write, hk])]
      congr 1
      refine matOf_congr fun c p _ _ => ?_
      unfold Tape.write
      by_cases hp : i ≤ p ∧ p < i + n
      · rw [if_pos hp, if_pos ⟨rfl, by omega, by omega⟩]
        congr 1; omega
      · rw [if_neg hp, if_neg (by intro h; apply hp; omega)]

theorem sigAdd_cut [Zero R] [Add R] (T : Tape R) (off : Int) (L : Nat) (name : String) (i n : Nat)
    (h : i + n ≤ L) (v : Mat R) :
    sigAdd (cut dims T off L) name i ((i : Int) + n) v =
      (tAdd dims T name (off + i) n v).map fun T' => cut dims T' off L := by
  unfold sigAdd tAdd
  cases hd : dims name with
  | none => simp [cut, hd, Except.map]
  | some num =>
    have : cut dims T off L name = some (matOf num L fun c p => T name c (off + p)) := by
      simp [cut, hd]
    simp only [this]
    rw [pyAddAssign2_matOf _ _ _ _ _ h]
    cases hb : broadcastMat v num n with
    | none => rfl
    | some w =>
      simp only [Option.map_some, Except.map]
      congr 1
      rw [← cut_set T (T.addOn name (off + i) n w) off L name num hd (fun k hk => by
        funext c t; simp [Tape.addOn, hk])]
      congr 1
      refine matOf_congr fun c p _ _ => ?_
      unfold Tape.addOn
      by_cases hp : i ≤ p ∧ p < i + n
      · rw [if_pos hp, if_pos ⟨rfl, by omega, by omega⟩]
        congr 2; omega
      · rw [if_neg hp, if_neg (by intro h; apply hp; omega)]

theorem resetSigs_cut [Zero R] (T : Tape R) (off : Int) (B C : Nat) (hB : 1 ≤ B)
    (hz : ∀ k c t, off + B + C ≤ t → T k c t = 0) :
    resetSigs B C (cut dims T off (B + C)) = cut dims T (off + C) (B + C) := by
  funext k
  unfold resetSigs cut
  cases dims k with
  | none => rfl
  | some num =>
    simp only [Option.map_some, Option.some.injEq]
    unfold matOf
    rw [List.map_map]
    refine List.map_congr_left fun c _ => ?_
    simp only [Function.comp]
    unfold pySliceFrom
    rw [pyClamp_of_neg (by omega)]
    have : ((-(B : Int)) + ((List.range (B + C)).map fun p : Nat => T k c (off + p)).length).toNat = C := by
      simp
    rw [this]
    apply List.ext_getElem
    · simp
    · intro p h1 h2
      simp only [List.length_map, List.length_range] at h2
      by_cases hp : p < B
      · rw [List.getElem_append_left (by simp; omega)]
        simp only [List.getElem_drop, List.getElem_map, List.getElem_range]
        congr 1; push_cast; ring
      · rw [List.getElem_append_right (by simp; omega)]
        simp only [List.getElem_replicate, List.getElem_map, List.getElem_range]
        rw [hz]; omega

end
end Verif

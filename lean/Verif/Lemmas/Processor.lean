import Verif.Spec.Processor
import Verif.Lemmas.Sim

namespace Verif

section
variable {R : Type} [Zero R]

omit [Zero R] in
theorem setCol_matOf (m : Mat R) (num L a n k x : Nat) (f : Nat → Nat → R) (h : a + n ≤ L) (hk : k < n) :
    setCol m (matOf num L f) x (a + k) = setCol m (matOf num n fun c p => f c (a + p)) x k := by
  unfold setCol
  have h1 : (matOf num L f).any (fun r => decide (r.length ≤ a + k)) = false := by
    rw [List.any_eq_false]
    intro r hr
    obtain ⟨c, _, rfl⟩ := List.mem_map.1 hr
    simp; omega
  have h2 : (matOf num n fun c p => f c (a + p)).any (fun r => decide (r.length ≤ k)) = false := by
    rw [List.any_eq_false]
    intro r hr
    obtain ⟨c, _, rfl⟩ := List.mem_map.1 hr
    simp; omega
  have h3 := pySlice2_matOf num L (a + k) 1 f (by omega)
  have h4 := pySlice2_matOf num n k 1 (fun c p => f c (a + p)) (by omega)
  simp only [Nat.cast_one] at h3 h4
  rw [h1, h2, h3, h4]
  have : (matOf num 1 fun c p => f c (a + k + p)) = matOf num 1 fun c p => f c (a + (k + p)) :=
    matOf_congr fun c p _ _ => by rw [Nat.add_assoc]
  rw [this]

theorem foldlM_congr_mem {ε α β γ : Type} {f : α → β → Except ε α} {g : α → γ → Except ε α}
    {l : List Nat} {u : Nat → β} {w : Nat → γ} (h : ∀ x k, k ∈ l → f x (u k) = g x (w k)) :
    ∀ x, (l.map u).foldlM f x = (l.map w).foldlM g x := by
  induction l with
  | nil => intro x; rfl
  | cons k l ih =>
    intro x
    simp only [List.map_cons, List.foldlM_cons, h x k (by simp)]
    cases g x (w k) with
    | error e => rfl
    | ok y => exact ih (fun x k hk => h x k (by simp [hk])) y

/-- The `DebugProcessor` meets the processor contract with a look-back of one
block. -/
theorem debug_valid (dims : String → Option Nat) (tot bs : Nat) :
    ((debugProc (R := R) tot bs).view bs).Valid dims (some (debugProc tot bs)) := by
  intro p hp q T i L hi hL
  cases hp
  change bs ≤ i at hi
  change i + bs ≤ L at hL
  show debugProcess tot bs q (cut dims T 0 L) i = _
  show _ = ((debugProcess tot bs q (cut dims T ((i : Int) - bs) (bs + bs)) bs).map _).map _
  unfold debugProcess
  obtain ⟨a, rfl⟩ := Nat.exists_eq_add_of_le' hi
  have g1 := sigGet_cut (dims := dims) T 0 L "mic" a bs (by omega)
  have g2 := sigGet_cut (dims := dims) T (((a + bs : Nat) : Int) - bs) (bs + bs) "mic" 0 bs (by omega)
  have e1 : (((a + bs : Nat) : Int) - bs) = (a : Int) := by omega
  have e2 : (((a + bs : Nat) : Int)) = (a : Int) + bs := by omega
  have e3 : ((bs : Int) - bs) = ((0 : Nat) : Int) := by omega
  have e4 : ((0 : Nat) : Int) + bs = (bs : Int) := by omega
  rw [e4] at g2
  rw [e3, g2, e1, e2, g1]
  have e5 : (0 : Int) + a = (a : Int) + ((0 : Nat) : Int) := by omega
  rw [e5]
  cases tGet dims T "mic" ((a : Int) + ((0 : Nat) : Int)) bs with
  | error x => rfl
  | ok v =>
    simp only
    have s1 := sigAssign_cut (dims := dims) T 0 L "loudspeaker" (a + bs) bs (by omega) v
    have s2 := sigAssign_cut (dims := dims) T (a : Int) (bs + bs) "loudspeaker" bs bs (by omega) v
    rw [e2] at s1
    rw [s1, s2]
    have e6 : (0 : Int) + (a + bs) = (a : Int) + bs := by omega
    rw [e6]
    cases hT : tAssign dims T "loudspeaker" ((a : Int) + bs) bs v with
    | error x => rfl
    | ok T' =>
      simp only [Except.map]
      have hsame := tAssign_same hT
      cases hm : dims "mic" with
      | none => simp [cut, hm]
      | some nm =>
        cases hl : dims "loudspeaker" with
        | none => simp [cut, hl]
        | some nl =>
          have c1 : ∀ off M, cut dims T' off M "mic" = some (matOf nm M fun c p => T' "mic" c (off + p)) := by
            intro off M; simp [cut, hm]
          have c2 : ∀ off M, cut dims T' off M "loudspeaker" =
              some (matOf nl M fun c p => T' "loudspeaker" c (off + p)) := by
            intro off M; simp [cut, hl]
          simp only [c1, c2]
          have hw : ∀ (nm : Nat) (s : String),
              (matOf nm (bs + bs) fun c (p : Nat) => T' s c ((a : Int) + p)) =
              matOf nm (bs + bs) fun c (p : Nat) => T' s c (0 + ((a + p : Nat) : Int)) := by
            intro nm s
            refine matOf_congr fun c p _ _ => ?_
            congr 1; push_cast; ring
          have hfold := foldlM_congr_mem
            (f := debugLog tot (matOf nm L fun c (p : Nat) => T' "mic" c (0 + (p : Int)))
              (matOf nl L fun c (p : Nat) => T' "loudspeaker" c (0 + (p : Int))))
            (g := debugLog tot (matOf nm (bs + bs) fun c (p : Nat) => T' "mic" c ((a : Int) + p))
              (matOf nl (bs + bs) fun c (p : Nat) => T' "loudspeaker" c ((a : Int) + p)))
            (l := List.range bs)
            (u := fun k => (q.manual + k, ((a : Int) + k).toNat))
            (w := fun k => (q.manual + k, (((0 : Nat) : Int) + k).toNat))
            (by
              intro x k hk
              rw [List.mem_range] at hk
              have t1 : ((a : Int) + k).toNat = a + k := by omega
              have t2 : (((0 : Nat) : Int) + k).toNat = k := by omega
              rw [t1, t2]
              unfold debugLog
              rw [hw nm "mic", hw nl "loudspeaker"]
              simp only
              rw [setCol_matOf x.mic nm L a (bs + bs) k _ _ (by omega) (by omega),
                setCol_matOf x.ls nl L a (bs + bs) k _ _ (by omega) (by omega)]) q
          rw [hfold]
          cases (List.map (fun k => (q.manual + k, (((0 : Nat) : Int) + k).toNat)) (List.range bs)).foldlM
            (debugLog tot (matOf nm (bs + bs) fun c (p : Nat) => T' "mic" c ((a : Int) + p))
              (matOf nl (bs + bs) fun c (p : Nat) => T' "loudspeaker" c ((a : Int) + p))) q with
          | error x => rfl
          | ok q' =>
            simp only [Except.ok.injEq, Prod.mk.injEq, true_and]
            apply cut_congr
            intro k num c p hk hc hp
            unfold Tape.paste
            show T' k c (0 + (p : Int)) = if (a : Int) + bs ≤ 0 + (p : Int) ∧
              0 + (p : Int) < (a : Int) + bs + bs then _ else _
            split
            · rename_i hin
              beta_reduce
              rw [show (cut dims T' (a : Int) (bs + bs) k) = some (matOf num (bs + bs)
                fun c p => T' k c ((a : Int) + p)) by simp [cut, hk], Option.getD_some,
                matVal_matOf _ _ _ hc (by omega)]
              congr 1
              omega
            · rename_i hout
              exact hsame k c _ (by omega)

omit [Zero R] in
/-- The `DebugProcessor` only writes the loudspeaker signal. -/
theorem debug_keeps (tot bs : Nat) {name : String} (h : name ≠ "loudspeaker") :
    (debugProc (R := R) tot bs).Keeps name := by
  intro q S i q' S' hp
  change debugProcess tot bs q S i = _ at hp
  unfold debugProcess at hp
  split at hp
  · cases hp
  · split at hp
    · cases hp
    · rename_i sig hs
      have hsig : sig name = S name := by
        unfold sigAssign at hs
        split at hs
        · cases hs
        · split at hs
          · cases hs
          · cases hs
            unfold Sigs.set
            rw [if_neg h]
      split at hp
      · dsimp only at hp
        split at hp
        · cases hp
        · cases hp; exact hsig
      · cases hp

end
end Verif

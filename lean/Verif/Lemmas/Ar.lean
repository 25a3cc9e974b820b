import Verif.Model.Ar
import Verif.Spec.Stream
import Verif.Lemmas.Freq
namespace Verif

section
variable {R : Type} [Field R]

/-- `Σ_j a_j past_j`, the most recent sample first. -/
def arSum (a past : List R) : R := ((List.range a.length).map fun j => a.getD j 0 * past.getD j 0).sum

theorem iirStep_ar (a : List R) (z : List R × List R) (x : R) :
    iirStep (arTransfer a).1 (arTransfer a).2 z x =
      ((x :: z.1, (x + arSum a z.2) :: z.2), x + arSum a z.2) := by
  have e : ((List.range a.length).map fun k => (a.map fun x => -x).getD k 0 * z.2.getD k 0).sum = -arSum a z.2 := by
    unfold arSum
    rw [sum_range_list, sum_range_list, ← Finset.sum_neg_distrib]
    refine Finset.sum_congr rfl fun k _ => ?_
    rw [List.getD_eq_getElem?_getD, List.getElem?_map, List.getD_eq_getElem?_getD (l := a)]
    cases a[k]? <;> simp
  unfold iirStep arTransfer
  simp only [List.length_cons, List.length_nil, List.length_map, Nat.add_sub_cancel, List.getD_cons_succ]
  rw [e]
  simp

/-- The outputs of the recursion for the inputs `xs` after the outputs `past`. -/
theorem filtRow_ar (a : List R) : ∀ (xs : List R) (z : List R × List R),
    ∃ ys z', filtRow (iirStep (arTransfer a).1 (arTransfer a).2) z xs = (z', ys) ∧
      ys.length = xs.length ∧ z'.2 = ys.reverse ++ z.2 ∧
      ∀ (k : Nat) (x : R), xs[k]? = some x → ys[k]? = some (x + arSum a ((ys.take k).reverse ++ z.2))
  | [], z => ⟨[], z, rfl, rfl, rfl, by simp⟩
  | x :: xs, z => by
    obtain ⟨ys, z', h1, h2, h3, h4⟩ := filtRow_ar a xs (x :: z.1, (x + arSum a z.2) :: z.2)
    refine ⟨(x + arSum a z.2) :: ys, z', ?_, by simp [h2], by simp [h3], ?_⟩
    · unfold filtRow
      simp only [iirStep_ar, h1]
    · intro k y hy
      cases k with
      | zero => simp at hy; subst hy; simp
      | succ k =>
        rw [List.getElem?_cons_succ] at hy ⊢
        rw [h4 k y hy]
        simp

/-- The draw used for sample `k` of channel `c` with the requests `ns`, the next draw being
number `pos`. -/
def drawIdx (ch : Nat) : Nat → List Nat → Nat → Nat → Nat
  | pos, [], _, _ => pos
  | pos, n :: ns, c, k => if k < n then pos + c * n + k else drawIdx ch (pos + ch * n) ns c (k - n)

theorem drawIdx_bounds (ch : Nat) : ∀ (ns : List Nat) (pos c k : Nat), c < ch → k < ns.sum →
    pos ≤ drawIdx ch pos ns c k ∧ drawIdx ch pos ns c k < pos + ch * ns.sum
  | [], _, _, _, _, hk => by simp at hk
  | n :: ns, pos, c, k, hc, hk => by
    unfold drawIdx
    rw [List.sum_cons] at hk ⊢
    have h1 : (c + 1) * n ≤ ch * n := Nat.mul_le_mul_right n hc
    rw [Nat.mul_add]
    rw [Nat.add_mul] at h1
    split
    · omega
    · obtain ⟨h2, h3⟩ := drawIdx_bounds ch ns (pos + ch * n) c (k - n) hc (by omega)
      omega

theorem drawIdx_inj (ch : Nat) : ∀ (ns : List Nat) (pos c k c' k' : Nat), c < ch → c' < ch → k < ns.sum →
    k' < ns.sum → drawIdx ch pos ns c k = drawIdx ch pos ns c' k' → c = c' ∧ k = k'
  | [], _, _, _, _, _, _, _, hk, _, _ => by simp at hk
  | n :: ns, pos, c, k, c', k', hc, hc', hk, hk', h => by
    rw [List.sum_cons] at hk hk'
    unfold drawIdx at h
    have hlt : ∀ c k, c < ch → k < n → pos + c * n + k < pos + ch * n := by
      intro c k hc hk
      have h1 : (c + 1) * n ≤ ch * n := Nat.mul_le_mul_right n hc
      rw [Nat.add_mul] at h1
      omega
    split at h
    · next hkn =>
      split at h
      · next hkn' =>
        have e : n * c + k = n * c' + k' := by
          rw [Nat.mul_comm n c, Nat.mul_comm n c']; omega
        have e1 : c = c' := by
          have h1 := congrArg (· / n) e
          simp only [Nat.mul_add_div (by omega : n > 0), Nat.div_eq_of_lt hkn, Nat.div_eq_of_lt hkn'] at h1
          omega
        subst e1
        omega
      · have h1 := hlt c k hc hkn
        have h2 := (drawIdx_bounds ch ns (pos + ch * n) c' (k' - n) hc' (by omega)).1
        omega
    · split at h
      · next hkn' =>
        have h1 := hlt c' k' hc' hkn'
        have h2 := (drawIdx_bounds ch ns (pos + ch * n) c (k - n) hc (by omega)).1
        omega
      · obtain ⟨h1, h2⟩ := drawIdx_inj ch ns (pos + ch * n) c (k - n) c' (k' - n) hc hc' (by omega) (by omega) h
        omega

/-- One request. -/
theorem filtNoise_get_ar {s : FiltNoiseSt R (List R × List R)} (A : Nat → List R)
    (hstep : ∀ c < s.zi.length, s.step c = iirStep (arTransfer (A c)).1 (arTransfer (A c)).2) (n : Nat) :
    ∃ s' out, s.get n = .ok (s', out) ∧ s'.scale = s.scale ∧ s'.step = s.step ∧ s'.zi.length = s.zi.length ∧
      s'.rng.z = s.rng.z ∧ s'.rng.pos = s.rng.pos + s.zi.length * n ∧ out.length = s.zi.length ∧
      ∀ c < s.zi.length, ∀ z, s.zi[c]? = some z → ∃ row z', out[c]? = some row ∧ s'.zi[c]? = some z' ∧
        row.length = n ∧ z'.2 = row.reverse ++ z.2 ∧ ∀ k < n, row[k]? = some (s.scale c * s.rng.z (s.rng.pos + c * n + k) +
          arSum (A c) ((row.take k).reverse ++ z.2)) := by
  unfold FiltNoiseSt.get Rng.normal
  simp only
  refine ⟨_, _, rfl, rfl, rfl, by simp, rfl, rfl, by simp, ?_⟩
  intro c hc z hz
  obtain ⟨ys, z', h1, h2, h3, h4⟩ := filtRow_ar (A c)
    (((List.range n).map fun j => s.rng.z (s.rng.pos + c * n + j)).map fun x => s.scale c * x) z
  have hget : ((s.zi.zip ((List.range s.zi.length).map fun i => (List.range n).map fun j =>
      s.rng.z (s.rng.pos + i * n + j))).zipIdx)[c]? =
      some ((z, (List.range n).map fun j => s.rng.z (s.rng.pos + c * n + j)), c) := by
    rw [List.getElem?_zipIdx]
    have : (s.zi.zip ((List.range s.zi.length).map fun i => (List.range n).map fun j =>
      s.rng.z (s.rng.pos + i * n + j)))[c]? = some (z, (List.range n).map fun j => s.rng.z (s.rng.pos + c * n + j)) := by
      rw [List.getElem?_zip_eq_some]
      refine ⟨hz, ?_⟩
      rw [List.getElem?_map, List.getElem?_range hc]
      rfl
    rw [this]
    simp
  refine ⟨ys, z', ?_, ?_, by rw [h2]; simp, h3, ?_⟩
  · rw [List.getElem?_map, List.getElem?_map, hget]
    simp only [Option.map_some, hstep c hc, h1]
  · rw [List.getElem?_map, List.getElem?_map, hget]
    simp only [Option.map_some, hstep c hc, h1]
  · intro k hk
    apply h4
    rw [List.getElem?_map, List.getElem?_map, List.getElem?_range hk]
    rfl

/-- A sequence of requests. -/
theorem filtNoise_requests_ar (A : Nat → List R) : ∀ (ns : List Nat) {s : FiltNoiseSt R (List R × List R)},
    (∀ c < s.zi.length, s.step c = iirStep (arTransfer (A c)).1 (arTransfer (A c)).2) →
    ∃ s' bs, runRequests FiltNoiseSt.get s ns = .ok (s', bs) ∧
      ∀ c < s.zi.length, ∀ z, s.zi[c]? = some z → ∃ row, (joinBlocks s.zi.length bs)[c]? = some row ∧
        row.length = ns.sum ∧ ∀ k < ns.sum, row[k]? = some (s.scale c *
          s.rng.z (drawIdx s.zi.length s.rng.pos ns c k) + arSum (A c) ((row.take k).reverse ++ z.2))
  | [], s, _ => by
    refine ⟨s, [], rfl, ?_⟩
    intro c hc z hz
    refine ⟨[], ?_, rfl, by simp⟩
    unfold joinBlocks
    rw [List.getElem?_map, List.getElem?_range hc]
    rfl
  | n :: ns, s, hstep => by
    obtain ⟨s1, out, g1, g2, g3, g4, g5, g6, g7, g8⟩ := filtNoise_get_ar A hstep n
    obtain ⟨s', bs, h1, h2⟩ := filtNoise_requests_ar A ns (s := s1) (by rw [g3, g4]; exact hstep)
    refine ⟨s', out :: bs, by simp only [runRequests, g1, h1], ?_⟩
    intro c hc z hz
    obtain ⟨row1, z1, k1, k2, k3, k4, k5⟩ := g8 c hc z hz
    obtain ⟨row2, l1, l2, l3⟩ := h2 c (by rw [g4]; exact hc) z1 k2
    refine ⟨row1 ++ row2, ?_, by simp [k3, l2], ?_⟩
    · unfold joinBlocks at l1 ⊢
      rw [List.getElem?_map, List.getElem?_range (by rw [g4]; exact hc), Option.map_some] at l1
      rw [List.getElem?_map, List.getElem?_range hc, Option.map_some]
      rw [List.map_cons, List.flatten_cons, Option.some.inj l1, List.getD_eq_getElem?_getD, k1]
      rfl
    · intro k hk
      unfold drawIdx
      split
      · next hkn =>
        rw [List.getElem?_append_left (by omega), k5 k hkn, List.take_append_of_le_length (by omega)]
      · next hkn =>
        rw [List.getElem?_append_right (by omega), k3]
        rw [List.sum_cons] at hk
        rw [l3 (k - n) (by omega), g2, g4, g5, g6, List.take_append, List.take_of_length_le (l := row1) (by omega),
          k4, k3, List.reverse_append, List.append_assoc]

end
end Verif

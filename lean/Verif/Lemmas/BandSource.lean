/-
Linear filters and the calls of a band-limited noise source.
-/
import Verif.Model.BandSource
import Verif.Lemmas.Sources
import Verif.Spec.BandSource
import Mathlib.Algebra.BigOperators.Group.Finset.Basic
import Mathlib.Data.List.GetD
namespace Verif

section
variable {Z : Type} [AddCommGroup Z] [Module ℝ Z]

theorem filtIter_linear (L : Z × ℝ →ₗ[ℝ] Z × ℝ) (z0 : Z) (x : Nat → ℝ) : ∀ k,
    filtIter (fun z x => L (z, x)) z0 x k = filtIter (fun z x => L (z, x)) z0 (fun _ => 0) k +
      ∑ j ∈ Finset.range k, x j • impulseState L (k - 1 - j)
  | 0 => by simp [filtIter]
  | k + 1 => by
    have ih := filtIter_linear L z0 x k
    simp only [filtIter]
    have e : (filtIter (fun z x => L (z, x)) z0 x k, x k) =
        (filtIter (fun z x => L (z, x)) z0 (fun _ => 0) k, (0 : ℝ)) +
          (∑ j ∈ Finset.range k, x j • (impulseState L (k - 1 - j), (0 : ℝ)) + x k • ((0 : Z), (1 : ℝ))) := by
      rw [ih]
      refine Prod.ext ?_ ?_
      · simp [Prod.fst_sum]
      · simp [Prod.snd_sum]
    rw [e, map_add, map_add, map_sum]
    simp only [map_smul, Prod.fst_add, Prod.fst_sum, Prod.smul_fst]
    rw [Finset.sum_range_succ]
    congr 2
    · refine Finset.sum_congr rfl fun j hj => ?_
      have := Finset.mem_range.1 hj
      have : k + 1 - 1 - j = (k - 1 - j) + 1 := by omega
      rw [this]
      rfl
    · simp [impulseState]

theorem freeState_iter (L : Z × ℝ →ₗ[ℝ] Z × ℝ) (z : Z) : ∀ k,
    freeState L z k = filtIter (fun z x => L (z, x)) z (fun _ => 0) k
  | 0 => rfl
  | k + 1 => by simp only [freeState, filtIter]; rw [freeState_iter L z k]

theorem filter_output (L : Z × ℝ →ₗ[ℝ] Z × ℝ) (z0 : Z) (x : Nat → ℝ) (k : Nat) :
    (L (filtIter (fun z x => L (z, x)) z0 x k, x k)).2 =
      transient L z0 k + ∑ j ∈ Finset.range (k + 1), impulse L (k - j) * x j := by
  have e : (filtIter (fun z x => L (z, x)) z0 x k, x k) =
      (filtIter (fun z x => L (z, x)) z0 (fun _ => 0) k, (0 : ℝ)) +
        (∑ j ∈ Finset.range k, x j • (impulseState L (k - 1 - j), (0 : ℝ)) + x k • ((0 : Z), (1 : ℝ))) := by
    rw [filtIter_linear L z0 x k]
    refine Prod.ext ?_ ?_
    · simp [Prod.fst_sum]
    · simp [Prod.snd_sum]
  rw [e, map_add, map_add, map_sum]
  simp only [map_smul, Prod.snd_add, Prod.snd_sum, Prod.smul_snd]
  rw [Finset.sum_range_succ, transient, freeState_iter]
  congr 2
  · refine Finset.sum_congr rfl fun j hj => ?_
    have := Finset.mem_range.1 hj
    have : k - j = (k - 1 - j) + 1 := by omega
    rw [this, smul_eq_mul, mul_comm]
    rfl
  · simp [impulse, mul_comm]

theorem impulse_sum (L : Z × ℝ →ₗ[ℝ] Z × ℝ) (z : Z) (g : ℝ) (hz : L (z, 1) = (z, g)) (k : Nat) :
    transient L z k = g - ∑ j ∈ Finset.range (k + 1), impulse L j := by
  have hs : ∀ k, filtIter (fun z x => L (z, x)) z (fun _ => 1) k = z := by
    intro k
    induction k with
    | zero => rfl
    | succ k ih => simp only [filtIter]; rw [ih, hz]
  have := filter_output L z (fun _ => 1) k
  rw [hs k, hz] at this
  have e : ∑ j ∈ Finset.range (k + 1), impulse L (k - j) * (1 : ℝ) = ∑ j ∈ Finset.range (k + 1), impulse L j := by
    rw [← Finset.sum_range_reflect]
    refine Finset.sum_congr rfl fun j hj => ?_
    have := Finset.mem_range.1 hj
    rw [mul_one]
    congr 1
    omega
  rw [e] at this
  dsimp only at this
  linarith

end

section
variable {Z : Type}

theorem filtIter_shift (step : Z → ℝ → Z × ℝ) (z0 : Z) (x : Nat → ℝ) (n : Nat) : ∀ k,
    filtIter step z0 x (n + k) = filtIter step (filtIter step z0 x n) (fun j => x (n + j)) k
  | 0 => rfl
  | k + 1 => by
    show (step (filtIter step z0 x (n + k)) (x (n + k))).1 = _
    rw [filtIter_shift step z0 x n k]
    rfl

theorem filtIter_congr (step : Z → ℝ → Z × ℝ) (z0 : Z) (x y : Nat → ℝ) : ∀ k, (∀ j < k, x j = y j) →
    filtIter step z0 x k = filtIter step z0 y k
  | 0, _ => rfl
  | k + 1, h => by
    simp only [filtIter]
    rw [filtIter_congr step z0 x y k fun j hj => h j (by omega), h k (by omega)]

/-- The number of the draw that sample `k` of channel `c` is made of. -/
def bandDraw (ch : Nat) : List SrcOp → Nat → Nat → Nat → Nat
  | [], _, _, _ => 0
  | .get n :: ops, pos, c, k => if k < n then pos + (c * n + k) else bandDraw ch ops (pos + ch * n) c (k - n)
  | .power _ :: ops, pos, c, k => bandDraw ch ops pos c k

theorem bandDraw_ge (ch : Nat) : ∀ (ops : List SrcOp) (pos c k p), c < ch → k < (powersOf p ops).length →
    pos ≤ bandDraw ch ops pos c k
  | [], pos, c, k, p, _, h => by simp [powersOf] at h
  | .get n :: ops, pos, c, k, p, hc, h => by
    unfold bandDraw
    split
    · omega
    · simp only [powersOf, List.length_append, List.length_replicate] at h
      have := bandDraw_ge ch ops (pos + ch * n) c (k - n) p hc (by omega)
      omega
  | .power (.num q) :: ops, pos, c, k, p, hc, h => bandDraw_ge ch ops pos c k q hc h
  | .power (.vec _) :: ops, pos, c, k, p, hc, h => bandDraw_ge ch ops pos c k p hc h

theorem bandDraw_inj (ch : Nat) : ∀ (ops : List SrcOp) (pos c k c' k' : Nat) (p : ℝ), c < ch → c' < ch →
    k < (powersOf p ops).length → k' < (powersOf p ops).length →
    bandDraw ch ops pos c k = bandDraw ch ops pos c' k' → c = c' ∧ k = k'
  | [], pos, c, k, c', k', p, _, _, h, _, _ => by simp [powersOf] at h
  | .get n :: ops, pos, c, k, c', k', p, hc, hc', h, h', e => by
    simp only [powersOf, List.length_append, List.length_replicate] at h h'
    unfold bandDraw at e
    by_cases h1 : k < n <;> by_cases h2 : k' < n
    · rw [if_pos h1, if_pos h2] at e
      have e' : c * n + k = c' * n + k' := by omega
      have hn : 0 < n := by omega
      have hm := congrArg (· % n) e'
      simp only [Nat.mul_add_mod_self_right, Nat.mod_eq_of_lt h1, Nat.mod_eq_of_lt h2] at hm
      subst hm
      exact ⟨Nat.eq_of_mul_eq_mul_right hn (by omega), rfl⟩
    · rw [if_pos h1, if_neg h2] at e
      have := bandDraw_ge ch ops (pos + ch * n) c' (k' - n) p hc' (by omega)
      have hlt : c * n + k < ch * n := by
        have : (c + 1) * n ≤ ch * n := Nat.mul_le_mul_right n hc
        rw [Nat.add_mul] at this
        omega
      omega
    · rw [if_neg h1, if_pos h2] at e
      have := bandDraw_ge ch ops (pos + ch * n) c (k - n) p hc (by omega)
      have hlt : c' * n + k' < ch * n := by
        have : (c' + 1) * n ≤ ch * n := Nat.mul_le_mul_right n hc'
        rw [Nat.add_mul] at this
        omega
      omega
    · rw [if_neg h1, if_neg h2] at e
      have := bandDraw_inj ch ops (pos + ch * n) c (k - n) c' (k' - n) p hc hc' (by omega) (by omega) e
      omega
  | .power (.num q) :: ops, pos, c, k, c', k', p, hc, hc', h, h', e => bandDraw_inj ch ops pos c k c' k' q hc hc' h h' e
  | .power (.vec _) :: ops, pos, c, k, c', k', p, hc, hc', h, h', e => bandDraw_inj ch ops pos c k c' k' p hc hc' h h' e

/-- The input of the filter of channel `c`: scaled draws. -/
noncomputable def bandInput (tp : ℝ) (z : Nat → ℝ) (ch : Nat) (ops : List SrcOp) (p : ℝ) (pos c j : Nat) : ℝ :=
  Real.sqrt ((powersOf p ops).getD j 0 / tp) * z (bandDraw ch ops pos c j)

theorem band_ops (step : Z → ℝ → Z × ℝ) (tp : ℝ) (z : Nat → ℝ) (ch : Nat) : ∀ (ops : List SrcOp) (p : ℝ) (pos : Nat)
    (zs : Nat → Z), (∀ q, SrcOp.power q ∈ ops → ∃ r, q = .num r) →
    ∃ s bs, runOps BandObj.get BandObj.setPower ⟨.num p, tp, step, (List.range ch).map zs, ⟨z, pos⟩⟩ ops = .ok (s, bs) ∧
      joinBlocks ch bs = (List.range ch).map fun c => (List.range (powersOf p ops).length).map fun k =>
        (step (filtIter step (zs c) (bandInput tp z ch ops p pos c) k) (bandInput tp z ch ops p pos c k)).2
  | [], p, pos, zs, _ => ⟨_, _, rfl, by simp [joinBlocks, powersOf]⟩
  | .power (.vec l) :: ops, p, pos, zs, h => by
    obtain ⟨r, hr⟩ := h (.vec l) (by simp)
    cases hr
  | .power (.num q) :: ops, p, pos, zs, h => by
    obtain ⟨s, bs, h1, h2⟩ := band_ops step tp z ch ops q pos zs fun r hr => h r (by simp [hr])
    refine ⟨s, bs, ?_, h2⟩
    simp only [runOps, BandObj.setPower]
    exact h1
  | .get n :: ops, p, pos, zs, h => by
    obtain ⟨zs', hz'⟩ : ∃ zs' : Nat → Z, zs' = fun c => filtIter step (zs c) (bandInput tp z ch (.get n :: ops) p pos c) n :=
      ⟨_, rfl⟩
    obtain ⟨s, bs, h1, h2⟩ := band_ops step tp z ch ops p (pos + ch * n) zs' fun r hr => h r (by simp [hr])
    have hin : ∀ c j, j < n → bandInput tp z ch (.get n :: ops) p pos c j = Real.sqrt (p / tp) * z (pos + c * n + j) := by
      intro c j hj
      unfold bandInput powersOf bandDraw
      rw [if_pos hj, List.getD_append _ _ _ _ (by simpa using hj)]
      rw [List.getD_eq_getElem _ _ (by simpa using hj), List.getElem_replicate, Nat.add_assoc]
    have hin' : ∀ c j, bandInput tp z ch (.get n :: ops) p pos c (n + j) = bandInput tp z ch ops p (pos + ch * n) c j := by
      intro c j
      unfold bandInput
      have e1 : bandDraw ch (.get n :: ops) pos c (n + j) = bandDraw ch ops (pos + ch * n) c j := by
        show (if n + j < n then _ else _) = _
        rw [if_neg (by omega)]
        congr 1
        omega
      rw [e1]
      congr 3
      show (List.replicate n p ++ powersOf p ops).getD (n + j) 0 = _
      rw [List.getD_append_right _ _ _ _ (by simp)]
      congr 1
      simp
    have hget : BandObj.get ⟨.num p, tp, step, (List.range ch).map zs, ⟨z, pos⟩⟩ n = .ok
        (⟨.num p, tp, step, (List.range ch).map zs', ⟨z, pos + ch * n⟩⟩,
          (List.range ch).map fun c => (List.range n).map fun k =>
            (step (filtIter step (zs c) (bandInput tp z ch (.get n :: ops) p pos c) k)
              (bandInput tp z ch (.get n :: ops) p pos c k)).2) := by
      have hrow : ∀ c, filtRow step (zs c) ((List.range n).map fun j => Real.sqrt (p / tp) * z (pos + c * n + j)) =
          (zs' c, (List.range n).map fun k => (step (filtIter step (zs c) (bandInput tp z ch (.get n :: ops) p pos c) k)
            (bandInput tp z ch (.get n :: ops) p pos c k)).2) := by
        intro c
        have := filtRow_iter step (zs c) (bandInput tp z ch (.get n :: ops) p pos c) n 0
        simp only [Nat.zero_add] at this
        have e0 : filtIter step (zs c) (bandInput tp z ch (.get n :: ops) p pos c) 0 = zs c := rfl
        rw [e0] at this
        rw [hz']
        dsimp only
        rw [← this]
        congr 1
        exact List.map_congr_left fun j hj => (hin c j (List.mem_range.1 hj)).symm
      unfold BandObj.get
      simp only [Rng.normal, List.length_map, List.length_range, scalePower]
      have hz : ((List.range ch).map zs).zip (((List.range ch).map fun i => (List.range n).map fun j =>
          z (pos + i * n + j)).map fun row => row.map fun x => Real.sqrt (p / tp) * x) =
          (List.range ch).map fun c => (zs c, (List.range n).map fun j => Real.sqrt (p / tp) * z (pos + c * n + j)) := by
        rw [List.map_map, List.zip_map']
        refine List.map_congr_left fun c _ => ?_
        simp [Function.comp]
      rw [hz]
      simp only [List.map_map, Function.comp_def, hrow]
    refine ⟨s, ((List.range ch).map fun c => (List.range n).map fun k =>
            (step (filtIter step (zs c) (bandInput tp z ch (.get n :: ops) p pos c) k)
              (bandInput tp z ch (.get n :: ops) p pos c k)).2) :: bs, ?_, ?_⟩
    · simp only [runOps]
      rw [hget]
      dsimp only
      rw [h1]
    · unfold joinBlocks at h2 ⊢
      refine List.map_congr_left fun c hc => ?_
      have hc' := List.mem_range.1 hc
      simp only [List.map_cons, List.flatten_cons]
      have h2c : (bs.map fun b => b.getD c []).flatten = (List.range (powersOf p ops).length).map fun k =>
          (step (filtIter step (zs' c) (bandInput tp z ch ops p (pos + ch * n) c) k)
            (bandInput tp z ch ops p (pos + ch * n) c k)).2 := by
        have := congrArg (fun l => l.getD c []) h2
        simpa [List.getD_eq_getElem?_getD, hc'] using this
      rw [h2c]
      have hlen : (powersOf p (.get n :: ops)).length = n + (powersOf p ops).length := by simp [powersOf]
      rw [hlen, List.range_add, List.map_append, List.map_map]
      congr 1
      · simp [List.getD_eq_getElem?_getD, hc']
      · refine List.map_congr_left fun k _ => ?_
        simp only [Function.comp]
        rw [filtIter_shift, hin', hz']
        simp only [hin']

end
end Verif

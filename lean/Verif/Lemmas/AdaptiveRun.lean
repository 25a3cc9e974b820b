/-
A whole run with the processor `FxLMS`, on the tape.
-/
import Verif.Lemmas.Adaptive
import Verif.Lemmas.Mic
import Verif.Lemmas.TapeMic
namespace Verif

section
variable {R : Type} [Field R]

theorem lmsWeight_congr {norm : FxNorm} {β : R} {nr nl ne L ub : Nat} {X X' : Nat → Nat → Nat → Int → R} {t0 t : Int}
    (h : ∀ r < nr, ∀ l < nl, ∀ m < ne, ∀ x : Int, x < t0 + ub → X r l m x = X' r l m x) (ht : t < t0 + ub) :
    lmsWeight norm β nr nl ne L ub X t0 t = lmsWeight norm β nr nl ne L ub X' t0 t := by
  unfold lmsWeight
  cases norm with
  | none => rfl
  | sample =>
    simp only
    congr 2
    refine Finset.sum_congr rfl fun r hr => Finset.sum_congr rfl fun l hl => Finset.sum_congr rfl fun m hm =>
      Finset.sum_congr rfl fun k _ => ?_
    rw [Finset.mem_range] at hr hl hm
    rw [h r hr l hl m hm _ (by omega)]
  | block =>
    simp only
    congr 2
    refine Finset.sum_congr rfl fun r hr => Finset.sum_congr rfl fun l hl => Finset.sum_congr rfl fun m hm =>
      Finset.sum_congr rfl fun k hk => ?_
    rw [Finset.mem_range] at hr hl hm hk
    rw [h r hr l hl m hm _ (by omega)]

theorem lmsGrad_congr {norm : FxNorm} {β : R} {nr nl ne L ub : Nat} {X X' : Nat → Nat → Nat → Int → R}
    {e e' : Nat → Int → R} {t0 : Int}
    (h : ∀ r < nr, ∀ l < nl, ∀ m < ne, ∀ x : Int, x < t0 + ub → X r l m x = X' r l m x)
    (he : ∀ m < ne, ∀ x : Int, x < t0 + ub → e m x = e' m x) {r l : Nat} (hr : r < nr) (hl : l < nl) (k : Nat) :
    lmsGrad norm β nr nl ne L ub X e t0 r l k = lmsGrad norm β nr nl ne L ub X' e' t0 r l k := by
  unfold lmsGrad
  refine Finset.sum_congr rfl fun i hi => ?_
  rw [Finset.mem_range] at hi
  rw [lmsWeight_congr h (by omega)]
  congr 1
  refine Finset.sum_congr rfl fun m hm => ?_
  rw [Finset.mem_range] at hm
  rw [h r hr l hl m hm _ (by omega), he m hm _ (by omega)]

/-! ### Signals counted in steps -/

/-- The input of the secondary paths, of which the last `a` samples before time 0 are left out. -/
def secIn (a bs : Nat) (ρ : Nat → Int → R) : Nat → Int → R :=
  fun c t => if t < -(a : Int) then ρ c t else ρ c (t + a + (bs - 1))

/-- The stored filtered reference. -/
def stepXf (S : IrMat R) (a bs : Nat) (ρ : Nat → Int → R) (r l m : Nat) (t : Int) : R :=
  if t < -(a : Int) then filteredRef S bs (secIn a bs ρ) r l m t
  else if t < (bs : Int) - 1 then 0
  else filteredRef S bs (secIn a bs ρ) r l m (t - a - (bs - 1))

/-- The reference from time 0 on. -/
def fromZero (ρ : Nat → Int → R) : Nat → Int → R := fun c t => if t < -1 then 0 else ρ c t

/-- The taps after `j` updates. -/
def stepTaps (q : FxPar R) (S : IrMat R) (a : Nat) (ρ e : Nat → Int → R) : Nat → Nat → Nat → Nat → R :=
  lmsTaps q.norm q.beta q.mu q.nr q.nl q.ne q.L q.ub (q.bs - 1) (stepXf S a q.bs ρ) e

/-- The number of updates in `c` calls. -/
def updates (q : FxPar R) (c : Nat) : Nat := (c - 1) * q.bs / q.ub

/-- The loudspeaker signal. -/
def stepOut (q : FxPar R) (S : IrMat R) (a : Nat) (ρ e : Nat → Int → R) (l : Nat) (t : Int) : R :=
  ∑ r ∈ Finset.range q.nr, ∑ k ∈ Finset.range q.L,
    stepTaps q S a ρ e (updates q ((t + 1).toNat / q.bs - 1)) r l k * fromZero ρ r (t - q.bs - k)

omit [Field R] in
theorem updates_succ (q : FxPar R) (hbs : 0 < q.bs) (hub : 0 < q.ub) (hd : q.bs ∣ q.ub) (c : Nat) :
    updates q (c + 1) = updates q c + if 0 < c ∧ q.ub ∣ c * q.bs then 1 else 0 := by
  unfold updates
  obtain ⟨w, hw⟩ := hd
  have hw0 : 0 < w := by
    rcases Nat.eq_zero_or_pos w with h | h
    · rw [h, Nat.mul_zero] at hw; omega
    · exact h
  have hdiv : ∀ x, x * q.bs / q.ub = x / w := by
    intro x
    rw [hw, Nat.mul_comm x, Nat.mul_div_mul_left _ _ hbs]
  have hdvd : q.ub ∣ c * q.bs ↔ w ∣ c := by
    rw [hw, Nat.mul_comm c]
    exact Nat.mul_dvd_mul_iff_left hbs
  rw [hdiv, hdiv, Nat.add_sub_cancel]
  cases c with
  | zero => simp
  | succ c =>
    rw [Nat.add_sub_cancel, Nat.succ_div]
    by_cases h : w ∣ c + 1
    · rw [if_pos h, if_pos ⟨by omega, hdvd.2 h⟩]
    · rw [if_neg h, if_neg fun hh => h (hdvd.1 hh.2)]

omit [Field R] in
/-- At an update, the calls so far. -/
theorem updates_at (q : FxPar R) (hbs : 0 < q.bs) (hub : 0 < q.ub) (hd : q.bs ∣ q.ub) {c : Nat} (h0 : 0 < c)
    (h : q.ub ∣ c * q.bs) : c * q.bs = (updates q c + 1) * q.ub := by
  have h1 := updates_succ q hbs hub hd c
  rw [if_pos ⟨h0, h⟩] at h1
  rw [← h1]
  unfold updates
  rw [Nat.add_sub_cancel, Nat.div_mul_cancel h]

/-- Rows of the secondary path filter. -/
theorem secOut_eq {q : FxPar R} {S : IrMat R} {u : Nat → Int → R} {n : Int} {len : Nat} {hist : List (List R)}
    (hh : HistIs hist q.nr u n len) (hz : ∀ c < q.nr, ∀ t, t < n - len → u c t = 0) {r l m : Nat} (hr : r < q.nr)
    (hl : l < q.nl) (hm : m < q.ne) :
    firOut (fxSecIr q S) hist (fxRow q r l m) = filteredRef S q.bs u r l m (n - 1) := by
  rw [firOut_hist (fxSecIr q S) hh hz]
  have hl0 : 0 < q.nl := by omega
  have hm0 : 0 < q.ne := by omega
  have e1 : fxRow q r l m % q.ne = m := by
    unfold fxRow; rw [Nat.mul_comm, Nat.mul_add_mod, Nat.mod_eq_of_lt hm]
  have e2 : fxRow q r l m / q.ne = r * q.nl + l := by
    unfold fxRow; rw [Nat.mul_comm, Nat.mul_add_div hm0, Nat.div_eq_of_lt hm, Nat.add_zero]
  have e3 : fxRow q r l m / q.ne % q.nl = l := by
    rw [e2, Nat.mul_comm, Nat.mul_add_mod, Nat.mod_eq_of_lt hl]
  have e4 : fxRow q r l m / (q.nl * q.ne) = r := by
    rw [Nat.mul_comm q.nl, ← Nat.div_div_eq_div_mul, e2, Nat.mul_comm, Nat.mul_add_div hl0, Nat.div_eq_of_lt hl, Nat.add_zero]
  have hir : ∀ s, (fxSecIr q S).ir s (fxRow q r l m) = if r = s then List.replicate q.bs 0 ++ S.ir l m else [] := by
    intro s
    simp only [fxSecIr, e1, e3, e4]
  show ∑ s ∈ Finset.range q.nr, _ = _
  rw [Finset.sum_eq_single r]
  · rw [hir, if_pos rfl]
    unfold filteredRef
    rw [List.length_append, List.length_replicate, Finset.sum_range_add]
    rw [Finset.sum_eq_zero, zero_add]
    · refine Finset.sum_congr rfl fun x _ => ?_
      rw [List.getD_append_right _ _ _ _ (by simp), List.length_replicate, Nat.add_sub_cancel_left]
      congr 2
      push_cast
      ring
    · intro x hx
      rw [Finset.mem_range] at hx
      rw [List.getD_append _ _ _ _ (by simpa using hx), List.getD_eq_getElem?_getD, List.getElem?_replicate, if_pos hx]
      simp
  · intro s _ hs
    rw [hir, if_neg (fun h => hs h.symm)]
    simp
  · intro h
    exact absurd (Finset.mem_range.2 hr) h

/-- The rows of the output of a block. -/
theorem secBlock {q : FxPar R} {S : IrMat R} {f : Fir R} (hS : f.mat = fxSecIr q S) {u : Nat → Int → R} {n : Int} {len : Nat}
    (hh : HistIs f.hist q.nr u n len) (hz : ∀ c < q.nr, ∀ t, t < n - len → u c t = 0) (w : Nat) (g : Nat → Nat → R)
    (hg : ∀ c < q.nr, ∀ k < w, g c k = u c (n + k)) (hn : 0 < q.nr) {r l m : Nat} (hr : r < q.nr)
    (hl : l < q.nl) (hm : m < q.ne) {k : Nat} (hk : k < w) :
    matVal (f.blockOut (matOf q.nr w g)) (fxRow q r l m) k = filteredRef S q.bs u r l m (n + k) := by
  unfold Fir.blockOut
  rw [numCols_block _ hn, matVal_matOf _ _ _ (by rw [hS]; exact fxRow_lt q hr hl hm) hk, colsOf_block, ← List.map_take,
    List.take_range, Nat.min_eq_left (by omega), hS]
  have h2 := hh.append (k + 1) g fun c hc x hx => hg c hc x (by omega)
  rw [secOut_eq h2 (fun c hc t ht => hz c hc t (by push_cast at ht; omega)) hr hl hm]
  congr 1
  push_cast
  ring

/-- The output of the control filter for a block. -/
theorem ctrlBlock {f : Fir R} {nr nl L : Nat} {W : Nat → Nat → Nat → R} (h1 : f.mat.numIn = nr) (h2 : f.mat.numOut = nl)
    (hW : ∀ r < nr, ∀ l < nl, f.mat.ir r l = (List.range L).map fun k => W r l k) {u : Nat → Int → R} {n : Int} {len : Nat}
    (hh : HistIs f.hist nr u n len) (hz : ∀ c < nr, ∀ t, t < n - len → u c t = 0) (w : Nat) (g : Nat → Nat → R)
    (hg : ∀ c < nr, ∀ k < w, g c k = u c (n + k)) (hn : 0 < nr) {l : Nat} (hl : l < nl) {k : Nat} (hk : k < w) :
    matVal (f.blockOut (matOf nr w g)) l k =
      ∑ r ∈ Finset.range nr, ∑ x ∈ Finset.range L, W r l x * u r (n + k - x) := by
  unfold Fir.blockOut
  rw [numCols_block _ hn, matVal_matOf _ _ _ (by omega) hk, colsOf_block, ← List.map_take,
    List.take_range, Nat.min_eq_left (by omega)]
  have h3 := hh.append (k + 1) g fun c hc x hx => hg c hc x (by omega)
  rw [firOut_hist f.mat (u := u) (n := n + (k + 1 : Nat)) (len := k + 1 + len) (by rw [h1]; exact h3)
    (fun c hc t ht => hz c (by omega) t (by push_cast at ht; omega)), h1]
  refine Finset.sum_congr rfl fun r hr => ?_
  rw [Finset.mem_range] at hr
  rw [hW r hr l hl, List.length_map, List.length_range]
  refine Finset.sum_congr rfl fun x hx => ?_
  rw [Finset.mem_range] at hx
  rw [List.getD_eq_getElem?_getD, List.getElem?_map, List.getElem?_range hx]
  simp only [Option.map_some, Option.getD_some]
  congr 2
  push_cast
  ring

/-- The taps after one more gradient. -/
theorem stepUpd {q : FxPar R} {f : Fir R} {W : Nat → Nat → Nat → R} {T : Tape R} {n : Int} {r l : Nat} (hr : r < q.nr)
    (hl : l < q.nl) (hW : f.mat.ir r l = (List.range q.L).map fun k => W r l k) :
    (fxStep q.mu f (tapeGrads q T n)).mat.ir r l = (List.range q.L).map fun k => W r l k -
      lmsGrad q.norm q.beta q.nr q.nl q.ne q.L q.ub (tapeXf q T) (T "error") (n - q.ub) r l k * q.mu := by
  simp only [fxStep, fxUpdate, tapeGrads, hW]
  rw [List.getD_eq_getElem?_getD, List.getD_eq_getElem?_getD, List.getElem?_map, List.getElem?_range hr]
  simp only [Option.map_some, Option.getD_some]
  rw [List.getElem?_map, List.getElem?_range hl]
  simp only [Option.map_some, Option.getD_some]
  rw [List.zipWith_map, List.zipWith_self]

/-- What holds after `k` steps, if the reference and the error signals of the whole run
are `ρ` and `e`; `B` samples before time 0 have gone through the secondary paths, `a` have not. -/
structure AInv (q : FxPar R) (S : IrMat R) (a B : Nat) (ρ e : Nat → Int → R) (k : Nat) (p : FxSt R) (T : Tape R) : Prop where
  idx : p.cnt.idx = ((k / q.bs * q.bs : Nat) : Int)
  event : "update_filter" ∈ p.cnt.event ↔ 0 < k / q.bs ∧ q.ub ∣ k / q.bs * q.bs
  chist : HistIs p.ctrl.hist q.nr (fromZero ρ) ((k / q.bs * q.bs : Nat) - 1) (k / q.bs * q.bs)
  taps : ∀ r < q.nr, ∀ l < q.nl, p.ctrl.mat.ir r l =
    (List.range q.L).map fun x => stepTaps q S a ρ e (updates q (k / q.bs)) r l x
  shist : HistIs p.sec.hist q.nr (secIn a q.bs ρ) (((updates q (k / q.bs) * q.ub : Nat) : Int) - a)
    (B + updates q (k / q.bs) * q.ub)
  smat : p.sec.mat = fxSecIr q S
  xf : ∀ r < q.nr, ∀ l < q.nl, ∀ m < q.ne, ∀ t : Int, tapeXf q T r l m t =
    if t < (updates q (k / q.bs) * q.ub : Nat) + q.bs - 1 then stepXf S a q.bs ρ r l m t else 0
  ls : ∀ l < q.nl, ∀ t : Int, t < (k / q.bs * q.bs : Nat) + q.bs - 1 → T "loudspeaker" l t =
    if t < (q.bs : Int) - 1 then 0 else stepOut q S a ρ e l t
  good : FxGood q p

/-- A call of the processor at step `k`. -/
theorem AInv.call {q : FxPar R} {S : IrMat R} {a B : Nat} {ρ e : Nat → Int → R} {k : Nat} {p : FxSt R} {T : Tape R}
    (hd : 0 < q.nr ∧ 0 < q.bs ∧ 0 < q.ub ∧ q.bs ∣ q.ub) (hz : ∀ c < q.nr, ∀ t : Int, t < -(B : Int) - a → ρ c t = 0)
    (hρ : ∀ c < q.nr, ∀ t : Int, t < k → T "ref" c t = ρ c t) (he : ∀ c < q.ne, ∀ t : Int, t < k → T "error" c t = e c t)
    (h : AInv q S a B ρ e k p T) (hk : k % q.bs = q.bs - 1) :
    AInv q S a B ρ e (k + 1) (fxAct q p T k).1 (fxAct q p T k).2 := by
  obtain ⟨hnr, hbs, hub, hdv⟩ := hd
  obtain ⟨c, hc⟩ : ∃ c, k / q.bs = c := ⟨_, rfl⟩
  have hkc : k = c * q.bs + (q.bs - 1) := by
    have h1 := Nat.div_add_mod k q.bs
    rw [Nat.mul_comm, hc] at h1; omega
  have hdiv : (k + 1) / q.bs = c + 1 := by
    have : k + 1 = q.bs * (c + 1) := by rw [Nat.mul_add, Nat.mul_comm]; omega
    rw [this, Nat.mul_div_cancel_left _ hbs]
  have hnext : (c + 1) * q.bs = c * q.bs + q.bs := by rw [Nat.add_mul, Nat.one_mul]
  have hI := h
  obtain ⟨i1, i2, i3, i4, i5, i6, i7, i8, i9⟩ := h
  rw [hc] at i1 i2 i3 i4 i5 i7 i8
  have hus := updates_succ q hbs hub hdv c
  -- the loudspeaker block
  have hblock : ∀ c' < q.nr, ∀ x < q.bs, T "ref" c' ((k : Int) - q.bs + x) = fromZero ρ c' (((c * q.bs : Nat) : Int) - 1 + x) := by
    intro c' hc' x hx
    unfold fromZero
    rw [if_neg (by omega), hρ c' hc' _ (by omega)]
    congr 1
    omega
  have hz0 : ∀ c' < q.nr, ∀ t : Int, t < ((c * q.bs : Nat) : Int) - 1 - ((c * q.bs : Nat) : Int) → fromZero ρ c' t = 0 := by
    intro c' _ t ht
    unfold fromZero
    rw [if_pos (by omega)]
  have hgen : ∀ l < q.nl, ∀ t : Int, (k : Int) ≤ t → t < k + q.bs →
      (fxGen q p T k).2 "loudspeaker" l t = stepOut q S a ρ e l t := by
    intro l hl t h1 h2
    have hx : (t - k).toNat < q.bs := by omega
    simp only [fxGen, Tape.write]
    rw [if_pos ⟨trivial, h1, h2⟩]
    rw [show refBlock q T k q.bs = matOf q.nr q.bs fun c x => T "ref" c ((k : Int) - q.bs + x) from rfl,
      ctrlBlock (nr := q.nr) (nl := q.nl) (L := q.L) (W := stepTaps q S a ρ e (updates q c)) i9.cIn i9.cOut i4 i3 hz0 q.bs _
        hblock hnr hl hx]
    unfold stepOut
    have hcall : (t + 1).toNat / q.bs - 1 = c := by
      have : (t + 1).toNat = q.bs * (c + 1) + (t - k).toNat := by
        rw [Nat.mul_comm, hnext]; omega
      rw [this, Nat.mul_add_div hbs, Nat.div_eq_of_lt hx]
      rfl
    rw [hcall]
    refine Finset.sum_congr rfl fun r _ => Finset.sum_congr rfl fun x _ => ?_
    congr 2
    omega
  have hgen' : ∀ nm c' (t : Int), ¬ (nm = "loudspeaker" ∧ (k : Int) ≤ t ∧ t < k + q.bs) →
      (fxGen q p T k).2 nm c' t = T nm c' t := by
    intro nm c' t hh
    simp only [fxGen, Tape.write]
    rw [if_neg hh]
  -- the counter
  have hcnt : (fxAct q p T k).1.cnt = fxCount q p.cnt q.bs := rfl
  have hcidx : (fxCount q p.cnt q.bs).idx = (((c + 1) * q.bs : Nat) : Int) := by
    obtain ⟨b, hb⟩ : ∃ b, q.bs = b + 1 := ⟨q.bs - 1, by omega⟩
    rw [hnext]
    have : (fxCount q p.cnt q.bs).idx = p.cnt.idx + q.bs := by rw [hb]; rfl
    rw [this, i1]
    push_cast; ring
  have hcev : "update_filter" ∈ (fxCount q p.cnt q.bs).event ↔ 0 < c + 1 ∧ q.ub ∣ (c + 1) * q.bs := by
    obtain ⟨b, hb⟩ : ∃ b, q.bs = b + 1 := ⟨q.bs - 1, by omega⟩
    have : (fxCount q p.cnt q.bs).event = if (p.cnt.idx + q.bs - (q.ub : Int)).fmod q.ub = 0 then ["update_filter"] else [] := by
      rw [hb]; rfl
    rw [this, i1]
    have e1 : ((c * q.bs : Nat) : Int) + q.bs - (q.ub : Int) = (((c + 1) * q.bs : Nat) : Int) - q.ub := by
      rw [hnext]; push_cast; ring
    rw [e1]
    have e2 : ((((c + 1) * q.bs : Nat) : Int) - q.ub).fmod q.ub = 0 ↔ q.ub ∣ (c + 1) * q.bs := by
      rw [← Int.natCast_dvd_natCast, ← Int.dvd_iff_fmod_eq_zero]
      exact ⟨fun h => by have := dvd_add h (dvd_refl (q.ub : Int)); rwa [sub_add_cancel] at this,
        fun h => dvd_sub h (dvd_refl _)⟩
    by_cases hx : q.ub ∣ (c + 1) * q.bs
    · rw [if_pos (e2.2 hx)]; simp [hx]
    · rw [if_neg (fun h => hx (e2.1 h))]; simp [hx]
  -- the history of the control filter
  have hch : HistIs (p.ctrl.pushBlock (refBlock q T k q.bs)).hist q.nr (fromZero ρ) (((c + 1) * q.bs : Nat) - 1)
      ((c + 1) * q.bs) := by
    have h1 := i3.append q.bs (fun c x => T "ref" c ((k : Int) - q.bs + x)) hblock
    unfold Fir.pushBlock
    rw [show refBlock q T k q.bs = matOf q.nr q.bs fun c x => T "ref" c ((k : Int) - q.bs + x) from rfl,
      numCols_block _ hnr, colsOf_block]
    simp only
    rw [hnext]
    have e1 : ((c * q.bs + q.bs : Nat) : Int) - 1 = ((c * q.bs : Nat) : Int) - 1 + q.bs := by push_cast; ring
    rw [e1, Nat.add_comm (c * q.bs)]
    exact h1
  have hls : ∀ l < q.nl, ∀ t : Int, t < ((c + 1) * q.bs : Nat) + q.bs - 1 → (fxGen q p T k).2 "loudspeaker" l t =
      if t < (q.bs : Int) - 1 then 0 else stepOut q S a ρ e l t := by
    intro l hl t ht
    rw [hnext] at ht
    by_cases hin : (k : Int) ≤ t
    · rw [if_neg (by omega), hgen l hl t hin (by push_cast at ht; omega)]
    · rw [hgen' _ _ _ (fun hh => hin hh.2.1)]
      exact i8 l hl t (by omega)
  by_cases hev : "update_filter" ∈ p.cnt.event
  · -- an update
    obtain ⟨hc0, hcd⟩ := i2.1 hev
    rw [if_pos ⟨hc0, hcd⟩] at hus
    have hat := updates_at q hbs hub hdv hc0 hcd
    generalize hU : updates q c = U at *
    rw [Nat.add_mul, Nat.one_mul] at hat
    have hmay : fxMaybe q (fxGen q p T k) k = fxUpd q (fxGen q p T k).1 (fxGen q p T k).2 k := by
      unfold fxMaybe; exact if_pos (show "update_filter" ∈ p.cnt.event from hev)
    have href : refBlock q (fxGen q p T k).2 k q.ub = matOf q.nr q.ub fun c x => T "ref" c ((k : Int) - q.ub + x) := by
      unfold refBlock
      exact matOf_congr fun c x _ _ => hgen' _ _ _ (by simp)
    have hsblock : ∀ c' < q.nr, ∀ x < q.ub, T "ref" c' ((k : Int) - q.ub + x) =
        secIn a q.bs ρ c' (((U * q.ub : Nat) : Int) - a + x) := by
      intro c' hc' x hx
      unfold secIn
      rw [if_neg (by omega), hρ c' hc' _ (by omega)]
      congr 1
      omega
    have hsz : ∀ c' < q.nr, ∀ t : Int, t < ((U * q.ub : Nat) : Int) - a - ((B + U * q.ub : Nat) : Int) → secIn a q.bs ρ c' t = 0 := by
      intro c' hc' t ht
      unfold secIn
      rw [if_pos (by omega)]
      exact hz c' hc' t (by omega)
    have hxf : ∀ r < q.nr, ∀ l < q.nl, ∀ m < q.ne, ∀ t : Int,
        tapeXf q (fxUpd q (fxGen q p T k).1 (fxGen q p T k).2 k).2 r l m t =
        if t < ((U + 1) * q.ub : Nat) + q.bs - 1 then stepXf S a q.bs ρ r l m t else 0 := by
      intro r hr l hl m hm t
      rw [Nat.add_mul, Nat.one_mul]
      simp only [tapeXf, fxUpd, Tape.write]
      by_cases hin : (k : Int) - q.ub ≤ t ∧ t < k - q.ub + q.ub
      · rw [if_pos ⟨trivial, hin⟩, if_pos (by push_cast; omega), href]
        have hx : (t - (k - q.ub)).toNat < q.ub := by omega
        rw [show (fxGen q p T k).1.sec = p.sec from rfl,
          secBlock (S := S) i6 i5 hsz q.ub _ hsblock hnr hr hl hm hx]
        unfold stepXf
        rw [if_neg (by omega), if_neg (by omega)]
        congr 1
        omega
      · rw [if_neg (fun hh => hin hh.2), hgen' _ _ _ (by simp)]
        have h1 := i7 r hr l hl m hm t
        unfold tapeXf at h1
        rw [h1]
        by_cases h2 : t < ((U * q.ub : Nat) : Int) + q.bs - 1
        · rw [if_pos h2, if_pos (by push_cast; omega)]
        · rw [if_neg h2, if_neg (by push_cast; omega)]
    have hsig : (fxAct q p T k).2 = (fxUpd q (fxGen q p T k).1 (fxGen q p T k).2 k).2 := by
      show (fxMaybe q (fxGen q p T k) k).2 = _
      rw [hmay]
    have hother : ∀ nm, nm ≠ "xf" → ∀ c' (t : Int), (fxAct q p T k).2 nm c' t = (fxGen q p T k).2 nm c' t := by
      intro nm hnm c' t
      rw [hsig]
      simp only [fxUpd, Tape.write]
      rw [if_neg (fun hh => hnm hh.1)]
    have hctrl : (fxAct q p T k).1.ctrl = fxStep q.mu (p.ctrl.pushBlock (refBlock q T k q.bs))
        (tapeGrads q (fxAct q p T k).2 k) := by
      rw [hsig]
      show (fxMaybe q (fxGen q p T k) k).1.ctrl = _
      rw [hmay]
      rfl
    have hsec : (fxAct q p T k).1.sec = p.sec.pushBlock (matOf q.nr q.ub fun c x => T "ref" c ((k : Int) - q.ub + x)) := by
      show (fxMaybe q (fxGen q p T k) k).1.sec = _
      rw [hmay, ← href]
      rfl
    refine ⟨?_, ?_, ?_, ?_, ?_, ?_, ?_, ?_, fxAct_good i9 _ _⟩
    · rw [hdiv, hcnt, hcidx]
    · rw [hdiv, hcnt, hcev]
    · rw [hdiv, hctrl]; exact hch
    · intro r hr l hl
      rw [hdiv, hus, hctrl, stepUpd (f := p.ctrl.pushBlock (refBlock q T k q.bs)) (W := fun r l x => stepTaps q S a ρ e U r l x) hr hl
        (i4 r hr l hl)]
      refine List.map_congr_left fun x _ => ?_
      show _ = stepTaps q S a ρ e U r l x - lmsGrad _ _ _ _ _ _ _ _ _ _ _ _ _ * _
      congr 2
      have e1 : (k : Int) - q.ub = ((q.bs - 1 + U * q.ub : Nat) : Int) := by omega
      rw [e1]
      refine lmsGrad_congr ?_ ?_ hr hl x
      · intro r hr l hl m hm t ht
        rw [hsig, hxf r hr l hl m hm t, Nat.add_mul, Nat.one_mul, if_pos (by push_cast at ht ⊢; omega)]
      · intro m hm t ht
        rw [hother _ (by decide), hgen' _ _ _ (by simp), he m hm t (by push_cast at ht; omega)]
    · rw [hdiv, hus, hsec]
      have h1 := i5.append q.ub (fun c x => T "ref" c ((k : Int) - q.ub + x)) hsblock
      unfold Fir.pushBlock
      rw [numCols_block _ hnr, colsOf_block]
      simp only
      rw [Nat.add_mul, Nat.one_mul]
      have e1 : ((U * q.ub + q.ub : Nat) : Int) - a = ((U * q.ub : Nat) : Int) - a + q.ub := by push_cast; ring
      rw [e1, show B + (U * q.ub + q.ub) = q.ub + (B + U * q.ub) by omega]
      exact h1
    · rw [hsec]; exact i6
    · intro r hr l hl m hm t
      rw [hdiv, hus, hsig]
      exact hxf r hr l hl m hm t
    · intro l hl t ht
      rw [hdiv] at ht
      rw [hother _ (by decide)]
      exact hls l hl t ht
  · -- no update
    rw [if_neg (fun hh => hev (i2.2 hh)), show updates q c + 0 = updates q c from rfl] at hus
    have hmay : fxMaybe q (fxGen q p T k) k = fxGen q p T k := by
      unfold fxMaybe; exact if_neg (show ¬ "update_filter" ∈ p.cnt.event from hev)
    have hsig : (fxAct q p T k).2 = (fxGen q p T k).2 := by
      show (fxMaybe q (fxGen q p T k) k).2 = _
      rw [hmay]
    have hctrl : (fxAct q p T k).1.ctrl = p.ctrl.pushBlock (refBlock q T k q.bs) := by
      show (fxMaybe q (fxGen q p T k) k).1.ctrl = _
      rw [hmay]
      rfl
    have hsec : (fxAct q p T k).1.sec = p.sec := by
      show (fxMaybe q (fxGen q p T k) k).1.sec = _
      rw [hmay]
      rfl
    refine ⟨?_, ?_, ?_, ?_, ?_, ?_, ?_, ?_, fxAct_good i9 _ _⟩
    · rw [hdiv, hcnt, hcidx]
    · rw [hdiv, hcnt, hcev]
    · rw [hdiv, hctrl]; exact hch
    · intro r hr l hl
      rw [hdiv, hus, hctrl]
      exact i4 r hr l hl
    · rw [hdiv, hus, hsec]; exact i5
    · rw [hsec]; exact i6
    · intro r hr l hl m hm t
      rw [hdiv, hus, hsig, ← i7 r hr l hl m hm t]
      exact hgen' _ _ _ (by simp)
    · intro l hl t ht
      rw [hdiv] at ht
      rw [hsig]
      exact hls l hl t ht

end

section
variable {R IR F S A D O : Type} [Field R] {cfg : SimCfg R IR F S A (FxSt R) D O} {q : FxPar R}

theorem contribName_ne_xf (s m : ArrInfo) : "xf" ≠ contribName s m := by
  intro h
  have h1 := congrArg (fun x => '~' ∈ x.toList) h
  simp [contribName] at h1

theorem xf_unwritten (h : FxScene cfg q) : Unwritten cfg "xf" where
  src := fun a ha he => h.own a (mem_freeOf ha).1 he.symm
  mic := fun p hp he => h.own p.2 (mem_micsOf (mem_combosOf.1 hp).2).1 he.symm
  con := fun _ p _ => contribName_ne_xf p.1 p.2

theorem ls_unwritten (h : FxScene cfg q) (hN : Names cfg) : Unwritten cfg "loudspeaker" := by
  obtain ⟨a, ha, hn, hk, _⟩ := h.ls
  have hs : a ∈ sourcesOf cfg.arrays := by
    unfold sourcesOf; rw [List.mem_filter]; exact ⟨ha, by rw [hk]; rfl⟩
  obtain ⟨n1, n2⟩ := src_ne hN hs
  rw [hn] at n1 n2
  refine ⟨?_, n2, n1⟩
  intro x hx he
  obtain ⟨h3, h4⟩ := mem_freeOf hx
  have := hN.inj a ha x h3 (by rw [hn, he])
  rw [this, h4] at hk
  cases hk

theorem fx_dims (h : FxScene cfg q) (hN : Names cfg) : FxDims q cfg.dims where
  ref := by obtain ⟨a, ha, hn, _, hm⟩ := h.ref; rw [← hn, hN.arr a ha, hm]
  ls := by obtain ⟨a, ha, hn, _, hm⟩ := h.ls; rw [← hn, hN.arr a ha, hm]
  err := by obtain ⟨a, ha, hn, _, hm⟩ := h.err; rw [← hn, hN.arr a ha, hm]
  xf := by
    have hb : ∀ b ∈ cfg.arrays.map (fun a => (a.name, a.num)) ++
        (if cfg.contrib then (combosOf cfg.arrays).map fun p => (contribName p.1 p.2, p.2.num) else []), b.1 ≠ "xf" := by
      intro b hb
      rw [List.mem_append] at hb
      rcases hb with hb | hb
      · rw [List.mem_map] at hb
        obtain ⟨a, ha, rfl⟩ := hb
        exact h.own a ha
      · split at hb
        · rw [List.mem_map] at hb
          obtain ⟨p, _, rfl⟩ := hb
          exact (contribName_ne_xf p.1 p.2).symm
        · cases hb
    unfold SimCfg.dims SimCfg.signalList
    rw [h.proc]
    simp only
    rw [List.find?_append, List.find?_eq_none.2 (fun b hb' => by simpa using hb b hb'), Option.none_or]
    have : (fxProc q).extra = [("xf", q.nr * q.nl * q.ne)] := rfl
    rw [this, List.filter_cons_of_pos]
    · simp
    · simp only [Bool.not_eq_true', List.any_eq_false]
      intro b hb'
      simpa using hb b hb'
  nr := h.nr
  nl := h.nl
  ne := h.ne
  L := h.L
  bs := h.bs
  ub := Nat.le_of_dvd h.ub.1 h.ub.2

theorem fx_sizes (h : FxScene cfg q) (hN : Names cfg) : GSizes cfg (fxTape (fx_dims h hN)) where
  proc := h.proc
  block := h.bs
  buffer := h.buffer.1
  chunk := h.chunk.1
  fits := h.chunk.2
  look := h.buffer.2

theorem fx_past {dims : String → Option Nat} (hd : FxDims q dims) {name : String} (hn : name ≠ "xf") :
    (fxTape hd).Past name := by
  intro p T n c t ht
  exact fxAct_sig q p T n name c t (fun _ => .inl ht) (fun he => absurd he hn)

/-- The state before step 0 on the tape. -/
def fxStart (q : FxPar R) (B : Nat) (e : Eng (Tape R) F S A (FxSt R)) : Eng (Tape R) F S A (FxSt R) :=
  { e with
    sig := e.sig.write "xf" (-(B : Int)) B (e.proc.sec.blockOut (refBlock q e.sig 0 B))
    proc := { e.proc with sec := e.proc.sec.pushBlock (refBlock q e.sig 0 B) } }

theorem fxInit_good (q : FxPar R) (Sp : IrMat R) : FxGood q (fxInit q Sp) :=
  ⟨rfl, rfl, fun _ _ _ _ => by simp [fxInit], rfl, rfl, rfl⟩

/-- What `prepare` of the processor does. -/
theorem fx_prepared (h : FxScene cfg q) (hN : Names cfg) (Sp : IrMat R) {srcs : String → S} {arr : A} {f0 : F}
    {e : Eng (Tape R) F S A (FxSt R)} (he : cfg.tInit srcs arr (fxInit q Sp) f0 = .ok e) :
    fxPrepare e.proc (cut cfg.dims e.sig (-(cfg.B : Int)) (cfg.B + cfg.C)) cfg.B =
      .ok ((fxStart q cfg.B e).proc, cut cfg.dims (fxStart q cfg.B e).sig (-(cfg.B : Int)) (cfg.B + cfg.C)) := by
  have hd := fx_dims h hN
  have hp := tInit_proc hN he
  have hg := fxInit_good q Sp
  rw [← hp] at hg
  unfold fxPrepare
  have hget := sigGet_back e.sig (-(cfg.B : Int)) (cfg.B + cfg.C) cfg.B cfg.B hd.ref (le_refl _) (by omega)
  rw [sub_self] at hget
  rw [hget]
  simp only
  have e1 : (matOf q.nr cfg.B fun c k => e.sig "ref" c (-(cfg.B : Int) + cfg.B - cfg.B + k)) =
      refBlock q e.sig 0 cfg.B := by
    unfold refBlock
    exact matOf_congr fun c k _ _ => congrArg (e.sig "ref" c) (by omega)
  rw [e1, e.proc.sec.process_ok (by rw [hg.sIn]; simp [refBlock, matOf])]
  simp only
  have hout : e.proc.sec.blockOut (refBlock q e.sig 0 cfg.B) = matOf (q.nr * q.nl * q.ne) cfg.B fun m k => firOut e.proc.sec.mat
      (((colsOf (refBlock q e.sig 0 cfg.B) cfg.B).take (k + 1)).reverse ++ e.proc.sec.hist) m := by
    unfold Fir.blockOut
    rw [hg.sOut, show numCols (refBlock q e.sig 0 cfg.B) = cfg.B from numCols_block _ hd.nr]
  unfold fxStart
  simp only
  rw [hout, sigAssign_full e.sig (-(cfg.B : Int)) (cfg.B + cfg.C) 0 cfg.B hd.xf (by omega) _ (by simp) (by simp)]
  simp

/-- The prepared simulation is the tape seen through the buffer. -/
theorem fx_init (h : FxScene cfg q) (Sp : IrMat R) {srcs : String → S} {arr : A} {f0 : F} {ds : List (Diag D)}
    {st0 : SimSt R F S A (FxSt R) D O} (hi : cfg.initWith fxPrepare srcs arr (fxInit q Sp) f0 ds = .ok st0) :
    ∃ hN : Names cfg, ∃ e, cfg.tInit srcs arr (fxInit q Sp) f0 = .ok e ∧
      GInv (fxTape (fx_dims h hN)) (fxStart q cfg.B e) 0 st0 (fxStart q cfg.B e) (-(cfg.B : Int)) 0 := by
  unfold SimCfg.initWith at hi
  split at hi
  · cases hi
  · rename_i st hst
    have hB := h.buffer.1
    have hbs := h.bs
    have hnd := init_nodup cfg hst
    have hN := names_of cfg hnd
    have hd := fx_dims h hN
    refine ⟨hN, ?_⟩
    rw [init_conc cfg (by omega) hnd] at hst
    cases he : cfg.tInit srcs arr (fxInit q Sp) f0 with
    | error x => rw [he] at hst; cases hst
    | ok e =>
      rw [he] at hst
      simp only [Except.map, Except.ok.injEq] at hst
      subst hst
      refine ⟨e, rfl, ?_⟩
      have hp := tInit_proc hN he
      have hprep := fx_prepared h hN Sp he
      simp only [conc] at hi
      rw [hprep] at hi
      simp only [Except.ok.injEq] at hi
      subst hi
      refine ⟨rfl, rfl, rfl, PosInv.start (by rw [(fx_sizes h hN).mbs]; exact h.bs) (by rw [(fx_sizes h hN).mbs]; exact hB),
        ?_, ?_⟩
      · intro nm c t ht
        simp only [fxStart, Tape.write]
        rw [if_neg (by omega)]
        exact tInit_zero cfg he nm c t (by omega)
      · show FxGood q _
        have hg := fxInit_good q Sp
        rw [← hp] at hg
        exact ⟨hg.cIn, hg.cOut, hg.cLen, hg.sIn, hg.sOut, hg.defs⟩

/-- The invariant holds after `B` samples of history have gone through the secondary paths
and `a` have not. -/
theorem AInv.begin {q : FxPar R} (Sp : IrMat R) (hnr : 0 < q.nr) (hbs : 0 < q.bs) (a B : Nat) {T : Tape R} {ρ ε : Nat → Int → R}
    (hz : ∀ c < q.nr, ∀ t : Int, t < -(B : Int) - a → ρ c t = 0)
    (hρ : ∀ c < q.nr, ∀ t : Int, -(B : Int) - a ≤ t → t < -(a : Int) → T "ref" c t = ρ c t)
    (hx0 : ∀ c (t : Int), T "xf" c t = 0) (hl0 : ∀ c (t : Int), T "loudspeaker" c t = 0) :
    AInv q Sp a B ρ ε 0 { fxInit q Sp with sec := (fxInit q Sp).sec.pushBlock (refBlock q T (-(a : Int)) B) }
      (T.write "xf" (-(B : Int) - a) B ((fxInit q Sp).sec.blockOut (refBlock q T (-(a : Int)) B))) := by
  have hg := fxInit_good q Sp
  have hU : updates q 0 = 0 := by simp [updates]
  have hblock : ∀ c < q.nr, ∀ k < B, T "ref" c (-(a : Int) - (B : Int) + k) = secIn a q.bs ρ c (-(B : Int) - a + k) := by
    intro c hc k hk
    unfold secIn
    rw [if_pos (by omega), hρ c hc _ (by omega) (by omega)]
    congr 1
    omega
  have hsz : ∀ c < q.nr, ∀ t : Int, t < -(B : Int) - a - ((0 : Nat) : Int) → secIn a q.bs ρ c t = 0 := by
    intro c hc t ht
    unfold secIn
    rw [if_pos (by omega), hz c hc t (by omega)]
  have hh0 : HistIs (fxInit q Sp).sec.hist q.nr (secIn a q.bs ρ) (-(B : Int) - a) 0 := ⟨rfl⟩
  have hmat : (fxInit q Sp).sec.mat = fxSecIr q Sp := rfl
  refine ⟨?_, ?_, ?_, ?_, ?_, ?_, ?_, ?_, ?_⟩
  · show (fxInit q Sp).cnt.idx = _
    rw [Nat.zero_div, Nat.zero_mul]; rfl
  · show "update_filter" ∈ (fxInit q Sp).cnt.event ↔ _
    rw [Nat.zero_div]
    simp [fxInit, EventSt.init]
  · show HistIs (fxInit q Sp).ctrl.hist _ _ _ _
    rw [Nat.zero_div, Nat.zero_mul]
    exact ⟨rfl⟩
  · intro r _ l _
    show (fxInit q Sp).ctrl.mat.ir r l = _
    rw [Nat.zero_div, hU]
    show List.replicate q.L (0 : R) = (List.range q.L).map fun _ => (0 : R)
    simp
  · show HistIs ((fxInit q Sp).sec.pushBlock (refBlock q T (-(a : Int)) B)).hist _ _ _ _
    rw [Nat.zero_div, hU, Nat.zero_mul, Nat.add_zero]
    have h1 := hh0.append B (fun c k => T "ref" c (-(a : Int) - (B : Int) + k)) hblock
    unfold Fir.pushBlock
    rw [show refBlock q T (-(a : Int)) B = matOf q.nr B fun c k => T "ref" c (-(a : Int) - (B : Int) + k) from rfl,
      numCols_block _ hnr, colsOf_block]
    rw [show -(B : Int) - a + B = ((0 : Nat) : Int) - a by omega, Nat.add_zero] at h1
    exact h1
  · exact hmat
  · intro r hr l hl m hm t
    rw [Nat.zero_div, hU, Nat.zero_mul]
    simp only [tapeXf, Tape.write]
    by_cases hin : -(B : Int) - a ≤ t ∧ t < -(B : Int) - a + B
    · rw [if_pos ⟨trivial, hin⟩]
      by_cases ht : t < ((0 : Nat) : Int) + q.bs - 1
      · rw [if_pos ht, show refBlock q T (-(a : Int)) B = matOf q.nr B fun c k => T "ref" c (-(a : Int) - (B : Int) + k) from rfl,
          secBlock hmat hh0 hsz B _ hblock hnr hr hl hm (by omega)]
        unfold stepXf
        rw [if_pos (by omega)]
        congr 1
        omega
      · push_cast at ht
        omega
    · rw [if_neg (fun hx => hin hx.2), hx0]
      split
      · unfold stepXf
        rename_i ht
        push_cast at ht
        by_cases h0 : t < -(a : Int)
        · rw [if_pos h0]
          unfold filteredRef
          symm
          refine Finset.sum_eq_zero fun x _ => ?_
          rw [hsz r hr _ (by omega), mul_zero]
        · rw [if_neg h0, if_pos (by omega)]
      · rfl
  · intro l hl t ht
    rw [Nat.zero_div, Nat.zero_mul] at ht
    rw [if_pos (by push_cast at ht; omega)]
    simp only [Tape.write]
    rw [if_neg (by simp), hl0]
  · exact ⟨hg.cIn, hg.cOut, hg.cLen, hg.sIn, hg.sOut, hg.defs⟩

/-- The invariant holds at the start. -/
theorem AInv.start (h : FxScene cfg q) (hN : Names cfg) (Sp : IrMat R) {srcs : String → S} {arr : A} {f0 : F}
    {e : Eng (Tape R) F S A (FxSt R)} (he : cfg.tInit srcs arr (fxInit q Sp) f0 = .ok e) {ρ ε : Nat → Int → R}
    (hz : ∀ c < q.nr, ∀ t : Int, t < -(cfg.B : Int) → ρ c t = 0)
    (hρ : ∀ c < q.nr, ∀ t : Int, -(cfg.B : Int) ≤ t → t < 0 → e.sig "ref" c t = ρ c t) :
    AInv q Sp 0 cfg.B ρ ε 0 (fxStart q cfg.B e).proc (fxStart q cfg.B e).sig := by
  have := AInv.begin (ε := ε) Sp h.nr h.bs 0 cfg.B (T := e.sig) (ρ := ρ) (fun c hc t ht => hz c hc t (by omega))
    (fun c hc t h1 h2 => hρ c hc t (by omega) (by omega)) (tInit_unwritten hN he (xf_unwritten h))
    (tInit_unwritten hN he (ls_unwritten h hN))
  rw [show -((0 : Nat) : Int) = 0 by rfl, show -(cfg.B : Int) - ((0 : Nat) : Int) = -(cfg.B : Int) by omega, ← tInit_proc hN he] at this
  exact this

/-- The invariant at every step. -/
theorem AInv.steps (h : FxScene cfg q) (hN : Names cfg) (Sp : IrMat R) {e0 : Eng (Tape R) F S A (FxSt R)} {ρ ε : Nat → Int → R}
    (hz : ∀ c < q.nr, ∀ t : Int, t < -(cfg.B : Int) → ρ c t = 0) (h0 : AInv q Sp 0 cfg.B ρ ε 0 e0.proc e0.sig) :
    ∀ (k : Nat) {te}, cfg.gSteps (fxTape (fx_dims h hN)) k e0 = .ok te →
      (∀ c < q.nr, ∀ t : Int, t < k → te.sig "ref" c t = ρ c t) → (∀ c < q.ne, ∀ t : Int, t < k → te.sig "error" c t = ε c t) →
      AInv q Sp 0 cfg.B ρ ε k te.proc te.sig
  | 0, te, hs, _, _ => by cases hs; exact h0
  | k + 1, te, hs, hρ, he => by
    simp only [SimCfg.gSteps] at hs
    split at hs
    · cases hs
    · rename_i e1 h1
      have hpast : ∀ nm, nm ≠ "xf" → ∀ c (t : Int), t < k → te.sig nm c t = e1.sig nm c t :=
        fun nm hnm c t ht => gEngine_past hs (fx_past _ hnm) c t ht
      have hρ1 : ∀ c < q.nr, ∀ t : Int, t < k → e1.sig "ref" c t = ρ c t := by
        intro c hc t ht
        rw [← hpast _ (by decide) c t ht]
        exact hρ c hc t (by push_cast; omega)
      have he1 : ∀ c < q.ne, ∀ t : Int, t < k → e1.sig "error" c t = ε c t := by
        intro c hc t ht
        rw [← hpast _ (by decide) c t ht]
        exact he c hc t (by push_cast; omega)
      have hI := AInv.steps h hN Sp hz h0 k h1 hρ1 he1
      unfold SimCfg.gEngine at hs
      split at hs
      · cases hs
      · rename_i arr _
        have hproc := tPropagate_proc hs
        have hxf := tPropagate_keeps hs (xf_unwritten h)
        have hls := tPropagate_keeps hs (ls_unwritten h hN)
        have key : AInv q Sp 0 cfg.B ρ ε (k + 1) (cfg.gProc (fxTape (fx_dims h hN)) k { e1 with arr := arr }).proc
            (cfg.gProc (fxTape (fx_dims h hN)) k { e1 with arr := arr }).sig := by
          have hbs := h.bs
          by_cases hm : k % q.bs = q.bs - 1
          · have hgp : cfg.gProc (fxTape (fx_dims h hN)) k { e1 with arr := arr } = { e1 with
                arr := arr, proc := (fxAct q e1.proc e1.sig k).1, sig := (fxAct q e1.proc e1.sig k).2 } := by
              unfold SimCfg.gProc
              exact if_pos hm
            rw [hgp]
            exact hI.call ⟨h.nr, h.bs, h.ub.1, h.ub.2⟩ (fun c hc t ht => hz c hc t (by omega)) hρ1 he1 hm
          · have hgp : cfg.gProc (fxTape (fx_dims h hN)) k { e1 with arr := arr } = { e1 with arr := arr } := by
              unfold SimCfg.gProc
              exact if_neg hm
            rw [hgp]
            have hnext : (k + 1) / q.bs = k / q.bs := by
              rw [Nat.succ_div, if_neg, Nat.add_zero]
              intro hdvd
              have h1 : k % q.bs < q.bs := Nat.mod_lt _ (by omega)
              have h2 := Nat.div_add_mod k q.bs
              have h3 : (k % q.bs + 1) % q.bs = 0 := by
                rw [Nat.mod_add_mod]
                exact Nat.mod_eq_zero_of_dvd hdvd
              rw [Nat.mod_eq_of_lt (by omega)] at h3
              omega
            obtain ⟨i1, i2, i3, i4, i5, i6, i7, i8, i9⟩ := hI
            refine ⟨?_, ?_, ?_, ?_, ?_, i6, ?_, ?_, i9⟩ <;> rw [hnext] <;> assumption
        obtain ⟨i1, i2, i3, i4, i5, i6, i7, i8, i9⟩ := key
        rw [← hproc] at i1 i2 i3 i4 i5 i6 i9
        refine ⟨i1, i2, i3, i4, i5, i6, ?_, ?_, i9⟩
        · intro r hr l hl m hm t
          rw [← i7 r hr l hl m hm t]
          unfold tapeXf
          rw [hxf]
        · intro l hl t ht
          rw [← i8 l hl t ht, hls]

end
end Verif

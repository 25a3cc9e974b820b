/-
The processor `FastBlockFxLMS` beside `FxLMS`.
-/
import Verif.Model.FastBlock
import Verif.Lemmas.AdaptiveReach
import Verif.Lemmas.WithProc
namespace Verif

section
variable {R : Type} [Field R]

/-- The two processors have done the same so far. -/
structure FastRel (q : FxPar R) (S : IrMat R) (p : FxSt R) (p' : FastSt R) : Prop where
  ctrl : p'.ctrl = p.ctrl
  cnt : p'.cnt = p.cnt
  ir : p'.ir = fastSecIr q S
  mat : p.sec.mat = fxSecIr q S
  last : p'.last = matOf q.nr q.L fun c k => (p.sec.hist.getD (q.L - 1 - k) []).getD c 0

theorem getD_replicate_zero (n j : Nat) : (List.replicate n (0 : R)).getD j 0 = 0 := by
  rw [List.getD_eq_getElem?_getD, List.getElem?_replicate]
  split <;> rfl

theorem fastSecIr_getD {q : FxPar R} {S : IrMat R} {l m : Nat} (h : q.bs + (S.ir l m).length ≤ q.L) (j : Nat) :
    (fastSecIr q S l m).getD j 0 = (List.replicate q.bs 0 ++ S.ir l m).getD j 0 := by
  have hlen : (List.replicate q.bs (0 : R) ++ S.ir l m).length = q.bs + (S.ir l m).length := by simp
  unfold fastSecIr
  dsimp only
  generalize List.replicate q.bs (0 : R) ++ S.ir l m = a at *
  have key : ∀ n n' : Nat, (List.take q.L (a ++ List.replicate n (0 : R)) ++ List.replicate n' 0).getD j 0 = a.getD j 0 := by
    intro n n'
    rw [List.take_append, List.take_of_length_le (by omega), List.take_replicate, List.append_assoc, ← List.replicate_add]
    by_cases hj : j < a.length
    · rw [List.getD_append _ _ _ _ hj]
    · rw [List.getD_append_right _ _ _ _ (by omega), getD_replicate_zero, List.getD_eq_getElem?_getD,
        List.getElem?_eq_none (by omega)]
      rfl
  split
  · exact key _ _
  · rw [if_neg (by omega)]
    have := key 0 (a.length - q.L)
    rwa [List.replicate_zero, List.append_nil] at this

theorem colsOf_take_getD {nr w : Nat} (g : Nat → Nat → R) (hist : List (List R)) {s k : Nat} (hs : s < nr) (hk : k < w) (j : Nat) :
    ((((colsOf (matOf nr w g) w).take (k + 1)).reverse ++ hist).getD j []).getD s 0 =
      if j ≤ k then g s (k - j) else (hist.getD (j - k - 1) []).getD s 0 := by
  rw [colsOf_block, ← List.map_take, List.take_range, Nat.min_eq_left (by omega)]
  have hlen : (List.map (fun k => (List.range nr).map fun c => g c k) (List.range (k + 1))).reverse.length = k + 1 := by simp
  split
  · rename_i hj
    rw [List.getD_append _ _ _ _ (by omega), List.getD_eq_getElem?_getD (i := j), List.getElem?_reverse (by simp; omega),
      List.getElem?_map]
    simp only [List.length_map, List.length_range]
    rw [List.getElem?_range (by omega)]
    simp only [Option.map_some, Option.getD_some]
    rw [List.getD_eq_getElem?_getD, List.getElem?_map, List.getElem?_range hs]
    simp only [Option.map_some, Option.getD_some]
    congr 1
  · rw [List.getD_append_right _ _ _ _ (by omega), hlen]
    congr 2

/-- One row of the overlap-save filter and of the filter in the time domain. -/
theorem circConv_firOut {q : FxPar R} {S : IrMat R} (hS : ShortPaths q S) (hist : List (List R)) (g : Nat → Nat → R) {o k : Nat}
    (ho : o < q.nr * q.nl * q.ne) (hk : k < q.L) :
    circConv (2 * q.L) (fastSecIr q S (o / q.ne % q.nl) (o % q.ne))
      ((matOf q.nr q.L fun c k => (hist.getD (q.L - 1 - k) []).getD c 0).getD (o / (q.nl * q.ne)) [] ++
        (matOf q.nr q.L g).getD (o / (q.nl * q.ne)) []) (q.L + k) =
    firOut (fxSecIr q S) (((colsOf (matOf q.nr q.L g) q.L).take (k + 1)).reverse ++ hist) o := by
  have hne : 0 < q.ne := by
    rcases Nat.eq_zero_or_pos q.ne with h | h
    · rw [h, Nat.mul_zero] at ho; omega
    · exact h
  have hnl : 0 < q.nl := by
    rcases Nat.eq_zero_or_pos q.nl with h | h
    · rw [h, Nat.mul_zero, Nat.zero_mul] at ho; omega
    · exact h
  have hs : o / (q.nl * q.ne) < q.nr := by
    rw [Nat.div_lt_iff_lt_mul (Nat.mul_pos hnl hne), ← Nat.mul_assoc]
    exact ho
  generalize hsdef : o / (q.nl * q.ne) = s at *
  have hl := Nat.mod_lt (o / q.ne) hnl
  have hm := Nat.mod_lt o hne
  have hshort := hS _ hl _ hm
  generalize hadef : List.replicate q.bs (0 : R) ++ S.ir (o / q.ne % q.nl) (o % q.ne) = a
  have halen : a.length ≤ q.L := by rw [← hadef]; simpa using hshort
  have haz : ∀ j, a.length ≤ j → a.getD j 0 = 0 := by
    intro j hj
    rw [List.getD_eq_getElem?_getD, List.getElem?_eq_none hj]
    rfl
  have hR : firOut (fxSecIr q S) (((colsOf (matOf q.nr q.L g) q.L).take (k + 1)).reverse ++ hist) o =
      ∑ j ∈ Finset.range q.L, a.getD j 0 * (if j ≤ k then g s (k - j) else (hist.getD (j - k - 1) []).getD s 0) := by
    unfold firOut
    rw [list_sum_range, Finset.sum_eq_single s]
    · have hir : (fxSecIr q S).ir s o = a := by
        simp only [fxSecIr, hsdef, if_true, hadef]
      rw [hir, list_sum_range]
      rw [← Finset.sum_subset (Finset.range_mono halen)]
      · exact Finset.sum_congr rfl fun j _ => by rw [colsOf_take_getD g hist hs hk]
      · intro j _ hj
        rw [Finset.mem_range] at hj
        rw [haz j (by omega), zero_mul]
    · intro s' _ hne
      have hir : (fxSecIr q S).ir s' o = [] := by
        simp only [fxSecIr, hsdef]
        rw [if_neg (fun h => hne h.symm)]
      rw [hir]
      rfl
    · intro h
      exact absurd (Finset.mem_range.2 hs) h
  rw [hR]
  unfold circConv
  rw [list_sum_range, two_mul, Finset.sum_range_add]
  rw [Finset.sum_eq_zero (s := Finset.range q.L) (f := fun x => (fastSecIr q S (o / q.ne % q.nl) (o % q.ne)).getD (q.L + x) 0 * _)
    (by intro x _; rw [fastSecIr_getD hshort, hadef, haz _ (by omega), zero_mul]), add_zero]
  refine Finset.sum_congr rfl fun j hj => ?_
  rw [Finset.mem_range] at hj
  rw [fastSecIr_getD hshort, hadef]
  congr 1
  have hmod : (q.L + k + (q.L + q.L) - j) % (q.L + q.L) = q.L + k - j := by
    rw [show q.L + k + (q.L + q.L) - j = (q.L + k - j) + (q.L + q.L) by omega, Nat.add_mod_right, Nat.mod_eq_of_lt (by omega)]
  rw [hmod, matOf_getRow _ hs, matOf_getRow _ hs]
  split
  · rw [List.getD_append_right _ _ _ _ (by simp; omega), List.length_map, List.length_range, List.getD_eq_getElem?_getD,
      List.getElem?_map, List.getElem?_range (by omega)]
    simp only [Option.map_some, Option.getD_some]
    congr 1
    omega
  · rw [List.getD_append _ _ _ _ (by simp; omega), List.getD_eq_getElem?_getD,
      List.getElem?_map, List.getElem?_range (by omega)]
    simp only [Option.map_some, Option.getD_some]
    rw [show q.L - 1 - (q.L + k - j) = j - k - 1 by omega]

/-- A block through the filters of the secondary paths. -/
theorem FastRel.block {q : FxPar R} {S : IrMat R} {p : FxSt R} {p' : FastSt R} (h : FastRel q S p p') (hS : ShortPaths q S)
    (hn : 0 < q.nr) (g : Nat → Nat → R) :
    osProcess q p'.ir p'.last (matOf q.nr q.L g) = .ok (matOf q.nr q.L g, p.sec.blockOut (matOf q.nr q.L g)) := by
  unfold osProcess
  rw [if_pos ⟨by simp [matOf], by
    intro row hr
    unfold matOf at hr
    rw [List.mem_map] at hr
    obtain ⟨c, _, rfl⟩ := hr
    simp⟩]
  congr 2
  unfold Fir.blockOut
  rw [numCols_block _ hn, h.mat, h.ir, h.last]
  exact matOf_congr fun o k ho hk => circConv_firOut hS _ g ho hk

theorem FastRel.push {q : FxPar R} {S : IrMat R} {p : FxSt R} {p' : FastSt R} (h : FastRel q S p p') (hn : 0 < q.nr)
    (g : Nat → Nat → R) :
    FastRel q S { p with sec := p.sec.pushBlock (matOf q.nr q.L g) } { p' with last := matOf q.nr q.L g } := by
  refine ⟨h.ctrl, h.cnt, h.ir, h.mat, ?_⟩
  dsimp only [Fir.pushBlock]
  rw [numCols_block _ hn]
  refine matOf_congr fun c k hc hk => ?_
  have := colsOf_take_getD g p.sec.hist hc (k := q.L - 1) (w := q.L) (by omega) (q.L - 1 - k)
  rw [if_pos (by omega), List.take_of_length_le (by simp [colsOf]; omega)] at this
  rw [this]
  congr 1
  omega

/-- The correlation of a block without normalisation. -/
def rawGrad (q : FxPar R) (T : Tape R) (n : Int) (r l k : Nat) : R :=
  ∑ m ∈ Finset.range q.ne, ∑ i ∈ Finset.range q.L, T "error" m (n - q.L + i) * T "xf" (fxRow q r l m) (n - q.L + i - k)

theorem fastGrads_eq {q : FxPar R} (T : Tape R) (n : Int) :
    fastGrads q (matOf q.ne q.L fun c k => T "error" c (n - q.L + k))
      (matOf (q.nr * q.nl * q.ne) (2 * q.L) fun c k => T "xf" c (n - (2 * q.L : Nat) + k)) =
    .ok ((List.range q.nr).map fun r => (List.range q.nl).map fun l => (List.range q.L).map fun k => rawGrad q T n r l k) := by
  unfold fastGrads
  refine mapM_all_ok _ fun r hr => mapM_all_ok _ fun l hl => ?_
  rw [List.mem_range] at hr hl
  unfold corrSum
  rw [if_pos]
  · congr 1
    refine List.map_congr_left fun k hk => ?_
    rw [List.mem_range] at hk
    unfold rawGrad
    rw [list_sum_range]
    refine Finset.sum_congr rfl fun m hm => ?_
    rw [Finset.mem_range] at hm
    rw [list_sum_range, two_mul, Finset.sum_range_add, Finset.sum_eq_zero, zero_add]
    · refine Finset.sum_congr rfl fun i hi => ?_
      rw [Finset.mem_range] at hi
      beta_reduce
      rw [matOf_getRow _ hm, matOf_getRow _ (fxRow_lt q hr hl hm), List.getD_append_right _ _ _ _ (by simp),
        List.length_replicate, Nat.add_sub_cancel_left]
      have hmod : (q.L + i + (q.L + q.L) - k) % (q.L + q.L) = q.L + i - k := by
        rw [show q.L + i + (q.L + q.L) - k = (q.L + i - k) + (q.L + q.L) by omega, Nat.add_mod_right,
          Nat.mod_eq_of_lt (by omega)]
      rw [hmod, List.getD_eq_getElem?_getD, List.getElem?_map, List.getElem?_range hi, List.getD_eq_getElem?_getD,
        List.getElem?_map, List.getElem?_range (by omega)]
      simp only [Option.map_some, Option.getD_some]
      congr 2
      omega
    · intro j hj
      rw [Finset.mem_range] at hj
      rw [List.getD_append _ _ _ _ (by simpa using hj), getD_replicate_zero, zero_mul]
  · intro m hm
    rw [List.mem_range] at hm
    beta_reduce
    rw [matOf_getRow _ hm, matOf_getRow _ (fxRow_lt q hr hl hm)]
    simp

theorem fastNorm_eq {q : FxPar R} (T : Tape R) (n t : Int) :
    fastNorm q (matOf (q.nr * q.nl * q.ne) q.L fun c k => T "xf" c (n - q.L + k)) =
      lmsWeight .block q.beta q.nr q.nl q.ne q.L q.L (tapeXf q T) (n - q.L) t := by
  unfold fastNorm lmsWeight
  simp only
  congr 2
  rw [list_sum_range]
  refine Finset.sum_congr rfl fun r hr => ?_
  rw [Finset.mem_range] at hr
  rw [list_sum_range]
  refine Finset.sum_congr rfl fun l hl => ?_
  rw [Finset.mem_range] at hl
  rw [list_sum_range]
  refine Finset.sum_congr rfl fun m hm => ?_
  rw [Finset.mem_range] at hm
  rw [matOf_getRow _ (fxRow_lt q hr hl hm)]
  unfold sumSq
  rw [List.map_map, list_sum_range]
  rfl

theorem getD_map_range {α : Type} {n i : Nat} (f : Nat → α) (d : α) :
    ((List.range n).map f).getD i d = if i < n then f i else d := by
  rw [List.getD_eq_getElem?_getD, List.getElem?_map]
  split
  · rename_i h
    rw [List.getElem?_range h]; rfl
  · rw [List.getElem?_eq_none (by simp; omega)]; rfl

/-- The two steps of the control filter. -/
theorem fastStep_eq {q : FxPar R} (hnorm : q.norm = .block) (hub : q.ub = q.L) (T : Tape R) (n : Int) (f : Fir R) :
    fastStep (q.mu * fastNorm q (matOf (q.nr * q.nl * q.ne) q.L fun c k => T "xf" c (n - q.L + k))) f
      ((List.range q.nr).map fun r => (List.range q.nl).map fun l => (List.range q.L).map fun k => rawGrad q T n r l k) =
    fxStep q.mu f (tapeGrads q T n) := by
  unfold fastStep fxStep
  dsimp only
  congr 2
  funext r l
  unfold fxUpdate tapeGrads
  rw [getD_map_range, getD_map_range]
  split
  · rw [getD_map_range, getD_map_range]
    split
    · rw [List.zipWith_map_right, List.zipWith_map_right]
      congr 1
      funext a k
      congr 1
      rw [fastNorm_eq T n (n - q.L)]
      unfold lmsGrad rawGrad
      rw [hnorm, hub, Finset.sum_comm (s := Finset.range q.ne)]
      have hw : ∀ t, lmsWeight .block q.beta q.nr q.nl q.ne q.L q.L (tapeXf q T) (n - q.L) t =
        lmsWeight .block q.beta q.nr q.nl q.ne q.L q.L (tapeXf q T) (n - q.L) (n - q.L) := fun t => rfl
      have hs : ∑ i ∈ Finset.range q.L, ∑ m ∈ Finset.range q.ne,
          T "error" m (n - q.L + i) * T "xf" (fxRow q r l m) (n - q.L + i - k) =
          ∑ i ∈ Finset.range q.L, ∑ m ∈ Finset.range q.ne, tapeXf q T r l m (n - q.L + i - k) * T "error" m (n - q.L + i) :=
        Finset.sum_congr rfl fun i _ => Finset.sum_congr rfl fun m _ => mul_comm _ _
      rw [hs, Finset.mul_sum, Finset.sum_mul]
      refine Finset.sum_congr rfl fun i _ => ?_
      rw [hw (n - q.L + i)]
      ring
    · simp
  · simp

theorem fastUpdate_cut {q : FxPar R} {S : IrMat R} {dims : String → Option Nat} (hd : FxDims q dims) (hS : ShortPaths q S)
    (hnorm : q.norm = .block) (hub : q.ub = q.L) {p : FxSt R} {p' : FastSt R} (hg : FxGood q p) (h : FastRel q S p p')
    (T : Tape R) (off : Int) (len i : Nat) (hi : 2 * q.L ≤ i) (hL : i ≤ len) :
    ∃ p'', fastUpdateFilter q p' (cut dims T off len) i = .ok (p'', cut dims (fxUpd q p T (off + i)).2 off len) ∧
      FastRel q S (fxUpd q p T (off + i)).1 p'' := by
  have hb : refBlock q T (off + i) q.L = matOf q.nr q.L fun c k => T "ref" c (off + i - q.L + k) := rfl
  have hblk := h.block hS hd.nr fun c k => T "ref" c (off + i - q.L + k)
  rw [← hb] at hblk
  have hw : sigAssign (cut dims T off len) "xf" ((i : Int) - q.L) i (p.sec.blockOut (refBlock q T (off + i) q.L)) =
      .ok (cut dims (fxUpd q p T (off + i)).2 off len) := by
    unfold fxUpd
    simp only
    rw [hub]
    have hout : p.sec.blockOut (refBlock q T (off + i) q.L) = matOf (q.nr * q.nl * q.ne) q.L fun m k => firOut p.sec.mat
        (((colsOf (refBlock q T (off + i) q.L) q.L).take (k + 1)).reverse ++ p.sec.hist) m := by
      unfold Fir.blockOut
      rw [hg.sOut, show numCols (refBlock q T (off + i) q.L) = q.L from numCols_block _ hd.nr]
    rw [hout, sigAssign_full T off len (i - q.L) q.L hd.xf (by omega) _ (by omega) (by omega)]
    rw [show off + ((i - q.L : Nat) : Int) = off + i - q.L by omega]
  refine ⟨{ p' with
      ctrl := fxStep q.mu p.ctrl (tapeGrads q (fxUpd q p T (off + i)).2 (off + i))
      last := refBlock q T (off + i) q.L }, ?_, ?_⟩
  · unfold fastUpdateFilter
    rw [sigGet_back T off len i q.L hd.ref (by omega) (by omega), ← hb]
    simp only
    rw [hblk]
    simp only
    rw [hw]
    simp only
    rw [sigGet_back _ off len i q.L hd.err (by omega) (by omega), sigGet_back _ off len i (2 * q.L) hd.xf (by omega) (by omega),
      sigGet_back _ off len i q.L hd.xf (by omega) (by omega)]
    simp only
    rw [fastGrads_eq (fxUpd q p T (off + i)).2 (off + i)]
    simp only
    rw [h.ctrl, fastStep_eq hnorm hub]
  · have h2 := h.push hd.nr fun c k => T "ref" c (off + i - q.L + k)
    rw [← hb] at h2
    refine ⟨rfl, h2.cnt, h2.ir, h2.mat, ?_⟩
    have := h2.last
    unfold fxUpd
    dsimp only at this ⊢
    rw [hub]
    exact this

theorem fastProcess_cut {q : FxPar R} {S : IrMat R} {dims : String → Option Nat} (hd : FxDims q dims) (hS : ShortPaths q S)
    (hnorm : q.norm = .block) (hub : q.ub = q.L) {p : FxSt R} {p' : FastSt R} (hg : FxGood q p) (h : FastRel q S p p')
    (T : Tape R) (off : Int) (len i : Nat) (hi0 : q.bs ≤ i) (hi : "update_filter" ∈ p.cnt.event → 2 * q.L ≤ i)
    (hL : i + q.bs ≤ len) :
    ∃ p'', fastProcess q p' (cut dims T off len) i = .ok (p'', cut dims (fxAct q p T (off + i)).2 off len) ∧
      FastRel q S (fxAct q p T (off + i)).1 p'' := by
  have hLL := hd.L
  have hbs := hd.bs
  have hubs := hd.ub
  have hx : ∀ w, (refBlock q T (off + i) w).length = q.nr := by intro w; simp [refBlock, matOf]
  have hanc : ancProcess "ref" "loudspeaker" q.bs p'.ctrl (cut dims T off len) i =
      .ok ((fxGen q p T (off + i)).1.ctrl, cut dims (fxGen q p T (off + i)).2 off len) := by
    rw [h.ctrl]
    unfold ancProcess
    rw [sigGet_back T off len i q.bs hd.ref (by omega) (by omega)]
    simp only
    rw [show (matOf q.nr q.bs fun c k => T "ref" c (off + i - q.bs + k)) = refBlock q T (off + i) q.bs from rfl,
      p.ctrl.process_ok (by rw [hx, hg.cIn])]
    simp only
    unfold fxGen
    simp only
    unfold Fir.blockOut
    rw [hg.cOut, show numCols (refBlock q T (off + i) q.bs) = q.bs from numCols_block _ hd.nr,
      sigAssign_full T off len i q.bs hd.ls hL _ rfl rfl]
  have hg1 : FxGood q (fxGen q p T (off + i)).1 := ⟨hg.cIn, hg.cOut, hg.cLen, hg.sIn, hg.sOut, hg.defs⟩
  have h1 : FastRel q S (fxGen q p T (off + i)).1 { p' with ctrl := (fxGen q p T (off + i)).1.ctrl } :=
    ⟨rfl, h.cnt, h.ir, h.mat, h.last⟩
  have hmay : ∃ p2, (if "update_filter" ∈ p'.cnt.event then
      fastUpdateFilter q { p' with ctrl := (fxGen q p T (off + i)).1.ctrl } (cut dims (fxGen q p T (off + i)).2 off len) i
      else .ok ({ p' with ctrl := (fxGen q p T (off + i)).1.ctrl }, cut dims (fxGen q p T (off + i)).2 off len)) =
      .ok (p2, cut dims (fxMaybe q (fxGen q p T (off + i)) (off + i)).2 off len) ∧
      FastRel q S (fxMaybe q (fxGen q p T (off + i)) (off + i)).1 p2 := by
    unfold fxMaybe
    have hcnt : (fxGen q p T (off + i)).1.cnt = p.cnt := rfl
    rw [hcnt, ← h.cnt]
    split
    · rename_i hev
      rw [h.cnt] at hev
      exact fastUpdate_cut hd hS hnorm hub hg1 h1 _ off len i (hi hev) (by omega)
    · exact ⟨_, rfl, h1⟩
  obtain ⟨p2, hm1, hm2⟩ := hmay
  have hcnt : (fxMaybe q (fxGen q p T (off + i)) (off + i)).1.cnt = p.cnt := by
    unfold fxMaybe; split <;> rfl
  refine ⟨{ p2 with cnt := fxCount q p.cnt q.bs }, ?_, ⟨hm2.ctrl, rfl, hm2.ir, hm2.mat, hm2.last⟩⟩
  unfold fastProcess
  rw [hanc]
  simp only
  rw [hm1]
  simp only
  rw [hm2.cnt, hcnt, fxCount_eq q (by omega) p.cnt hg.defs]
  rfl

/-! ### Preparation -/

/-- The first `w` columns, the most recent first. -/
def pastCols (nr : Nat) (g : Nat → Nat → R) (w : Nat) : List (List R) :=
  ((List.range w).map fun k => (List.range nr).map fun c => g c k).reverse

omit [Field R] in
theorem pastCols_add (nr : Nat) (g : Nat → Nat → R) (a b : Nat) :
    pastCols nr g (a + b) = pastCols nr (fun c k => g c (a + k)) b ++ pastCols nr g a := by
  unfold pastCols
  rw [List.range_add, List.map_append, List.reverse_append, List.map_map]
  rfl

theorem pushBlock_cols (f : Fir R) {nr : Nat} (hn : 0 < nr) (w : Nat) (g : Nat → Nat → R) :
    f.pushBlock (matOf nr w g) = ⟨f.mat, pastCols nr g w ++ f.hist⟩ := by
  unfold Fir.pushBlock pastCols
  rw [numCols_block _ hn, colsOf_block]

theorem blockOut_cols (f : Fir R) {nr : Nat} (hn : 0 < nr) (w : Nat) (g : Nat → Nat → R) :
    f.blockOut (matOf nr w g) = matOf f.mat.numOut w fun m k => firOut f.mat (pastCols nr g (k + 1) ++ f.hist) m := by
  unfold Fir.blockOut
  rw [numCols_block _ hn]
  refine matOf_congr fun m k _ hk => ?_
  unfold pastCols
  rw [colsOf_block, ← List.map_take, List.take_range, Nat.min_eq_left (by omega)]

theorem matVal_ge {ch n : Nat} (f : Nat → Nat → R) {c k : Nat} (hc : ch ≤ c) : matVal (matOf ch n f) c k = 0 := by
  unfold matVal matOf
  rw [getD_map_range, if_neg (by omega)]
  rfl

/-- Two blocks written one after the other. -/
theorem write_append (T : Tape R) (name : String) (off : Int) (ch a b : Nat) (f : Nat → Nat → R) :
    (T.write name off a (matOf ch a f)).write name (off + a) b (matOf ch b fun c k => f c (a + k)) =
      T.write name off (a + b) (matOf ch (a + b) f) := by
  funext k c t
  unfold Tape.write
  by_cases hk : k = name
  · by_cases h1 : off ≤ t ∧ t < off + a
    · rw [if_neg (by omega), if_pos ⟨hk, h1⟩, if_pos ⟨hk, by omega⟩]
      by_cases hc : c < ch
      · rw [matVal_matOf _ _ _ hc (by omega), matVal_matOf _ _ _ hc (by omega)]
      · rw [matVal_ge _ (by omega), matVal_ge _ (by omega)]
    · by_cases h2 : off + a ≤ t ∧ t < off + a + b
      · rw [if_pos ⟨hk, h2⟩, if_pos ⟨hk, by omega⟩]
        by_cases hc : c < ch
        · rw [matVal_matOf _ _ _ hc (by omega), matVal_matOf _ _ _ hc (by omega)]
          congr 1
          omega
        · rw [matVal_ge _ (by omega), matVal_ge _ (by omega)]
      · rw [if_neg (by tauto), if_neg (by tauto), if_neg (by push_cast; omega)]
  · rw [if_neg (by tauto), if_neg (by tauto), if_neg (by tauto)]

theorem fastPrep_blocks {q : FxPar R} {S : IrMat R} {dims : String → Option Nat} (hd : FxDims q dims) (hS : ShortPaths q S)
    (hub : q.ub = q.L) (T : Tape R) (off : Int) (len : Nat) : ∀ j, j * q.L ≤ len →
    ∃ p', ((List.range j).map (· * q.L)).foldlM (fastPrepBlock q) (fastInit q S, cut dims T off len) =
        .ok (p', cut dims (T.write "xf" off (j * q.L)
          ((fxInit q S).sec.blockOut (matOf q.nr (j * q.L) fun c k => T "ref" c (off + k)))) off len) ∧
      FastRel q S { fxInit q S with sec := (fxInit q S).sec.pushBlock (matOf q.nr (j * q.L) fun c k => T "ref" c (off + k)) } p'
  | 0, _ => by
    refine ⟨fastInit q S, ?_, ?_⟩
    · have : ∀ V : Mat R, T.write "xf" off 0 V = T := by
        intro V
        funext k c t
        unfold Tape.write
        rw [if_neg (by push_cast; omega)]
      rw [Nat.zero_mul, this]
      rfl
    · refine ⟨rfl, ?_, rfl, rfl, ?_⟩
      · show EventSt.init _ = EventSt.init _
        rw [hub]
      · dsimp only
        rw [pushBlock_cols _ hd.nr, Nat.zero_mul]
        show List.replicate q.nr (List.replicate q.L (0 : R)) = matOf q.nr q.L fun c k => (([] : List (List R)).getD _ []).getD c 0
        unfold matOf
        simp
  | j + 1, hj => by
    rw [Nat.add_mul, Nat.one_mul] at hj
    obtain ⟨p', h1, h2⟩ := fastPrep_blocks hd hS hub T off len j (by omega)
    have hget : sigGet (cut dims (T.write "xf" off (j * q.L) ((fxInit q S).sec.blockOut (matOf q.nr (j * q.L)
        fun c k => T "ref" c (off + k)))) off len) "ref" (j * q.L : Nat) (((j * q.L : Nat) : Int) + q.L) =
        .ok (matOf q.nr q.L fun c k => T "ref" c (off + ((j * q.L + k : Nat) : Int))) := by
      rw [sigGet_cut _ off len "ref" (j * q.L) q.L (by omega)]
      unfold tGet
      rw [hd.ref]
      simp only
      congr 1
      refine matOf_congr fun c k _ _ => ?_
      unfold Tape.write
      rw [if_neg (by simp)]
      congr 1
      push_cast
      ring
    have hblk := h2.block hS hd.nr fun c k => T "ref" c (off + ((j * q.L + k : Nat) : Int))
    have hpush := h2.push hd.nr fun c k => T "ref" c (off + ((j * q.L + k : Nat) : Int))
    refine ⟨{ p' with last := matOf q.nr q.L fun c k => T "ref" c (off + ((j * q.L + k : Nat) : Int)) }, ?_, ?_⟩
    · rw [List.range_succ, List.map_append, List.foldlM_append, h1]
      show (fastPrepBlock q _ (j * q.L) >>= fun s => pure s) = _
      unfold fastPrepBlock
      dsimp only
      rw [hget]
      dsimp only
      rw [hblk]
      dsimp only
      rw [blockOut_cols _ hd.nr, blockOut_cols _ hd.nr, pushBlock_cols _ hd.nr, Nat.add_mul, Nat.one_mul, blockOut_cols _ hd.nr]
      have hm : (fxInit q S).sec.mat.numOut = q.nr * q.nl * q.ne := rfl
      have hh : (fxInit q S).sec.hist = [] := rfl
      rw [hm, hh]
      dsimp only
      rw [sigAssign_full _ off len (j * q.L) q.L hd.xf (by omega) _ rfl rfl]
      have := write_append T "xf" off (q.nr * q.nl * q.ne) (j * q.L) q.L fun m k =>
        firOut (fxInit q S).sec.mat (pastCols q.nr (fun c k => T "ref" c (off + k)) (k + 1) ++ []) m
      rw [← this]
      have hcols : ∀ k, pastCols q.nr (fun c k => T "ref" c (off + ((j * q.L + k : Nat) : Int))) (k + 1) ++
          (pastCols q.nr (fun c k => T "ref" c (off + k)) (j * q.L) ++ []) =
          pastCols q.nr (fun c k => T "ref" c (off + k)) (j * q.L + k + 1) ++ [] := by
        intro k
        rw [Nat.add_assoc, pastCols_add q.nr (fun c k => T "ref" c (off + k)) (j * q.L) (k + 1), List.append_assoc]
      simp only [hcols]
      rfl
    · rw [pushBlock_cols _ hd.nr, pushBlock_cols _ hd.nr] at hpush
      rw [pushBlock_cols _ hd.nr, Nat.add_mul, Nat.one_mul, pastCols_add, List.append_assoc]
      exact hpush

end

section
variable {R IR F S A D O D' O' : Type} [Field R] {cfg : SimCfg R IR F S A (FxSt R) D O} {q : FxPar R} {Sp : IrMat R}
  {diag : DiagOps R (FastSt R) D' O'}

theorem fast_signalList (h : FxScene cfg q) : (cfg.withProc (some (fastProc q)) diag).signalList = cfg.signalList := by
  unfold SimCfg.signalList
  rw [h.proc]
  rfl

/-- The two simulations before the first step. -/
theorem fast_init (h : FxScene cfg q) (hS : ShortPaths q Sp) (hub : q.ub = q.L) (hdvd : q.L ∣ cfg.B) {srcs : String → S} {arr : A}
    {f0 : F} {ds : List (Diag D)} {ds' : List (Diag D')} {st0 : SimSt R F S A (FxSt R) D O} {st0' : SimSt R F S A (FastSt R) D' O'}
    (hi : cfg.initWith fxPrepare srcs arr (fxInit q Sp) f0 ds = .ok st0)
    (hi' : (cfg.withProc (some (fastProc q)) diag).initWith (fastPrepare q) srcs arr (fastInit q Sp) f0 ds' = .ok st0') :
    ∃ p', st0'.eng = st0.eng.setProc p' ∧ st0'.idx = st0.idx ∧ st0'.n = st0.n ∧ FastRel q Sp st0.eng.proc p' := by
  obtain ⟨hN, e, he, hI⟩ := fx_init h Sp hi
  have hd := fx_dims h hN
  have hB := h.buffer.1
  have hp := tInit_proc hN he
  unfold SimCfg.initWith at hi hi'
  cases h1 : cfg.init srcs arr (fxInit q Sp) f0 ds with
  | error x => rw [h1] at hi; cases hi
  | ok st =>
    rw [h1] at hi
    cases h2 : (cfg.withProc (some (fastProc q)) diag).init srcs arr (fastInit q Sp) f0 ds' with
    | error x => rw [h2] at hi'; cases hi'
    | ok st' =>
      rw [h2] at hi'
      obtain ⟨g1, g2, g3⟩ := init_setProc cfg (some (fastProc q)) diag (fastInit q Sp) (fast_signalList h) h1 h2
      have h1' := h1
      rw [init_conc cfg (by omega) (init_nodup cfg h1), he] at h1'
      simp only [Except.map, Except.ok.injEq] at h1'
      subst h1'
      dsimp only at hi hi' g1 g2 g3
      rw [g1, g2] at hi'
      dsimp only [Eng.setProc, conc] at hi hi'
      have hle : cfg.B / q.L * q.L = cfg.B := Nat.div_mul_cancel hdvd
      obtain ⟨p', a1, a2⟩ := fastPrep_blocks hd hS hub e.sig (-(cfg.B : Int)) (cfg.B + cfg.C) (cfg.B / q.L) (by omega)
      rw [hle] at a1 a2
      have hprep : fastPrepare q (fastInit q Sp) (cut cfg.dims e.sig (-(cfg.B : Int)) (cfg.B + cfg.C)) (cfg.B : Int) = _ := a1
      rw [hprep] at hi'
      have e1 : (matOf q.nr cfg.B fun c k => e.sig "ref" c (-(cfg.B : Int) + k)) = refBlock q e.sig 0 cfg.B := by
        unfold refBlock
        exact matOf_congr fun c k _ _ => congrArg (e.sig "ref" c) (by omega)
      rw [e1] at hi' a2
      simp only [Except.ok.injEq] at hi'
      subst hi'
      refine ⟨p', ?_, ?_, ?_, ?_⟩
      · rw [hI.eng]
        unfold fxStart conc Eng.setProc
        rw [hp]
      · split at hi
        · cases hi
        · cases hi; rfl
      · split at hi
        · cases hi
        · cases hi; exact g3
      · rw [hI.eng]
        unfold fxStart conc
        rw [hp]
        exact a2

/-- What an update of the block filter looks at is in the buffer. -/
theorem FxScene.fast_reach (h : FxScene cfg q) (hub : q.ub = q.L) (hN : Names cfg) {e0 te : Eng (Tape R) F S A (FxSt R)}
    {st0 st : SimSt R F S A (FxSt R) D O} {r : Int} (hI : GInv (fxTape (fx_dims h hN)) e0 0 st0 e0 (-(cfg.B : Int)) r)
    (hc : CntInv q 0 e0.proc) {N k : Nat} (hB : Holds cfg q (2 * q.L) N) (hs : cfg.steps k st0 = .ok st)
    (ht : cfg.gSteps (fxTape (fx_dims h hN)) k e0 = .ok te) (hk : k < N) :
    k % q.bs = q.bs - 1 → "update_filter" ∈ te.proc.cnt.event → ((2 * q.L : Nat) : Int) ≤ st.idx := by
  intro hm hev
  have hle : q.bs ≤ 2 * q.L := by have := Nat.le_of_dvd h.ub.1 h.ub.2; omega
  have h1 := h.holds_index hB hle hN hI hs hm hk
  rwa [(CntInv.steps h hN hc k ht).update h.bs hm hev] at h1

/-- One step of both simulations. -/
theorem fast_engine (h : FxScene cfg q) (hN : Names cfg) (hS : ShortPaths q Sp) (hnorm : q.norm = .block) (hub : q.ub = q.L)
    {e0 te : Eng (Tape R) F S A (FxSt R)} {k : Nat} {st : SimSt R F S A (FxSt R) D O}
    {off r : Int} (hI : GInv (fxTape (fx_dims h hN)) e0 k st te off r)
    (hB : k % q.bs = q.bs - 1 → "update_filter" ∈ te.proc.cnt.event → ((2 * q.L : Nat) : Int) ≤ st.idx) {p' : FastSt R} (hR : FastRel q Sp st.eng.proc p')
    {e : Eng (Sigs R) F S A (FxSt R)} (he : cfg.engine st.n st.idx st.eng = .ok e) :
    ∃ p'', (cfg.withProc (some (fastProc q)) diag).engine st.n st.idx (st.eng.setProc p') = .ok (e.setProc p'') ∧
      FastRel q Sp e.proc p'' := by
  have hsz := fx_sizes h hN
  have hd := fx_dims h hN
  have hbs := h.bs
  have hmbs := hsz.mbs
  have hlow := hI.pos.low
  have hlt := hI.pos.idx_lt (by rw [hmbs]; exact hbs) h.chunk.1
  have hbb := h.buffer.1
  obtain ⟨i, hi⟩ := Int.eq_ofNat_of_zero_le (show 0 ≤ st.idx by rw [hmbs] at hlow; change (cfg.B : Int) - q.bs + 1 ≤ _ at hlow; omega)
  have hidx : st.idx = (i : Int) := hi
  have hsync := hI.pos.sync
  obtain ⟨te', hte, hee⟩ := hI.engine_ok hsz he
  have hreach := hI.reach hsz he
  have hconc := he
  subst hee
  unfold SimCfg.engine at hconc ⊢
  have harr : (cfg.withProc (some (fastProc q)) diag).arrUpdate (st.eng.setProc p').arr st.n =
    cfg.arrUpdate st.eng.arr st.n := rfl
  rw [harr]
  unfold SimCfg.gEngine at hte
  have harr2 : cfg.arrUpdate st.eng.arr st.n = cfg.arrUpdate te.arr k := by rw [hI.eng, hI.n]; rfl
  rw [harr2] at hconc ⊢
  cases hua : cfg.arrUpdate te.arr k with
  | error x => rw [hua] at hte; cases hte
  | ok arr =>
    rw [hua] at hte hconc
    dsimp only at hte hconc ⊢
    have hpr : te'.proc = (cfg.gProc (fxTape hd) k { te with arr := arr }).proc := tPropagate_proc hte
    cases hcp : cfg.callProc st.n st.idx { st.eng with arr := arr } with
    | error x => rw [hcp] at hconc; cases hconc
    | ok e1 =>
      rw [hcp] at hconc
      dsimp only at hconc
      have hcall : ∃ p'', (cfg.withProc (some (fastProc q)) diag).callProc st.n st.idx { st.eng.setProc p' with arr := arr } =
          .ok (e1.setProc p'') ∧ FastRel q Sp te'.proc p'' := by
        unfold SimCfg.callProc at hcp ⊢
        rw [h.proc] at hcp
        show ∃ p'', (if q.bs = 0 then _ else _) = _ ∧ _
        dsimp only at hcp
        rw [if_neg (show ¬ q.bs = 0 by omega)]
        rw [if_neg (show ¬ (fxProc q).bs = 0 from (show ¬ q.bs = 0 by omega))] at hcp
        unfold SimCfg.gProc at hpr
        by_cases hm : k % q.bs = q.bs - 1
        · rw [if_pos (show k % (fxProc q).bs = (fxProc q).bs - 1 from hm)] at hpr
          rw [hI.n, if_pos (show k % (fxProc q).bs = (fxProc q).bs - 1 from hm), hI.eng, hidx] at hcp
          rw [hI.n, if_pos (show k % (fastProc q).bs = (fastProc q).bs - 1 from hm), hI.eng, hidx]
          dsimp only [conc, Eng.setProc] at hcp ⊢
          have hfit := hI.pos.block_fits (by rw [hmbs]; exact hbs)
            (by have := h.chunk; rw [hmbs]; show 2 ≤ cfg.C ∨ 1 ≤ cfg.C ∧ q.bs ≤ cfg.C; omega) (by rw [hmbs]; exact hm)
          rw [hmbs] at hfit hlow
          change _ + (q.bs : Int) ≤ _ at hfit
          change (cfg.B : Int) - q.bs + 1 ≤ _ at hlow
          have hlk := hreach hm
          rw [hidx] at hlk
          have hlk' : fxLook q te.proc ≤ i := by exact_mod_cast hlk
          have hbi : q.bs ≤ i := by
            have hub0 := hd.ub
            have hL0 := hd.L
            unfold fxLook at hlk'
            split at hlk' <;> omega
          have hii : "update_filter" ∈ te.proc.cnt.event → 2 * q.L ≤ i := by
            intro hev
            have := hB hm hev
            omega
          have hR' : FastRel q Sp te.proc p' := by rw [hI.eng] at hR; exact hR
          have hfx : (fxProc q).process te.proc (cut cfg.dims te.sig off (cfg.B + cfg.C)) i = _ :=
            (fxTape hd).conc te.proc te.sig off i (cfg.B + cfg.C) hI.good
              hlk' (show i + q.bs ≤ _ by omega)
          rw [hfx] at hcp
          dsimp only at hcp
          obtain ⟨p'', b1, b2⟩ := fastProcess_cut hd hS hnorm hub hI.good hR' te.sig off (cfg.B + cfg.C) i hbi hii (by omega)
          refine ⟨p'', ?_, ?_⟩
          · have b1' : (fastProc q).process p' (cut cfg.dims te.sig off (cfg.B + cfg.C)) i = _ := b1
            rw [b1']
            dsimp only
            cases hcp
            rfl
          · rw [hpr]
            have : off + (i : Int) = k := by rw [← hidx]; exact hsync
            rw [this] at b2
            exact b2
        · rw [if_neg (show ¬ k % (fxProc q).bs = (fxProc q).bs - 1 from hm)] at hpr
          rw [hI.n, if_neg (show ¬ k % (fxProc q).bs = (fxProc q).bs - 1 from hm)] at hcp
          rw [hI.n, if_neg (show ¬ k % (fastProc q).bs = (fastProc q).bs - 1 from hm)]
          cases hcp
          refine ⟨p', rfl, ?_⟩
          rw [hpr]
          rw [hI.eng] at hR
          exact hR
      obtain ⟨p'', c1, c2⟩ := hcall
      refine ⟨p'', ?_, c2⟩
      rw [c1]
      dsimp only
      rw [propagate_setProc, hconc]
      rfl

/-- The two simulations after any number of steps. -/
theorem fast_steps (h : FxScene cfg q) (hN : Names cfg) (hS : ShortPaths q Sp) (hnorm : q.norm = .block) (hub : q.ub = q.L)
    {e0 : Eng (Tape R) F S A (FxSt R)} {st0 : SimSt R F S A (FxSt R) D O}
    {st0' : SimSt R F S A (FastSt R) D' O'} {r : Int} (hI : GInv (fxTape (fx_dims h hN)) e0 0 st0 e0 (-(cfg.B : Int)) r)
    (hc : CntInv q 0 e0.proc) {N : Nat} (hB : Holds cfg q (2 * q.L) N)
    (h0 : ∃ p', st0'.eng = st0.eng.setProc p' ∧ st0'.idx = st0.idx ∧ st0'.n = st0.n ∧ FastRel q Sp st0.eng.proc p') :
    ∀ k ≤ N, ∀ {st : SimSt R F S A (FxSt R) D O} {st' : SimSt R F S A (FastSt R) D' O'}, cfg.steps k st0 = .ok st →
      (cfg.withProc (some (fastProc q)) diag).steps k st0' = .ok st' →
      ∃ p', st'.eng = st.eng.setProc p' ∧ st'.idx = st.idx ∧ st'.n = st.n ∧ FastRel q Sp st.eng.proc p'
  | 0, _, st, st', hs, hs' => by cases hs; cases hs'; exact h0
  | k + 1, hk, st, st', hs, hs' => by
    simp only [SimCfg.steps] at hs hs'
    split at hs
    · cases hs
    · rename_i st1 hs1
      split at hs'
      · cases hs'
      · rename_i st1' hs1'
        obtain ⟨p', g1, g2, g3, g4⟩ := fast_steps h hN hS hnorm hub hI hc hB h0 k (by omega) hs1 hs1'
        obtain ⟨te, off, r, hT⟩ := GInv.steps (fx_sizes h hN) hI k hs1
        unfold SimCfg.step at hs hs'
        cases he : cfg.engine st1.n st1.idx st1.eng with
        | error x => rw [he] at hs; cases hs
        | ok e =>
          obtain ⟨p'', c1, c2⟩ := fast_engine (diag := diag) h hN hS hnorm hub hT (h.fast_reach hub hN hI hc hB hs1 hT.tape hk) g4 he
          rw [he] at hs
          rw [g1, g2, g3, c1] at hs'
          dsimp only at hs hs'
          have hlast : (cfg.withProc (some (fastProc q)) diag).lastBlock st1.idx = cfg.lastBlock st1.idx := by
            unfold SimCfg.lastBlock SimCfg.mbs
            rw [h.proc]
            rfl
          split at hs
          · cases hs
          · split at hs'
            · cases hs'
            · split at hs
              · cases hs
              · split at hs'
                · cases hs'
                · simp only [Except.ok.injEq] at hs hs'
                  subst hs hs'
                  rw [hlast]
                  cases cfg.lastBlock st1.idx with
                  | true => exact ⟨p'', rfl, rfl, rfl, c2⟩
                  | false => exact ⟨p'', rfl, rfl, rfl, c2⟩

end
end Verif

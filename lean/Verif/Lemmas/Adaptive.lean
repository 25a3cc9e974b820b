/-
The processor `FxLMS` on the tape.
-/
import Verif.Model.Adaptive
import Verif.Spec.Adaptive
import Verif.Lemmas.Fxlms
import Verif.Lemmas.Mic
import Verif.Lemmas.TapeProc
namespace Verif

section
variable {R : Type} [Field R]

/-- The gradient with any normalisation. -/
theorem fxGrad_lms {xf : Nat → Nat → Nat → List R} {err : Nat → List R} {x : Nat → Nat → Nat → Int → R}
    {e : Nat → Int → R} {o : Int} {len nr nl ne L : Nat} (hb : FxBuf xf err x e o len nr nl ne) (norm : FxNorm) (β : R)
    {r l : Nat} (hr : r < nr) (hl : l < nl) (hne : 0 < ne) {start ub : Nat} (hL : L ≤ start + 1) (hd : start + ub ≤ len) :
    fxGrad norm β nr nl ne L xf err start (start + ub) r l =
      .ok ((List.range L).map fun (k : Nat) => lmsGrad norm β nr nl ne L ub x e ((start : Int) - o) r l k) := by
  have hsum : ∀ f : Nat → R, ∑ n ∈ Finset.Ico start (start + ub), f n = ∑ i ∈ Finset.range ub, f (start + i) := by
    intro f
    rw [Finset.sum_Ico_eq_sum_range, Nat.add_sub_cancel_left]
  by_cases hn : norm = .block
  · subst hn
    unfold fxGrad
    have h0 : List.replicate L (0 : R) = (List.range L).map fun _ => 0 := by simp
    rw [h0, fxLoop_eq hb _ β hr hl hne (start + ub - start) start _ hL (by omega)]
    simp only [if_true, zero_add, Nat.add_sub_cancel_left, List.map_map]
    congr 1
    refine List.map_congr_left fun k _ => ?_
    simp only [Function.comp]
    rw [hsum]
    unfold lmsGrad
    rw [Finset.sum_mul]
    refine Finset.sum_congr rfl fun i hi => ?_
    have hw : fxWeight FxNorm.block β nr nl ne L x (((start + i : Nat) : Int) - o) = 1 := by
      unfold fxWeight; rw [if_neg (by decide)]
    rw [hw, mul_one]
    have e1 : ((start + i : Nat) : Int) - o = (start : Int) - o + i := by push_cast; ring
    rw [e1]
    congr 1
    unfold lmsWeight
    simp only
    congr 2
    rw [list_sum_range]
    refine Finset.sum_congr rfl fun r hr => ?_
    rw [list_sum_range]
    refine Finset.sum_congr rfl fun l hl => ?_
    rw [list_sum_range]
    refine Finset.sum_congr rfl fun m hm => ?_
    rw [Finset.mem_range] at hr hl hm
    unfold sumSq
    rw [pySlice_window (fun i hi => hb.xfVal r hr l hl m hm i (by rwa [hb.xfLen r hr l hl m hm] at hi)) (a := start)
      (n := ub) (by rw [hb.xfLen r hr l hl m hm]; exact hd) rfl rfl, List.map_map, list_sum_range]
    refine Finset.sum_congr rfl fun i _ => ?_
    simp only [Function.comp]
    rw [show ((start + i : Nat) : Int) - o = (start : Int) - o + i by push_cast; ring]
  · rw [fxGrad_eq hb hn β hr hl hne hL (by omega) hd]
    congr 1
    refine List.map_congr_left fun k _ => ?_
    rw [hsum]
    unfold lmsGrad
    refine Finset.sum_congr rfl fun i _ => ?_
    rw [show ((start + i : Nat) : Int) - o = (start : Int) - o + i by push_cast; ring]
    congr 1
    unfold fxWeight lmsWeight
    cases norm with
    | sample => rw [if_pos rfl]
    | block => exact absurd rfl hn
    | none => rw [if_neg (by decide)]

/-! ### The filters -/

/-- The filter after a block of input. -/
def Fir.pushBlock (f : Fir R) (x : Mat R) : Fir R := { f with hist := (colsOf x (numCols x)).reverse ++ f.hist }

/-- Its output. -/
def Fir.blockOut (f : Fir R) (x : Mat R) : Mat R :=
  matOf f.mat.numOut (numCols x) fun m k => firOut f.mat (((colsOf x (numCols x)).take (k + 1)).reverse ++ f.hist) m

theorem Fir.process_ok (f : Fir R) {x : Mat R} (h : x.length = f.mat.numIn) : f.process x = .ok (f.pushBlock x, f.blockOut x) := by
  unfold Fir.process
  rw [if_neg (by omega)]
  rfl

theorem numCols_block {ch n : Nat} (f : Nat → Nat → R) (h : 0 < ch) : numCols (matOf ch n f) = n := by
  cases ch with
  | zero => omega
  | succ ch =>
    unfold matOf
    rw [List.range_succ_eq_map]
    simp [numCols]

theorem colsOf_block {ch n : Nat} (f : Nat → Nat → R) :
    colsOf (matOf ch n f) n = (List.range n).map fun k => (List.range ch).map fun c => f c k := by
  unfold colsOf matOf
  refine List.map_congr_left fun k hk => ?_
  rw [List.mem_range] at hk
  rw [List.map_map]
  refine List.map_congr_left fun c _ => ?_
  simp only [Function.comp]
  rw [List.getD_eq_getElem?_getD, List.getElem?_map, List.getElem?_range hk]
  rfl

/-- The past input of a filter: the columns are the values of `u` at the steps
`n-1, n-2, ..., n-len`. -/
structure HistIs (hist : List (List R)) (nin : Nat) (u : Nat → Int → R) (n : Int) (len : Nat) : Prop where
  eq : hist = (List.range len).map fun (k : Nat) => (List.range nin).map fun c => u c (n - 1 - k)

omit [Field R] in
theorem HistIs.append {hist : List (List R)} {nin : Nat} {u : Nat → Int → R} {n : Int} {len : Nat}
    (h : HistIs hist nin u n len) (w : Nat) (f : Nat → Nat → R) (hf : ∀ c < nin, ∀ k < w, f c k = u c (n + k)) :
    HistIs (((List.range w).map fun k => (List.range nin).map fun c => f c k).reverse ++ hist) nin u (n + w) (w + len) := by
  refine ⟨?_⟩
  rw [h.eq, List.range_add, List.map_append, List.map_map]
  congr 1
  · apply List.ext_getElem
    · simp
    · intro i h1 h2
      simp only [List.length_map, List.length_range] at h2
      rw [List.getElem_reverse, List.getElem_map, List.getElem_map, List.getElem_range, List.getElem_range,
        List.length_map, List.length_range]
      refine List.map_congr_left fun c hc => ?_
      rw [List.mem_range] at hc
      rw [hf c hc _ (by omega)]
      congr 1
      omega
  · refine List.map_congr_left fun k _ => ?_
    simp only [Function.comp]
    refine List.map_congr_left fun c _ => ?_
    congr 1
    push_cast
    ring

/-- Output of a filter whose past input is `u`, silent before the past begins. -/
theorem firOut_hist {hist : List (List R)} {u : Nat → Int → R} {n : Int} {len : Nat} (h : IrMat R)
    (hh : HistIs hist h.numIn u n len) (hz : ∀ c < h.numIn, ∀ t, t < n - len → u c t = 0) (m : Nat) :
    firOut h hist m = ∑ s ∈ Finset.range h.numIn, ∑ q ∈ Finset.range (h.ir s m).length,
      (h.ir s m).getD q 0 * u s (n - 1 - q) := by
  unfold firOut
  rw [list_sum_range]
  refine Finset.sum_congr rfl fun s hs => ?_
  rw [Finset.mem_range] at hs
  rw [list_sum_range]
  refine Finset.sum_congr rfl fun q _ => ?_
  congr 1
  rw [hh.eq, List.getD_eq_getElem?_getD, List.getD_eq_getElem?_getD, List.getElem?_map]
  by_cases hq : q < len
  · rw [List.getElem?_range hq]
    simp only [Option.map_some, Option.getD_some]
    rw [List.getElem?_map, List.getElem?_range hs]
    rfl
  · rw [List.getElem?_eq_none (l := List.range len) (by simp; omega), hz s hs _ (by omega)]
    rfl

/-! ### The processor -/

/-- The event counter after `n` calls of `progress`. -/
def fxCount (q : FxPar R) (c : EventSt) : Nat → EventSt
  | 0 => c
  | n + 1 => ⟨c.defs, if (c.idx + (n + 1 : Nat) - (q.ub : Int)).fmod q.ub = 0 then ["update_filter"] else [],
    c.idx + (n + 1 : Nat)⟩

omit [Field R] in
theorem fxCount_eq (q : FxPar R) (hub : 0 < q.ub) (c : EventSt)
    (hc : c.defs = [("update_filter", (q.ub : Int), (q.ub : Int))]) :
    ∀ n, (List.range n).foldlM (fun s _ => EventSt.progress s) c = .ok (fxCount q c n)
  | 0 => rfl
  | n + 1 => by
    rw [List.range_succ, List.foldlM_append, fxCount_eq q hub c hc n]
    show ((fxCount q c n).progress >>= fun s => pure s) = _
    have h1 : (fxCount q c n).defs = c.defs := by cases n <;> rfl
    have h2 : (fxCount q c n).idx + 1 = c.idx + (n + 1 : Nat) := by
      cases n with
      | zero => simp [fxCount]
      | succ n => simp [fxCount]; ring
    unfold EventSt.progress
    rw [h1, hc, h2]
    simp only [checkEvents]
    rw [if_neg (by omega)]
    simp only [fxCount, hc]
    split <;> rfl

/-- The filtered references in the signal store. -/
def tapeXf (q : FxPar R) (T : Tape R) : Nat → Nat → Nat → Int → R := fun r l m t => T "xf" (fxRow q r l m) t

/-- The gradients over the steps `n-ub, ..., n-1`. -/
def tapeGrads (q : FxPar R) (T : Tape R) (n : Int) : List (List (List R)) :=
  (List.range q.nr).map fun r => (List.range q.nl).map fun l => (List.range q.L).map fun k =>
    lmsGrad q.norm q.beta q.nr q.nl q.ne q.L q.ub (tapeXf q T) (T "error") (n - q.ub) r l k

/-- The last `w` samples of the reference before step `n`. -/
def refBlock (q : FxPar R) (T : Tape R) (n : Int) (w : Nat) : Mat R :=
  matOf q.nr w fun c k => T "ref" c (n - w + k)

/-- The update on the tape. -/
def fxUpd (q : FxPar R) (p : FxSt R) (T : Tape R) (n : Int) : FxSt R × Tape R :=
  ({ p with ctrl := fxStep q.mu p.ctrl (tapeGrads q (T.write "xf" (n - q.ub) q.ub (p.sec.blockOut (refBlock q T n q.ub))) n)
            sec := p.sec.pushBlock (refBlock q T n q.ub) },
    T.write "xf" (n - q.ub) q.ub (p.sec.blockOut (refBlock q T n q.ub)))

/-- The loudspeaker block on the tape. -/
def fxGen (q : FxPar R) (p : FxSt R) (T : Tape R) (n : Int) : FxSt R × Tape R :=
  ({ p with ctrl := p.ctrl.pushBlock (refBlock q T n q.bs) }, T.write "loudspeaker" n q.bs (p.ctrl.blockOut (refBlock q T n q.bs)))

def fxMaybe (q : FxPar R) (r : FxSt R × Tape R) (n : Int) : FxSt R × Tape R :=
  if "update_filter" ∈ r.1.cnt.event then fxUpd q r.1 r.2 n else r

/-- What the processor does at step `n`. -/
def fxAct (q : FxPar R) (p : FxSt R) (T : Tape R) (n : Int) : FxSt R × Tape R :=
  ({ (fxMaybe q (fxGen q p T n) n).1 with cnt := fxCount q p.cnt q.bs }, (fxMaybe q (fxGen q p T n) n).2)

/-- Shapes that never change. -/
structure FxGood (q : FxPar R) (p : FxSt R) : Prop where
  cIn : p.ctrl.mat.numIn = q.nr
  cOut : p.ctrl.mat.numOut = q.nl
  cLen : ∀ r < q.nr, ∀ l < q.nl, (p.ctrl.mat.ir r l).length = q.L
  sIn : p.sec.mat.numIn = q.nr
  sOut : p.sec.mat.numOut = q.nr * q.nl * q.ne
  defs : p.cnt.defs = [("update_filter", (q.ub : Int), (q.ub : Int))]

/-- The arrays and sizes of the processor. -/
structure FxDims (q : FxPar R) (dims : String → Option Nat) : Prop where
  ref : dims "ref" = some q.nr
  ls : dims "loudspeaker" = some q.nl
  err : dims "error" = some q.ne
  xf : dims "xf" = some (q.nr * q.nl * q.ne)
  nr : 0 < q.nr
  nl : 0 < q.nl
  ne : 0 < q.ne
  L : 0 < q.L
  bs : 0 < q.bs
  ub : q.bs ≤ q.ub

theorem sigGet_back {dims : String → Option Nat} (T : Tape R) (off : Int) (L i w : Nat) {nm : String} {num : Nat}
    (hd : dims nm = some num) (hw : w ≤ i) (hi : i ≤ L) :
    sigGet (cut dims T off L) nm ((i : Int) - w) i = .ok (matOf num w fun c k => T nm c (off + i - w + k)) := by
  obtain ⟨a, rfl⟩ := Nat.exists_eq_add_of_le' hw
  have g := sigGet_cut (dims := dims) T off L nm a w (by omega)
  rw [show (((a + w : Nat) : Int) - w) = (a : Int) by omega, show (((a + w : Nat) : Int)) = (a : Int) + w by omega, g]
  unfold tGet
  rw [hd]
  simp only
  congr 1
  exact matOf_congr fun c k _ _ => congrArg (T nm c) (by omega)

theorem sigAssign_full {dims : String → Option Nat} (T : Tape R) (off : Int) (L i w : Nat) {nm : String} {num : Nat}
    (hd : dims nm = some num) (hi : i + w ≤ L) (f : Nat → Nat → R) {a b : Int} (ha : a = i) (hb : b = (i : Int) + w) :
    sigAssign (cut dims T off L) nm a b (matOf num w f) = .ok (cut dims (T.write nm (off + i) w (matOf num w f)) off L) := by
  subst ha hb
  rw [sigAssign_cut (dims := dims) T off L nm i w hi]
  unfold tAssign
  rw [hd]
  simp only
  rw [broadcastMat_self]
  rfl

omit [Field R] in
theorem fxRow_lt (q : FxPar R) {r l m : Nat} (hr : r < q.nr) (hl : l < q.nl) (hm : m < q.ne) :
    fxRow q r l m < q.nr * q.nl * q.ne := by
  unfold fxRow
  have h1 : r * q.nl + l + 1 ≤ q.nr * q.nl := by
    have : (r + 1) * q.nl ≤ q.nr * q.nl := Nat.mul_le_mul_right _ hr
    rw [Nat.add_mul, Nat.one_mul] at this
    omega
  have h2 : (r * q.nl + l + 1) * q.ne ≤ q.nr * q.nl * q.ne := Nat.mul_le_mul_right _ h1
  rw [Nat.add_mul, Nat.one_mul] at h2
  omega

omit [Field R] in
theorem matOf_getRow {ch n : Nat} (f : Nat → Nat → R) {c : Nat} (hc : c < ch) :
    (matOf ch n f).getD c [] = (List.range n).map fun k => f c k := by
  unfold matOf
  rw [List.getD_eq_getElem?_getD, List.getElem?_map, List.getElem?_range hc]
  rfl

theorem mapM_all_ok {α β : Type} {f : α → Except PyErr β} {g : α → β} :
    ∀ l : List α, (∀ x ∈ l, f x = .ok (g x)) → l.mapM f = .ok (l.map g)
  | [], _ => rfl
  | x :: l, h => by
    rw [List.mapM_cons, h x (by simp), mapM_all_ok l fun y hy => h y (by simp [hy])]
    rfl

theorem fxGrads_cut {q : FxPar R} {dims : String → Option Nat} (hd : FxDims q dims) (T : Tape R) (off : Int) (L i : Nat)
    (hi : q.ub + q.L ≤ i + 1) (hL : i ≤ L) :
    fxGrads q (fun r l m => (matOf (q.nr * q.nl * q.ne) L fun c p => T "xf" c (off + p)).getD (fxRow q r l m) [])
      (fun m => (matOf q.ne L fun c p => T "error" c (off + p)).getD m []) ((i : Int) - q.ub).toNat (i : Int).toNat =
      .ok (tapeGrads q T (off + i)) := by
  have hLL := hd.L
  have hb : FxBuf (fun r l m => (matOf (q.nr * q.nl * q.ne) L fun c p => T "xf" c (off + p)).getD (fxRow q r l m) [])
      (fun m => (matOf q.ne L fun c p => T "error" c (off + p)).getD m []) (tapeXf q T) (T "error") (-off) L q.nr q.nl q.ne := by
    refine ⟨?_, ?_, ?_, ?_⟩
    · intro r hr l hl m hm
      beta_reduce
      rw [matOf_getRow _ (fxRow_lt q hr hl hm)]; simp
    · intro m hm
      beta_reduce
      rw [matOf_getRow _ hm]; simp
    · intro r hr l hl m hm j hj
      beta_reduce
      rw [matOf_getRow _ (fxRow_lt q hr hl hm), List.getElem?_map, List.getElem?_range hj]
      simp only [Option.map_some, tapeXf]
      congr 2
      ring
    · intro m hm j hj
      beta_reduce
      rw [matOf_getRow _ hm, List.getElem?_map, List.getElem?_range hj]
      simp only [Option.map_some]
      congr 2
      ring
  unfold fxGrads tapeGrads
  refine mapM_all_ok _ fun r hr => mapM_all_ok _ fun l hl => ?_
  rw [List.mem_range] at hr hl
  have e1 : (i : Int).toNat = ((i : Int) - q.ub).toNat + q.ub := by omega
  rw [e1, fxGrad_lms hb q.norm q.beta hr hl hd.ne (by omega) (by omega)]
  congr 1
  refine List.map_congr_left fun k _ => ?_
  congr 1
  omega

theorem fxProcess_cut {q : FxPar R} {dims : String → Option Nat} (hd : FxDims q dims) {p : FxSt R} (hg : FxGood q p)
    (T : Tape R) (off : Int) (L i : Nat) (hi0 : q.bs ≤ i) (hi : "update_filter" ∈ p.cnt.event → q.ub + q.L ≤ i + 1)
    (hL : i + q.bs ≤ L) :
    fxProcess q p (cut dims T off L) i = .ok ((fxAct q p T (off + i)).1, cut dims (fxAct q p T (off + i)).2 off L) := by
  have hLL := hd.L
  have hbs := hd.bs
  have hub := hd.ub
  have hx : ∀ w, (refBlock q T (off + i) w).length = q.nr := by intro w; simp [refBlock, matOf]
  have hanc : ancProcess "ref" "loudspeaker" q.bs p.ctrl (cut dims T off L) i =
      .ok ((fxGen q p T (off + i)).1.ctrl, cut dims (fxGen q p T (off + i)).2 off L) := by
    unfold ancProcess
    rw [sigGet_back T off L i q.bs hd.ref (by omega) (by omega)]
    simp only
    rw [show (matOf q.nr q.bs fun c k => T "ref" c (off + i - q.bs + k)) = refBlock q T (off + i) q.bs from rfl,
      p.ctrl.process_ok (by rw [hx, hg.cIn])]
    simp only
    unfold fxGen
    simp only
    unfold Fir.blockOut
    rw [hg.cOut, show numCols (refBlock q T (off + i) q.bs) = q.bs from numCols_block _ hd.nr,
      sigAssign_full T off L i q.bs hd.ls hL _ rfl rfl]
  have hupd : ∀ (p : FxSt R), FxGood q p → q.ub + q.L ≤ i + 1 → ∀ T : Tape R, fxUpdateFilter q p (cut dims T off L) i =
      .ok ((fxUpd q p T (off + i)).1, cut dims (fxUpd q p T (off + i)).2 off L) := by
    intro p hg hi T
    unfold fxUpdateFilter
    rw [if_neg (by omega), sigGet_back T off L i q.ub hd.ref (by omega) (by omega)]
    simp only
    rw [show (matOf q.nr q.ub fun c k => T "ref" c (off + i - q.ub + k)) = refBlock q T (off + i) q.ub from rfl,
      p.sec.process_ok (by rw [hg.sIn]; simp [refBlock, matOf])]
    simp only
    have hout : p.sec.blockOut (refBlock q T (off + i) q.ub) = matOf (q.nr * q.nl * q.ne) q.ub fun m k => firOut p.sec.mat
        (((colsOf (refBlock q T (off + i) q.ub) q.ub).take (k + 1)).reverse ++ p.sec.hist) m := by
      unfold Fir.blockOut
      rw [hg.sOut, show numCols (refBlock q T (off + i) q.ub) = q.ub from numCols_block _ hd.nr]
    have hw : sigAssign (cut dims T off L) "xf" ((i : Int) - q.ub) i (p.sec.blockOut (refBlock q T (off + i) q.ub)) =
        .ok (cut dims (fxUpd q p T (off + i)).2 off L) := by
      unfold fxUpd
      simp only
      rw [hout, sigAssign_full T off L (i - q.ub) q.ub hd.xf (by omega) _ (by omega) (by omega)]
      rw [show off + ((i - q.ub : Nat) : Int) = off + i - q.ub by omega]
    rw [hw]
    simp only
    have c1 : cut dims (fxUpd q p T (off + i)).2 off L "xf" = some (matOf (q.nr * q.nl * q.ne) L
      fun c k => (fxUpd q p T (off + i)).2 "xf" c (off + k)) := by simp [cut, hd.xf]
    have c2 : cut dims (fxUpd q p T (off + i)).2 off L "error" = some (matOf q.ne L
      fun c k => (fxUpd q p T (off + i)).2 "error" c (off + k)) := by simp [cut, hd.err]
    rw [c1, c2]
    simp only
    rw [fxGrads_cut hd _ off L i hi (by omega)]
    rfl
  unfold fxProcess
  rw [hanc]
  simp only
  have hmay : (if "update_filter" ∈ p.cnt.event then
      fxUpdateFilter q { p with ctrl := (fxGen q p T (off + i)).1.ctrl } (cut dims (fxGen q p T (off + i)).2 off L) i
      else .ok ({ p with ctrl := (fxGen q p T (off + i)).1.ctrl }, cut dims (fxGen q p T (off + i)).2 off L)) =
      .ok ((fxMaybe q (fxGen q p T (off + i)) (off + i)).1, cut dims (fxMaybe q (fxGen q p T (off + i)) (off + i)).2 off L) := by
    unfold fxMaybe
    have hcnt : (fxGen q p T (off + i)).1.cnt = p.cnt := rfl
    rw [hcnt]
    split
    · rename_i hev
      exact hupd (fxGen q p T (off + i)).1 ⟨hg.cIn, hg.cOut, hg.cLen, hg.sIn, hg.sOut, hg.defs⟩ (hi hev) _
    · rfl
  rw [hmay]
  simp only
  have hcnt : (fxMaybe q (fxGen q p T (off + i)) (off + i)).1.cnt = p.cnt := by
    unfold fxMaybe; split <;> rfl
  rw [hcnt, fxCount_eq q (by omega) p.cnt hg.defs]
  rfl

/-- How far the next call looks back. -/
def fxLook (q : FxPar R) (p : FxSt R) : Nat := if "update_filter" ∈ p.cnt.event then q.ub + q.L - 1 else q.bs

omit [Field R] in
/-- A slice that begins before the buffer is empty. -/
theorem pySlice_before {row : List R} {a b : Int} (ha : a < 0) (hb : 0 ≤ b) (h : b ≤ a + row.length) : pySlice row a b = [] := by
  unfold pySlice
  rw [List.drop_eq_nil_of_le]
  rw [List.length_take]
  unfold pyClamp
  rw [if_pos ha, if_neg (by omega)]
  omega

theorem sigGet_before {dims : String → Option Nat} (T : Tape R) (off : Int) (L i w : Nat) {nm : String} {num : Nat}
    (hd : dims nm = some num) (hw : i < w) (hi : w ≤ L) :
    sigGet (cut dims T off L) nm ((i : Int) - w) i = .ok (matOf num 0 fun _ _ => 0) := by
  have : cut dims T off L nm = some (matOf num L fun c p => T nm c (off + p)) := by simp [cut, hd]
  unfold sigGet
  rw [this]
  simp only [pySlice2]
  congr 1
  unfold matOf
  rw [List.map_map]
  refine List.map_congr_left fun c _ => ?_
  simp only [Function.comp, List.range_zero, List.map_nil]
  exact pySlice_before (by omega) (by omega) (by simp; omega)

/-- Nothing cannot be written to a block. -/
theorem sigAssign_nothing {dims : String → Option Nat} (T : Tape R) (off : Int) (L i w : Nat) {nm : String} {num : Nat}
    (hd : dims nm = some num) (hn : 0 < num) (hw : 0 < w) (hi : i + w ≤ L) (f : Nat → Nat → R) :
    sigAssign (cut dims T off L) nm i ((i : Int) + w) (matOf num 0 f) = .error .value := by
  rw [sigAssign_cut (dims := dims) T off L nm i w hi]
  have hb : broadcastMat (matOf num 0 f) num w = none := by
    unfold broadcastMat broadcastChan
    rw [if_pos (by simp [matOf])]
    obtain ⟨n, rfl⟩ := Nat.exists_eq_succ_of_ne_zero (by omega : num ≠ 0)
    simp only [matOf, List.range_succ_eq_map, List.map_cons, Option.bind_some, List.mapM_cons, List.range_zero, List.map_nil]
    have : broadcastRow ([] : List R) w = none := by
      unfold broadcastRow
      rw [if_neg (by simp; omega)]
    rw [this]
    rfl
  unfold tAssign
  rw [hd]
  simp only [hb]
  rfl

theorem mapM_first_error {α β : Type} {f : α → Except PyErr β} {x : α} {l : List α} {e : PyErr} (h : f x = .error e) :
    (x :: l).mapM f = .error e := by
  rw [List.mapM_cons, h]
  rfl

/-- A window that begins before the buffer: the update raises. -/
theorem fxGrads_before {q : FxPar R} {dims : String → Option Nat} (hd : FxDims q dims) {xf : Nat → Nat → Nat → List R}
    {err : Nat → List R} {L start : Nat} (hx : (xf 0 0 0).length = L) (he : ∀ m < q.ne, (err m).length = L)
    (h1 : start + 1 < q.L) (h2 : q.L ≤ L) (h3 : start + q.ub ≤ L) : fxGrads q xf err start (start + q.ub) = .error .value := by
  have hub := hd.ub
  have hbs := hd.bs
  have hgrad : fxGrad q.norm q.beta q.nr q.nl q.ne q.L xf err start (start + q.ub) 0 0 = .error .value := by
    obtain ⟨u, hu⟩ := Nat.exists_eq_succ_of_ne_zero (by omega : q.ub ≠ 0)
    unfold fxGrad
    rw [Nat.add_sub_cancel_left, hu, List.range_succ_eq_map]
    simp only [List.map_cons, Nat.add_zero, fxLoop]
    have hw : fxWindow q.L (xf 0 0 0) (start : Int) = [] := by
      unfold fxWindow
      rw [pySlice_before (by omega) (by omega) (by rw [hx]; omega)]
      rfl
    have ht : fxTerm q.L q.ne (xf 0 0) err (start : Int) = .ok [] := by
      unfold fxTerm
      rw [if_pos, hw]
      · rfl
      · intro m hm
        rw [List.mem_range] at hm
        unfold pySlice pyClamp
        rw [if_neg (by omega), if_neg (by omega), List.length_drop, List.length_take, he m hm]
        omega
    unfold fxContribution
    rw [ht]
    have hb : broadcastRow ([] : List R) q.L = none := by
      unfold broadcastRow
      rw [if_neg (by simp; omega)]
    by_cases hn : q.norm = .sample
    · simp only [if_pos hn, List.map_nil, List.length_replicate, hb]
    · simp only [if_neg hn, List.length_replicate, hb]
  unfold fxGrads
  obtain ⟨a, ha⟩ := Nat.exists_eq_succ_of_ne_zero (by have := hd.nr; omega : q.nr ≠ 0)
  obtain ⟨b, hb⟩ := Nat.exists_eq_succ_of_ne_zero (by have := hd.nl; omega : q.nl ≠ 0)
  have ha' : List.range q.nr = 0 :: (List.range a).map Nat.succ := by rw [ha, List.range_succ_eq_map]
  have hb' : List.range q.nl = 0 :: (List.range b).map Nat.succ := by rw [hb, List.range_succ_eq_map]
  rw [ha', hb']
  exact mapM_first_error (mapM_first_error hgrad)

/-- A call that looks back beyond the beginning of the buffer raises `ValueError`. -/
theorem fxProcess_fails {q : FxPar R} {dims : String → Option Nat} (hd : FxDims q dims) {p : FxSt R} (hg : FxGood q p)
    (T : Tape R) (off : Int) (L i : Nat) (hM : q.L ≤ L) (hi : i < fxLook q p) (hL : i + q.bs ≤ L) :
    fxProcess q p (cut dims T off L) i = .error .value := by
  have hLL := hd.L
  have hbs := hd.bs
  have hub := hd.ub
  have hx : ∀ w, (refBlock q T (off + i) w).length = q.nr := by intro w; simp [refBlock, matOf]
  unfold fxProcess
  by_cases h0 : i < q.bs
  · have hanc : ancProcess "ref" "loudspeaker" q.bs p.ctrl (cut dims T off L) i = .error .value := by
      unfold ancProcess
      rw [sigGet_before T off L i q.bs hd.ref h0 (by omega)]
      simp only
      rw [p.ctrl.process_ok (by simp [matOf, hg.cIn])]
      simp only
      unfold Fir.blockOut
      rw [hg.cOut, numCols_block _ hd.nr, sigAssign_nothing T off L i q.bs hd.ls hd.nl hbs hL]
    rw [hanc]
  · have hanc : ancProcess "ref" "loudspeaker" q.bs p.ctrl (cut dims T off L) i =
        .ok ((fxGen q p T (off + i)).1.ctrl, cut dims (fxGen q p T (off + i)).2 off L) := by
      unfold ancProcess
      rw [sigGet_back T off L i q.bs hd.ref (by omega) (by omega)]
      simp only
      rw [show (matOf q.nr q.bs fun c k => T "ref" c (off + i - q.bs + k)) = refBlock q T (off + i) q.bs from rfl,
        p.ctrl.process_ok (by rw [hx, hg.cIn])]
      simp only
      unfold fxGen
      simp only
      unfold Fir.blockOut
      rw [hg.cOut, show numCols (refBlock q T (off + i) q.bs) = q.bs from numCols_block _ hd.nr,
        sigAssign_full T off L i q.bs hd.ls hL _ rfl rfl]
    rw [hanc]
    unfold fxLook at hi
    by_cases hev : "update_filter" ∈ p.cnt.event
    · rw [if_pos hev] at hi
      simp only [if_pos hev]
      have hupd : ∀ (p : FxSt R), FxGood q p → ∀ T : Tape R, fxUpdateFilter q p (cut dims T off L) i = .error .value := by
        intro p hg T
        unfold fxUpdateFilter
        by_cases hlt : (i : Int) < q.ub
        · rw [if_pos hlt]
        rw [if_neg hlt, sigGet_back T off L i q.ub hd.ref (by omega) (by omega)]
        simp only
        rw [show (matOf q.nr q.ub fun c k => T "ref" c (off + i - q.ub + k)) = refBlock q T (off + i) q.ub from rfl,
          p.sec.process_ok (by rw [hg.sIn]; simp [refBlock, matOf])]
        simp only
        have hout : p.sec.blockOut (refBlock q T (off + i) q.ub) = matOf (q.nr * q.nl * q.ne) q.ub fun m k => firOut p.sec.mat
            (((colsOf (refBlock q T (off + i) q.ub) q.ub).take (k + 1)).reverse ++ p.sec.hist) m := by
          unfold Fir.blockOut
          rw [hg.sOut, show numCols (refBlock q T (off + i) q.ub) = q.ub from numCols_block _ hd.nr]
        have hw : sigAssign (cut dims T off L) "xf" ((i : Int) - q.ub) i (p.sec.blockOut (refBlock q T (off + i) q.ub)) =
            .ok (cut dims (fxUpd q p T (off + i)).2 off L) := by
          unfold fxUpd
          simp only
          rw [hout, sigAssign_full T off L (i - q.ub) q.ub hd.xf (by omega) _ (by omega) (by omega)]
          rw [show off + ((i - q.ub : Nat) : Int) = off + i - q.ub by omega]
        rw [hw]
        simp only
        have c1 : cut dims (fxUpd q p T (off + i)).2 off L "xf" = some (matOf (q.nr * q.nl * q.ne) L
          fun c k => (fxUpd q p T (off + i)).2 "xf" c (off + k)) := by simp [cut, hd.xf]
        have c2 : cut dims (fxUpd q p T (off + i)).2 off L "error" = some (matOf q.ne L
          fun c k => (fxUpd q p T (off + i)).2 "error" c (off + k)) := by simp [cut, hd.err]
        rw [c1, c2]
        simp only
        have e1 : (i : Int).toNat = ((i : Int) - q.ub).toNat + q.ub := by omega
        rw [e1, fxGrads_before (L := L) hd ?_ ?_ (by omega) hM (by omega)]
        · rw [matOf_getRow _ (fxRow_lt q hd.nr hd.nl hd.ne)]
          simp
        · intro m hm
          rw [matOf_getRow _ hm]
          simp
      rw [show ({ p with ctrl := (fxGen q p T (off + i)).1.ctrl } : FxSt R) = (fxGen q p T (off + i)).1 from rfl,
        hupd (fxGen q p T (off + i)).1 ⟨hg.cIn, hg.cOut, hg.cLen, hg.sIn, hg.sOut, hg.defs⟩]
    · rw [if_neg hev] at hi
      omega

theorem fxStep_len {q : FxPar R} {f : Fir R} {T : Tape R} {n : Int}
    (h : ∀ r < q.nr, ∀ l < q.nl, (f.mat.ir r l).length = q.L) :
    ∀ r < q.nr, ∀ l < q.nl, ((fxStep q.mu f (tapeGrads q T n)).mat.ir r l).length = q.L := by
  intro r hr l hl
  simp only [fxStep, fxUpdate, List.length_zipWith, h r hr l hl, tapeGrads]
  rw [List.getD_eq_getElem?_getD, List.getD_eq_getElem?_getD, List.getElem?_map, List.getElem?_range hr]
  simp only [Option.map_some, Option.getD_some]
  rw [List.getElem?_map, List.getElem?_range hl]
  simp

theorem fxAct_good {q : FxPar R} {p : FxSt R} (hg : FxGood q p) (T : Tape R) (n : Int) : FxGood q (fxAct q p T n).1 := by
  have hdefs : (fxCount q p.cnt q.bs).defs = p.cnt.defs := by cases q.bs <;> rfl
  unfold fxAct fxMaybe
  by_cases h : "update_filter" ∈ (fxGen q p T n).1.cnt.event
  · rw [if_pos h]
    exact ⟨hg.cIn, hg.cOut, fxStep_len (f := (fxGen q p T n).1.ctrl) hg.cLen, hg.sIn, hg.sOut, hdefs.trans hg.defs⟩
  · rw [if_neg h]
    exact ⟨hg.cIn, hg.cOut, hg.cLen, hg.sIn, hg.sOut, hdefs.trans hg.defs⟩

/-- Everything the processor writes to the store. -/
theorem fxAct_sig (q : FxPar R) (p : FxSt R) (T : Tape R) (n : Int) (k : String) (c : Nat) (t : Int)
    (h1 : k = "loudspeaker" → t < n ∨ n + q.bs ≤ t) (h2 : k = "xf" → t < n - q.ub ∨ n ≤ t) :
    (fxAct q p T n).2 k c t = T k c t := by
  have a1 : (fxGen q p T n).2 k c t = T k c t := by
    unfold fxGen Tape.write
    simp only
    rw [if_neg]
    rintro ⟨e, h3, h4⟩
    have := h1 e
    omega
  unfold fxAct fxMaybe
  simp only
  split
  · unfold fxUpd Tape.write
    simp only
    rw [if_neg, a1]
    rintro ⟨e, h3, h4⟩
    have := h2 e
    omega
  · exact a1

/-- The processor for the simulations on the tape. -/
def fxTape {q : FxPar R} {dims : String → Option Nat} (hd : FxDims q dims) : TapeProc dims (fxProc q) where
  M := q.L
  H := fxLook q
  good := FxGood q
  act := fxAct q
  conc := fun p T off i L hg hi hL => by
    have hLL := hd.L
    have hub := hd.ub
    unfold fxLook at hi
    refine fxProcess_cut hd hg T off L i ?_ ?_ hL
    · split at hi <;> omega
    · intro hev
      rw [if_pos hev] at hi
      omega
  fails := fun p T off i L hg hM hi hL => fxProcess_fails hd hg T off L i hM hi hL
  keep := fun _ T n hg => fxAct_good hg T n
  future := fun p T n k c t _ ht => fxAct_sig q p T n k c t
    (fun _ => .inr ht) (fun _ => .inr (by have : (fxProc q).bs = q.bs := rfl; omega))

end
end Verif

/-
The processor `FastBlockFxLMS` on the tape, for any secondary paths and any buffer.
-/
import Verif.Lemmas.FastBlock
namespace Verif

section
variable {R : Type} [Field R]

/-- The filtered references of a block that follows the block `last`. -/
def fastOut (q : FxPar R) (ir : Nat → Nat → List R) (last v : Mat R) : Mat R :=
  matOf (q.nr * q.nl * q.ne) q.L fun o k => circConv (2 * q.L) (ir (o / q.ne % q.nl) (o % q.ne))
    (last.getD (o / (q.nl * q.ne)) [] ++ v.getD (o / (q.nl * q.ne)) []) (q.L + k)

theorem osProcess_block {q : FxPar R} (ir : Nat → Nat → List R) (last : Mat R) (g : Nat → Nat → R) :
    osProcess q ir last (matOf q.nr q.L g) = .ok (matOf q.nr q.L g, fastOut q ir last (matOf q.nr q.L g)) := by
  unfold osProcess
  rw [if_pos ⟨by simp [matOf], by
    intro row hr
    unfold matOf at hr
    rw [List.mem_map] at hr
    obtain ⟨c, _, rfl⟩ := hr
    simp⟩]
  rfl

theorem osProcess_nothing {q : FxPar R} (hr : 0 < q.nr) (hL : 0 < q.L) (ir : Nat → Nat → List R) (last : Mat R) (g : Nat → Nat → R) :
    osProcess q ir last (matOf q.nr 0 g) = .error .value := by
  unfold osProcess
  rw [if_neg]
  rintro ⟨-, h⟩
  have := h [] (by
    unfold matOf
    rw [List.mem_map]
    exact ⟨0, List.mem_range.2 hr, rfl⟩)
  simp at this
  omega

/-- The gradients of an update at step `n`. -/
def rawGrads (q : FxPar R) (T : Tape R) (n : Int) : List (List (List R)) :=
  (List.range q.nr).map fun r => (List.range q.nl).map fun l => (List.range q.L).map fun k => rawGrad q T n r l k

/-- The tape after an update has written the filtered references. -/
def fastXf (q : FxPar R) (p : FastSt R) (T : Tape R) (n : Int) : Tape R :=
  T.write "xf" (n - q.L) q.L (fastOut q p.ir p.last (refBlock q T n q.L))

/-- The update on the tape. -/
def fastUpd (q : FxPar R) (p : FastSt R) (T : Tape R) (n : Int) : FastSt R × Tape R :=
  ({ p with
      ctrl := fastStep (q.mu * fastNorm q (matOf (q.nr * q.nl * q.ne) q.L fun c k => fastXf q p T n "xf" c (n - q.L + k))) p.ctrl
        (rawGrads q (fastXf q p T n) n)
      last := refBlock q T n q.L }, fastXf q p T n)

/-- The loudspeaker block on the tape. -/
def fastGen (q : FxPar R) (p : FastSt R) (T : Tape R) (n : Int) : FastSt R × Tape R :=
  ({ p with ctrl := p.ctrl.pushBlock (refBlock q T n q.bs) }, T.write "loudspeaker" n q.bs (p.ctrl.blockOut (refBlock q T n q.bs)))

def fastMaybe (q : FxPar R) (r : FastSt R × Tape R) (n : Int) : FastSt R × Tape R :=
  if "update_filter" ∈ r.1.cnt.event then fastUpd q r.1 r.2 n else r

/-- What the processor does at step `n`. -/
def fastAct (q : FxPar R) (p : FastSt R) (T : Tape R) (n : Int) : FastSt R × Tape R :=
  ({ (fastMaybe q (fastGen q p T n) n).1 with cnt := fxCount q p.cnt q.bs }, (fastMaybe q (fastGen q p T n) n).2)

/-- Shapes that never change. -/
structure FastGood (q : FxPar R) (p : FastSt R) : Prop where
  cIn : p.ctrl.mat.numIn = q.nr
  cOut : p.ctrl.mat.numOut = q.nl
  cLen : ∀ r < q.nr, ∀ l < q.nl, (p.ctrl.mat.ir r l).length = q.L
  defs : p.cnt.defs = [("update_filter", (q.ub : Int), (q.ub : Int))]

theorem fastGen_cut {q : FxPar R} {dims : String → Option Nat} (hd : FxDims q dims) {p : FastSt R} (hg : FastGood q p)
    (T : Tape R) (off : Int) (len i : Nat) (hi : q.bs ≤ i) (hL : i + q.bs ≤ len) :
    ancProcess "ref" "loudspeaker" q.bs p.ctrl (cut dims T off len) i =
      .ok ((fastGen q p T (off + i)).1.ctrl, cut dims (fastGen q p T (off + i)).2 off len) := by
  unfold ancProcess
  rw [sigGet_back T off len i q.bs hd.ref (by omega) (by omega)]
  simp only
  rw [show (matOf q.nr q.bs fun c k => T "ref" c (off + i - q.bs + k)) = refBlock q T (off + i) q.bs from rfl,
    p.ctrl.process_ok (by rw [hg.cIn]; simp [refBlock, matOf])]
  simp only
  unfold fastGen
  simp only
  unfold Fir.blockOut
  rw [hg.cOut, show numCols (refBlock q T (off + i) q.bs) = q.bs from numCols_block _ hd.nr,
    sigAssign_full T off len i q.bs hd.ls hL _ rfl rfl]

theorem fastXf_cut {q : FxPar R} {dims : String → Option Nat} (hd : FxDims q dims) (p : FastSt R)
    (T : Tape R) (off : Int) (len i : Nat) (hi : q.L ≤ i) (hL : i ≤ len) :
    sigAssign (cut dims T off len) "xf" ((i : Int) - q.L) i (fastOut q p.ir p.last (refBlock q T (off + i) q.L)) =
      .ok (cut dims (fastXf q p T (off + i)) off len) := by
  unfold fastXf fastOut
  rw [sigAssign_full T off len (i - q.L) q.L hd.xf (by omega) _ (by omega) (by omega),
    show off + ((i - q.L : Nat) : Int) = off + i - q.L by omega]

theorem fastUpd_cut {q : FxPar R} {dims : String → Option Nat} (hd : FxDims q dims) (p : FastSt R)
    (T : Tape R) (off : Int) (len i : Nat) (hi : 2 * q.L ≤ i) (hL : i ≤ len) :
    fastUpdateFilter q p (cut dims T off len) i = .ok ((fastUpd q p T (off + i)).1, cut dims (fastUpd q p T (off + i)).2 off len) := by
  unfold fastUpdateFilter
  rw [sigGet_back T off len i q.L hd.ref (by omega) (by omega)]
  simp only
  rw [osProcess_block]
  simp only
  rw [show (matOf q.nr q.L fun c k => T "ref" c (off + i - q.L + k)) = refBlock q T (off + i) q.L from rfl,
    fastXf_cut hd p T off len i (by omega) hL]
  simp only
  rw [sigGet_back _ off len i q.L hd.err (by omega) (by omega), sigGet_back _ off len i (2 * q.L) hd.xf (by omega) (by omega),
    sigGet_back _ off len i q.L hd.xf (by omega) (by omega)]
  simp only
  rw [fastGrads_eq (fastXf q p T (off + i)) (off + i)]
  rfl

theorem fastAct_cut {q : FxPar R} {dims : String → Option Nat} (hd : FxDims q dims) {p : FastSt R} (hg : FastGood q p)
    (T : Tape R) (off : Int) (len i : Nat) (hi0 : q.bs ≤ i) (hi : "update_filter" ∈ p.cnt.event → 2 * q.L ≤ i)
    (hL : i + q.bs ≤ len) :
    fastProcess q p (cut dims T off len) i = .ok ((fastAct q p T (off + i)).1, cut dims (fastAct q p T (off + i)).2 off len) := by
  have hbs := hd.bs
  have hub := hd.ub
  unfold fastProcess
  rw [fastGen_cut hd hg T off len i hi0 hL]
  simp only
  have hmay : (if "update_filter" ∈ p.cnt.event then
      fastUpdateFilter q { p with ctrl := (fastGen q p T (off + i)).1.ctrl } (cut dims (fastGen q p T (off + i)).2 off len) i
      else .ok ({ p with ctrl := (fastGen q p T (off + i)).1.ctrl }, cut dims (fastGen q p T (off + i)).2 off len)) =
      .ok ((fastMaybe q (fastGen q p T (off + i)) (off + i)).1, cut dims (fastMaybe q (fastGen q p T (off + i)) (off + i)).2 off len) := by
    unfold fastMaybe
    have hcnt : (fastGen q p T (off + i)).1.cnt = p.cnt := rfl
    rw [hcnt]
    split
    · rename_i hev
      exact fastUpd_cut hd (fastGen q p T (off + i)).1 _ off len i (hi hev) (by omega)
    · rfl
  rw [hmay]
  simp only
  have hcnt : (fastMaybe q (fastGen q p T (off + i)) (off + i)).1.cnt = p.cnt := by
    unfold fastMaybe; split <;> rfl
  rw [hcnt, fxCount_eq q (by omega) p.cnt hg.defs]
  rfl

/-- How far the next call looks back. -/
def fastLook (q : FxPar R) (p : FastSt R) : Nat := if "update_filter" ∈ p.cnt.event then 2 * q.L else q.bs

/-- A window that begins before the buffer: the update raises. -/
theorem fastGrads_before {q : FxPar R} {dims : String → Option Nat} (hd : FxDims q dims) (E : Mat R) (g : Nat → Nat → R) :
    fastGrads q E (matOf (q.nr * q.nl * q.ne) 0 g) = .error .value := by
  have hLL := hd.L
  have hgrad : corrSum q.L q.ne (fun m => E.getD m []) (fun m => (matOf (q.nr * q.nl * q.ne) 0 g).getD (fxRow q 0 0 m) []) =
      .error .value := by
    unfold corrSum
    rw [if_neg]
    intro h
    have := (h 0 (List.mem_range.2 hd.ne)).2
    beta_reduce at this
    rw [matOf_getRow _ (fxRow_lt q hd.nr hd.nl hd.ne)] at this
    simp at this
    omega
  unfold fastGrads
  obtain ⟨a, ha⟩ := Nat.exists_eq_succ_of_ne_zero (by have := hd.nr; omega : q.nr ≠ 0)
  obtain ⟨b, hb⟩ := Nat.exists_eq_succ_of_ne_zero (by have := hd.nl; omega : q.nl ≠ 0)
  have ha' : List.range q.nr = 0 :: (List.range a).map Nat.succ := by rw [ha, List.range_succ_eq_map]
  have hb' : List.range q.nl = 0 :: (List.range b).map Nat.succ := by rw [hb, List.range_succ_eq_map]
  rw [ha', hb']
  exact mapM_first_error (mapM_first_error hgrad)

/-- A call that looks back beyond the beginning of the buffer raises `ValueError`. -/
theorem fastProcess_fails {q : FxPar R} {dims : String → Option Nat} (hd : FxDims q dims) {p : FastSt R} (hg : FastGood q p)
    (T : Tape R) (off : Int) (len i : Nat) (hM : 2 * q.L ≤ len) (hi : i < fastLook q p) (hL : i + q.bs ≤ len) :
    fastProcess q p (cut dims T off len) i = .error .value := by
  have hLL := hd.L
  have hbs := hd.bs
  unfold fastProcess
  by_cases h0 : i < q.bs
  · have hanc : ancProcess "ref" "loudspeaker" q.bs p.ctrl (cut dims T off len) i = .error .value := by
      unfold ancProcess
      rw [sigGet_before T off len i q.bs hd.ref h0 (by omega)]
      simp only
      rw [p.ctrl.process_ok (by simp [matOf, hg.cIn])]
      simp only
      unfold Fir.blockOut
      rw [hg.cOut, numCols_block _ hd.nr, sigAssign_nothing T off len i q.bs hd.ls hd.nl hbs hL]
    rw [hanc]
  · rw [fastGen_cut hd hg T off len i (by omega) hL]
    unfold fastLook at hi
    by_cases hev : "update_filter" ∈ p.cnt.event
    · rw [if_pos hev] at hi
      simp only [if_pos hev]
      have hupd : ∀ (p : FastSt R) (T : Tape R), fastUpdateFilter q p (cut dims T off len) i = .error .value := by
        intro p T
        unfold fastUpdateFilter
        by_cases hlt : i < q.L
        · rw [sigGet_before T off len i q.L hd.ref hlt (by omega)]
          simp only
          rw [osProcess_nothing hd.nr hLL]
        rw [sigGet_back T off len i q.L hd.ref (by omega) (by omega)]
        simp only
        rw [osProcess_block]
        simp only
        rw [show (matOf q.nr q.L fun c k => T "ref" c (off + i - q.L + k)) = refBlock q T (off + i) q.L from rfl,
          fastXf_cut hd p T off len i (by omega) (by omega)]
        simp only
        rw [sigGet_back _ off len i q.L hd.err (by omega) (by omega), sigGet_before _ off len i (2 * q.L) hd.xf hi hM,
          sigGet_back _ off len i q.L hd.xf (by omega) (by omega)]
        simp only
        rw [fastGrads_before hd]
      rw [hupd]
    · rw [if_neg hev] at hi
      omega

theorem fastStep_len {q : FxPar R} {c : R} {f : Fir R} {T : Tape R} {n : Int}
    (h : ∀ r < q.nr, ∀ l < q.nl, (f.mat.ir r l).length = q.L) :
    ∀ r < q.nr, ∀ l < q.nl, ((fastStep c f (rawGrads q T n)).mat.ir r l).length = q.L := by
  intro r hr l hl
  simp only [fastStep, List.length_zipWith, h r hr l hl, rawGrads]
  rw [List.getD_eq_getElem?_getD, List.getD_eq_getElem?_getD, List.getElem?_map, List.getElem?_range hr]
  simp only [Option.map_some, Option.getD_some]
  rw [List.getElem?_map, List.getElem?_range hl]
  simp

theorem fastAct_good {q : FxPar R} {p : FastSt R} (hg : FastGood q p) (T : Tape R) (n : Int) : FastGood q (fastAct q p T n).1 := by
  have hdefs : (fxCount q p.cnt q.bs).defs = p.cnt.defs := by cases q.bs <;> rfl
  unfold fastAct fastMaybe
  by_cases h : "update_filter" ∈ (fastGen q p T n).1.cnt.event
  · rw [if_pos h]
    exact ⟨hg.cIn, hg.cOut, fastStep_len (f := (fastGen q p T n).1.ctrl) hg.cLen, hdefs.trans hg.defs⟩
  · rw [if_neg h]
    exact ⟨hg.cIn, hg.cOut, hg.cLen, hdefs.trans hg.defs⟩

/-- Everything the processor writes to the store. -/
theorem fastAct_sig (q : FxPar R) (p : FastSt R) (T : Tape R) (n : Int) (k : String) (c : Nat) (t : Int)
    (h1 : k = "loudspeaker" → t < n ∨ n + q.bs ≤ t) (h2 : k = "xf" → t < n - q.L ∨ n ≤ t) :
    (fastAct q p T n).2 k c t = T k c t := by
  have a1 : (fastGen q p T n).2 k c t = T k c t := by
    unfold fastGen Tape.write
    simp only
    rw [if_neg]
    rintro ⟨e, h3, h4⟩
    have := h1 e
    omega
  unfold fastAct fastMaybe
  simp only
  split
  · unfold fastUpd fastXf Tape.write
    simp only
    rw [if_neg, a1]
    rintro ⟨e, h3, h4⟩
    have := h2 e
    omega
  · exact a1

/-- The processor for the simulations on the tape. -/
def fastTape {q : FxPar R} {dims : String → Option Nat} (hd : FxDims q dims) (hub : q.ub = q.L) : TapeProc dims (fastProc q) where
  M := 2 * q.L
  H := fastLook q
  good := FastGood q
  act := fastAct q
  conc := fun p T off i L hg hi hL => by
    have hLL := hd.L
    have hbb := hd.ub
    unfold fastLook at hi
    refine fastAct_cut hd hg T off L i ?_ ?_ hL
    · split at hi <;> omega
    · intro hev
      rw [if_pos hev] at hi
      omega
  fails := fun p T off i L hg hM hi hL => fastProcess_fails hd hg T off L i hM hi hL
  keep := fun _ T n hg => fastAct_good hg T n
  future := fun p T n k c t _ ht => fastAct_sig q p T n k c t
    (fun _ => .inr ht) (fun _ => .inr (by have : (fastProc q).bs = q.bs := rfl; omega))

/-! ### Preparation -/

/-- The state and the tape after `j` blocks of the history, which begins at time `off`. -/
def fastPast (q : FxPar R) (S : IrMat R) (T : Tape R) (off : Int) : Nat → FastSt R × Tape R
  | 0 => (fastInit q S, T)
  | j + 1 =>
    let r := fastPast q S T off j
    ({ r.1 with last := refBlock q T (off + ((j + 1) * q.L : Nat)) q.L },
      r.2.write "xf" (off + (j * q.L : Nat)) q.L (fastOut q r.1.ir r.1.last (refBlock q T (off + ((j + 1) * q.L : Nat)) q.L)))

theorem fastPast_good (q : FxPar R) (hub : q.ub = q.L) (S : IrMat R) (T : Tape R) (off : Int) :
    ∀ j, FastGood q (fastPast q S T off j).1
  | 0 => ⟨rfl, rfl, fun _ _ _ _ => by simp [fastPast, fastInit], by rw [hub]; rfl⟩
  | j + 1 => by
    have h := fastPast_good q hub S T off j
    exact ⟨h.cIn, h.cOut, h.cLen, h.defs⟩

theorem fastPast_cnt (q : FxPar R) (S : IrMat R) (T : Tape R) (off : Int) : ∀ j, (fastPast q S T off j).1.cnt = (fastInit q S).cnt
  | 0 => rfl
  | j + 1 => fastPast_cnt q S T off j

theorem fastPast_sig (q : FxPar R) (S : IrMat R) (T : Tape R) (off : Int) (k : String) (c : Nat) (t : Int) : ∀ j,
    (k = "xf" → t < off ∨ off + (j * q.L : Nat) ≤ t) → (fastPast q S T off j).2 k c t = T k c t
  | 0, _ => rfl
  | j + 1, h => by
    have e : (j + 1) * q.L = j * q.L + q.L := by rw [Nat.add_mul, Nat.one_mul]
    have ih := fastPast_sig q S T off k c t j (fun hk => by
      have := h hk
      rw [e] at this
      push_cast at this ⊢
      omega)
    show Tape.write _ _ _ _ _ k c t = _
    unfold Tape.write
    rw [if_neg, ih]
    rintro ⟨hk, h1, h2⟩
    have := h hk
    rw [e] at this
    push_cast at this h1 h2
    omega

theorem fastPast_cut {q : FxPar R} {S : IrMat R} {dims : String → Option Nat} (hd : FxDims q dims) (T : Tape R) (off : Int)
    (len : Nat) : ∀ j, j * q.L ≤ len →
    ((List.range j).map (· * q.L)).foldlM (fastPrepBlock q) (fastInit q S, cut dims T off len) =
      .ok ((fastPast q S T off j).1, cut dims (fastPast q S T off j).2 off len)
  | 0, _ => rfl
  | j + 1, hj => by
    have e : (j + 1) * q.L = j * q.L + q.L := by rw [Nat.add_mul, Nat.one_mul]
    rw [e] at hj
    have ih := fastPast_cut (S := S) hd T off len j (by omega)
    rw [List.range_succ, List.map_append, List.foldlM_append, ih]
    show (fastPrepBlock q _ (j * q.L) >>= fun s => pure s) = _
    unfold fastPrepBlock
    dsimp only
    have hget : sigGet (cut dims (fastPast q S T off j).2 off len) "ref" (j * q.L : Nat) (((j * q.L : Nat) : Int) + q.L) =
        .ok (matOf q.nr q.L fun c k => T "ref" c (off + ((j + 1) * q.L : Nat) - q.L + k)) := by
      rw [sigGet_cut _ off len "ref" (j * q.L) q.L (by omega)]
      unfold tGet
      rw [hd.ref]
      simp only
      congr 1
      refine matOf_congr fun c k _ _ => ?_
      rw [fastPast_sig q S T off "ref" c _ j (fun h => by simp at h)]
      congr 1
      rw [e]
      push_cast
      ring
    rw [hget]
    dsimp only
    rw [osProcess_block]
    dsimp only
    rw [show (matOf q.nr q.L fun c k => T "ref" c (off + ((j + 1) * q.L : Nat) - q.L + k)) =
      refBlock q T (off + ((j + 1) * q.L : Nat)) q.L from rfl]
    have := sigAssign_full (fastPast q S T off j).2 off len (j * q.L) q.L hd.xf (by omega)
      (fun o k => circConv (2 * q.L) ((fastPast q S T off j).1.ir (o / q.ne % q.nl) (o % q.ne))
        ((fastPast q S T off j).1.last.getD (o / (q.nl * q.ne)) [] ++
          (refBlock q T (off + ((j + 1) * q.L : Nat)) q.L).getD (o / (q.nl * q.ne)) []) (q.L + k)) rfl rfl
    unfold fastOut
    rw [this]
    rfl

end
end Verif

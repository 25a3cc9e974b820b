/-
Two simulations with the processor `FastBlockFxLMS` and different buffers, on the tape.
-/
import Verif.Lemmas.AdaptiveResize
import Verif.Lemmas.FastExact
namespace Verif

section
variable {R : Type} [Field R]

/-- The same step of both processors. -/
theorem fastAct_same {q : FxPar R} (p : FastSt R) {T T' : Tape R} {a n : Int}
    (hT : ∀ k c t, a ≤ t → T' k c t = T k c t) (h1 : a ≤ n - q.bs)
    (h2 : "update_filter" ∈ p.cnt.event → a ≤ n - (2 * q.L : Nat) + 1) (hL : 0 < q.L) :
    (fastAct q p T' n).1 = (fastAct q p T n).1 ∧
      ∀ k c t, a ≤ t → (fastAct q p T' n).2 k c t = (fastAct q p T n).2 k c t := by
  have hwrite : ∀ {T T' : Tape R}, (∀ k c t, a ≤ t → T' k c t = T k c t) → ∀ (nm : String) (b : Int) (w : Nat) (x : Mat R),
      ∀ k c t, a ≤ t → T'.write nm b w x k c t = T.write nm b w x k c t := by
    intro T T' hT nm b w x k c t ht
    unfold Tape.write
    split
    · rfl
    · exact hT k c t ht
  have href : ∀ {T T' : Tape R}, (∀ k c t, a ≤ t → T' k c t = T k c t) → ∀ w : Nat, a ≤ n - w →
      refBlock q T' n w = refBlock q T n w := by
    intro T T' hT w hw
    unfold refBlock
    exact matOf_congr fun c k _ _ => hT _ _ _ (by omega)
  have hgen : (fastGen q p T' n).1 = (fastGen q p T n).1 := by
    unfold fastGen
    simp only
    rw [href hT q.bs h1]
  have hgenT : ∀ k c t, a ≤ t → (fastGen q p T' n).2 k c t = (fastGen q p T n).2 k c t := by
    unfold fastGen
    simp only
    rw [href hT q.bs h1]
    exact hwrite hT _ _ _ _
  have hupd : a ≤ n - (2 * q.L : Nat) + 1 → ∀ (p : FastSt R) {T T' : Tape R}, (∀ k c t, a ≤ t → T' k c t = T k c t) →
      (fastUpd q p T' n).1 = (fastUpd q p T n).1 ∧ ∀ k c t, a ≤ t → (fastUpd q p T' n).2 k c t = (fastUpd q p T n).2 k c t := by
    intro h2 p T T' hT
    have hr := href hT q.L (by omega)
    have hX : ∀ k c t, a ≤ t → fastXf q p T' n k c t = fastXf q p T n k c t := by
      unfold fastXf
      rw [hr]
      exact hwrite hT _ _ _ _
    have hg : rawGrads q (fastXf q p T' n) n = rawGrads q (fastXf q p T n) n := by
      unfold rawGrads
      refine List.map_congr_left fun r _ => List.map_congr_left fun l _ => List.map_congr_left fun k hk => ?_
      rw [List.mem_range] at hk
      unfold rawGrad
      refine Finset.sum_congr rfl fun m _ => Finset.sum_congr rfl fun i _ => ?_
      rw [hX _ _ _ (by omega), hX _ _ _ (by omega)]
    refine ⟨?_, hX⟩
    unfold fastUpd
    simp only
    rw [hg, hr]
    congr 3
    congr 1
    exact matOf_congr fun c k _ _ => hX _ _ _ (by omega)
  have hmay : (fastMaybe q (fastGen q p T' n) n).1 = (fastMaybe q (fastGen q p T n) n).1 ∧
      ∀ k c t, a ≤ t → (fastMaybe q (fastGen q p T' n) n).2 k c t = (fastMaybe q (fastGen q p T n) n).2 k c t := by
    unfold fastMaybe
    rw [show (fastGen q p T' n).1.cnt = (fastGen q p T n).1.cnt by rw [hgen]]
    split
    · rename_i hev
      have := hupd (h2 hev) (fastGen q p T n).1 hgenT
      rw [show fastUpd q (fastGen q p T' n).1 (fastGen q p T' n).2 n = fastUpd q (fastGen q p T n).1 (fastGen q p T' n).2 n by rw [hgen]]
      exact this
    · exact ⟨hgen, hgenT⟩
  refine ⟨?_, hmay.2⟩
  unfold fastAct
  simp only
  rw [hmay.1]

/-- The blocks of a silent history. -/
theorem fastPast_silent (q : FxPar R) (S : IrMat R) {T : Tape R} {B : Nat}
    (hz : ∀ c < q.nr, ∀ t : Int, -(B : Int) ≤ t → t < 0 → T "ref" c t = 0) (hx : ∀ c t, T "xf" c t = 0) :
    ∀ j, j * q.L ≤ B → (fastPast q S T (-(B : Int)) j).1 = fastInit q S ∧
      ∀ k c t, (fastPast q S T (-(B : Int)) j).2 k c t = T k c t
  | 0, _ => ⟨rfl, fun _ _ _ => rfl⟩
  | j + 1, hj => by
    have e : (j + 1) * q.L = j * q.L + q.L := by rw [Nat.add_mul, Nat.one_mul]
    have hj' := hj
    rw [e] at hj'
    obtain ⟨h1, h2⟩ := fastPast_silent q S hz hx j (by omega)
    have hb : refBlock q T (-(B : Int) + ((j + 1) * q.L : Nat)) q.L = List.replicate q.nr (List.replicate q.L 0) := by
      rw [show List.replicate q.nr (List.replicate q.L (0 : R)) = matOf q.nr q.L fun _ _ => 0 by unfold matOf; simp]
      unfold refBlock
      refine matOf_congr fun c k hc hk => hz c hc _ ?_ ?_
      · rw [e]; omega
      · omega
    constructor
    · simp only [fastPast]
      rw [hb, h1]
      rfl
    · intro k c t
      simp only [fastPast]
      rw [hb, h1]
      unfold Tape.write
      split
      · rename_i hh
        rw [hh.1, hx]
        unfold matVal fastOut matOf
        rw [List.getD_eq_getElem?_getD (a := ([] : List R)), List.getElem?_map]
        cases hc : (List.range (q.nr * q.nl * q.ne))[c]? with
        | none => rfl
        | some c' =>
          simp only [Option.map_some, Option.getD_some]
          rw [List.getD_eq_getElem?_getD, List.getElem?_map]
          cases hk : (List.range q.L)[(t - (-(B : Int) + (j * q.L : Nat))).toNat]? with
          | none => rfl
          | some k' =>
            simp only [Option.map_some, Option.getD_some]
            have hrow : ∀ i s : Nat, ((List.replicate q.nr (List.replicate q.L (0 : R))).getD i [] ++
                (List.replicate q.nr (List.replicate q.L (0 : R))).getD i []).getD s 0 = 0 := by
              intro i s
              by_cases hi : i < q.nr
              · simp only [List.getD_eq_getElem?_getD, List.getElem?_replicate, hi, if_true, Option.getD_some,
                  List.replicate_append_replicate]
                split <;> rfl
              · simp [List.getD_eq_getElem?_getD, hi]
            unfold circConv
            simp only [fastInit, hrow, mul_zero]
            simp
      · exact h2 k c t

end

section
variable {R IR F S A D O : Type} [Field R] {cfg : SimCfg R IR F S A (FastSt R) D O} {q : FxPar R}

/-- An update looks at samples of the buffer. -/
theorem FastScene.looked (h : FastScene cfg q) (hN : Names cfg) {e0 : Eng (Tape R) F S A (FastSt R)}
    {st0 st : SimSt R F S A (FastSt R) D O} {r0 : Int}
    (hI : GInv (fastTape (fast_dims h hN) h.ub.1) e0 0 st0 e0 (-(cfg.B : Int)) r0)
    {k : Nat} (hk : cfg.steps k st0 = .ok st) {j : Nat} (hj : j < k) {te : Eng (Tape R) F S A (FastSt R)}
    (ht : cfg.gSteps (fastTape (fast_dims h hN) h.ub.1) j e0 = .ok te) (hm : j % q.bs = q.bs - 1)
    (hev : "update_filter" ∈ te.proc.cnt.event) : 2 * q.L ≤ cfg.B + j := by
  obtain ⟨m, rfl⟩ := Nat.exists_eq_add_of_lt hj
  rw [Nat.add_right_comm] at hk
  obtain ⟨s', hs'⟩ := steps_prefix cfg (n := j + 1) m hk
  simp only [SimCfg.steps] at hs'
  split at hs'
  · cases hs'
  · rename_i s1 h1
    obtain ⟨te1, off, r, hT⟩ := GInv.steps (fast_sizes h hN) hI j h1
    have hte : te1 = te := by have := hT.tape; rw [ht] at this; cases this; rfl
    subst hte
    unfold SimCfg.step at hs'
    cases he : cfg.engine s1.n s1.idx s1.eng with
    | error x => rw [he] at hs'; cases hs'
    | ok e =>
      have hr := hT.reach (fast_sizes h hN) he hm
      have hle := steps_index_le j h1
      have h0 : st0.idx = cfg.B := by have := hI.pos.sync; omega
      change ((fastLook q te1.proc : Nat) : Int) ≤ _ at hr
      unfold fastLook at hr
      rw [if_pos hev] at hr
      omega

/-- Whole runs. -/
theorem gSteps_sameFast {B' C' m : Nat} (hub : q.ub = q.L) (hd : FxDims q cfg.dims)
    (hd' : FxDims q ({ cfg with B := B', C := C' } : SimCfg R IR F S A (FastSt R) D O).dims)
    (hm1 : 1 ≤ m) {e e' : Eng (Tape R) F S A (FastSt R)} (h : Agr m e e') :
    ∀ k {u u'}, (∀ j < k, ∀ v v', cfg.gSteps (fastTape hd hub) j e = .ok v →
        ({ cfg with B := B', C := C' } : SimCfg R IR F S A (FastSt R) D O).gSteps (fastTape hd' hub) j e' = .ok v' → j % q.bs = q.bs - 1 →
        "update_filter" ∈ v.proc.cnt.event → "update_filter" ∈ v'.proc.cnt.event → 2 * q.L ≤ m + j + 1) →
      cfg.gSteps (fastTape hd hub) k e = .ok u →
      ({ cfg with B := B', C := C' } : SimCfg R IR F S A (FastSt R) D O).gSteps (fastTape hd' hub) k e' = .ok u' →
      Agr m u u'
  | 0, u, u', _, h1, h1' => by cases h1; cases h1'; exact h
  | k + 1, u, u', hm, h1, h1' => by
    simp only [SimCfg.gSteps] at h1 h1'
    split at h1
    · cases h1
    · rename_i v hv
      split at h1'
      · cases h1'
      · rename_i v' hv'
        have hA := gSteps_sameFast hub hd hd' hm1 h k (fun j hj => hm j (by omega)) hv hv'
        unfold SimCfg.gEngine at h1 h1'
        change (match cfg.arrUpdate v'.arr k with
          | .error x => (.error x : Except PyErr (Eng (Tape R) F S A (FastSt R)))
          | .ok arr => cfg.tPropagate k (cfg.gProc (fastTape hd hub) k { v' with arr := arr })) = _ at h1'
        rw [hA.arr] at h1'
        split at h1
        · cases h1
        · rename_i arr ha
          rw [ha] at h1'
          dsimp only at h1'
          refine tPropagate_agr (cfg := cfg) ?_ h1 h1'
          unfold SimCfg.gProc
          split
          · rename_i hb
            have hbs : (fastProc q).bs = q.bs := rfl
            have hbs0 := hd.bs
            have hk : q.bs - 1 ≤ k := by rw [hbs] at hb; rw [← hb]; exact Nat.mod_le _ _
            have := fastAct_same v.proc (a := -(m : Int)) (n := (k : Int)) hA.sig (by omega)
              (fun hev => by have := hm k (by omega) v v' hv hv' hb hev (by rw [hA.proc]; exact hev); omega) hd.L
            refine ⟨hA.srcs, hA.filts, rfl, ?_, ?_⟩
            · show (fastAct q v'.proc v'.sig k).1 = (fastAct q v.proc v.sig k).1
              rw [hA.proc]
              exact this.1
            · show ∀ kk c t, -(m : Int) ≤ t → (fastAct q v'.proc v'.sig k).2 kk c t = (fastAct q v.proc v.sig k).2 kk c t
              rw [hA.proc]
              exact this.2
          · exact ⟨hA.srcs, hA.filts, rfl, hA.proc, hA.sig⟩

/-- The prepared processors: the reference was silent. -/
theorem fastStart_same (h : FastScene cfg q) (hN : Names cfg) {Sp : IrMat R} {B' C' m : Nat}
    (hN' : Names ({ cfg with B := B', C := C' } : SimCfg R IR F S A (FastSt R) D O))
    {srcs : String → S} {arr : A} {f0 : F} {e e' : Eng (Tape R) F S A (FastSt R)}
    (he : cfg.tInit srcs arr (fastInit q Sp) f0 = .ok e)
    (he' : ({ cfg with B := B', C := C' } : SimCfg R IR F S A (FastSt R) D O).tInit srcs arr (fastInit q Sp) f0 = .ok e')
    (hA : Agr m e e') (hz : ∀ c < q.nr, ∀ t : Int, -(cfg.B : Int) ≤ t → t < 0 → e.sig "ref" c t = 0)
    (hz' : ∀ c < q.nr, ∀ t : Int, -(B' : Int) ≤ t → t < 0 → e'.sig "ref" c t = 0) :
    Agr m (fastStart q Sp cfg.B e) (fastStart q Sp B' e') := by
  have hun : Unwritten cfg "xf" := fastXf_unwritten h
  obtain ⟨p1, p2⟩ := fastPast_silent q Sp hz (fun c t => tInit_unwritten hN he hun c t) (cfg.B / q.L) (Nat.div_mul_le_self _ _)
  obtain ⟨p1', p2'⟩ := fastPast_silent q Sp hz' (fun c t => tInit_unwritten hN' he' ⟨hun.src, hun.mic, hun.con⟩ c t) (B' / q.L)
    (Nat.div_mul_le_self _ _)
  refine ⟨hA.srcs, hA.filts, hA.arr, ?_, ?_⟩
  · show (fastPast q Sp e'.sig _ _).1 = (fastPast q Sp e.sig _ _).1
    rw [p1, p1']
  · intro k c t ht
    show (fastPast q Sp e'.sig _ _).2 k c t = (fastPast q Sp e.sig _ _).2 k c t
    rw [p2, p2']
    exact hA.sig k c t ht

/-- Histories that hold one and the same sample, and buffers with the same remainder. -/
theorem fastStart_phase (h : FastScene cfg q) {Sp : IrMat R} {B' m : Nat} {e e' : Eng (Tape R) F S A (FastSt R)}
    (hB : 2 * q.L ≤ cfg.B) (hB' : 2 * q.L ≤ B') (hmod : B' % q.L = cfg.B % q.L) (hA : Agr m e e') (hm : q.L + cfg.B % q.L ≤ m)
    (hz : ∀ c < q.nr, ∀ t : Int, -(cfg.B : Int) ≤ t → t < 0 → e.sig "ref" c t = e.sig "ref" c (-1))
    (hz' : ∀ c < q.nr, ∀ t : Int, -(B' : Int) ≤ t → t < 0 → e'.sig "ref" c t = e'.sig "ref" c (-1))
    (hp : e.proc = fastInit q Sp) (hp' : e'.proc = fastInit q Sp) :
    Agr (q.L + cfg.B % q.L) (fastStart q Sp cfg.B e) (fastStart q Sp B' e') := by
  have hL := h.L
  have key : ∀ {B : Nat} {e : Eng (Tape R) F S A (FastSt R)}, 2 * q.L ≤ B →
      (∀ c < q.nr, ∀ t : Int, -(B : Int) ≤ t → t < 0 → e.sig "ref" c t = e.sig "ref" c (-1)) →
      (fastStart q Sp B e).proc = { fastInit q Sp with last := matOf q.nr q.L fun c _ => e.sig "ref" c (-1) } ∧
      ∀ k c t, -((q.L + B % q.L : Nat) : Int) ≤ t → (fastStart q Sp B e).sig k c t =
        e.sig.write "xf" (-((q.L + B % q.L : Nat) : Int)) q.L (fastOut q (fastSecIr q Sp) (matOf q.nr q.L fun c _ => e.sig "ref" c (-1))
          (matOf q.nr q.L fun c _ => e.sig "ref" c (-1))) k c t := by
    intro B e hB hz
    obtain ⟨j, hj⟩ : ∃ j, B / q.L = j + 2 := ⟨B / q.L - 2, by have := (Nat.le_div_iff_mul_le hL).2 hB; omega⟩
    have hdm := Nat.div_add_mod B q.L
    rw [hj, Nat.mul_comm] at hdm
    have e1 : (j + 1 + 1) * q.L = (j + 1) * q.L + q.L := by rw [Nat.add_mul (j + 1), Nat.one_mul]
    have e0 : (j + 1) * q.L = j * q.L + q.L := by rw [Nat.add_mul, Nat.one_mul]
    change (j + 1 + 1) * q.L + B % q.L = B at hdm
    have hir : ∀ i, (fastPast q Sp e.sig (-(B : Int)) i).1 =
        { fastInit q Sp with last := (fastPast q Sp e.sig (-(B : Int)) i).1.last } := by
      intro i
      induction i with
      | zero => rfl
      | succ i ih => simp only [fastPast]; rw [ih]
    have hb : ∀ i, (i + 1) * q.L ≤ B → refBlock q e.sig (-(B : Int) + ((i + 1) * q.L : Nat)) q.L =
        matOf q.nr q.L fun c _ => e.sig "ref" c (-1) := by
      intro i hi
      unfold refBlock
      have e0 : (i + 1) * q.L = i * q.L + q.L := by rw [Nat.add_mul, Nat.one_mul]
      refine matOf_congr fun c k hc hk => hz c hc _ ?_ ?_
      · rw [e0]; omega
      · omega
    have hlast : (fastPast q Sp e.sig (-(B : Int)) (j + 1)).1.last = matOf q.nr q.L fun c _ => e.sig "ref" c (-1) := by
      simp only [fastPast]
      exact hb j (by omega)
    constructor
    · show (fastPast q Sp e.sig _ (B / q.L)).1 = _
      have hl : (fastPast q Sp e.sig (-(B : Int)) (j + 2)).1.last = matOf q.nr q.L fun c _ => e.sig "ref" c (-1) :=
        hb (j + 1) (by omega)
      have := hir (j + 2)
      rw [hl] at this
      rw [hj]
      exact this
    · intro k c t ht
      show (fastPast q Sp e.sig _ (B / q.L)).2 k c t = _
      rw [hj]
      show Tape.write _ _ _ _ _ _ _ _ = _
      rw [hb (j + 1) (by omega), hlast, show (fastPast q Sp e.sig (-(B : Int)) (j + 1)).1.ir = fastSecIr q Sp by rw [hir]; rfl,
        show -(B : Int) + ((j + 1) * q.L : Nat) = -((q.L + B % q.L : Nat) : Int) by omega]
      unfold Tape.write
      split
      · rfl
      · exact fastPast_sig q Sp e.sig _ k c t _ (fun _ => .inr (by omega))
  obtain ⟨k1, k2⟩ := key hB hz
  obtain ⟨k1', k2'⟩ := key hB' hz'
  rw [hmod] at k2'
  have hL1 : (matOf q.nr q.L fun c _ => e'.sig "ref" c (-1)) = matOf q.nr q.L fun c _ => e.sig "ref" c (-1) :=
    matOf_congr fun c _ _ _ => hA.sig _ _ _ (by omega)
  refine ⟨hA.srcs, hA.filts, hA.arr, ?_, ?_⟩
  · rw [k1, k1', hL1]
  · intro k c t ht
    rw [k2 k c t ht, k2' k c t ht, hL1]
    unfold Tape.write
    split
    · rfl
    · exact hA.sig k c t (by omega)

omit [Field R] in
/-- An update comes after the first `L` samples. -/
theorem fastCnt_update {k : Nat} {p : FastSt R} (hbs : 0 < q.bs) (hub : q.ub = q.L) (h : CntInv q k p.asFx)
    (hm : k % q.bs = q.bs - 1) (hev : "update_filter" ∈ p.cnt.event) : q.L ≤ k + 1 := by
  have e : k / q.bs * q.bs = k + 1 - q.bs := by
    have h1 := Nat.div_add_mod k q.bs
    rw [Nat.mul_comm] at h1
    omega
  obtain ⟨h1, h2⟩ := h.2.1 hev
  rw [e, hub] at h2
  have : 0 < k + 1 - q.bs := by rw [← e]; exact Nat.mul_pos h1 hbs
  have := Nat.le_of_dvd this h2
  omega

end
end Verif

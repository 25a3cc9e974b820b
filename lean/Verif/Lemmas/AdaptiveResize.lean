/-
Two simulations with the processor `FxLMS` and different buffers, on the tape.
-/
import Verif.Lemmas.AdaptiveReach
import Verif.Lemmas.Resize
import Verif.Lemmas.Started
namespace Verif

section
variable {R : Type} [Field R]

/-- Two past inputs of a filter that differ in the number of zeros before the first
sample only. -/
def SamePast (h h' : List (List R)) : Prop :=
  ∀ k s, (h.getD k []).getD s 0 = (h'.getD k []).getD s 0

theorem SamePast.append {h h' : List (List R)} (hs : SamePast h h') (x : List (List R)) :
    SamePast (x ++ h) (x ++ h') := by
  intro k s
  by_cases hk : k < x.length
  · rw [List.getD_append _ _ _ _ hk, List.getD_append _ _ _ _ hk]
  · rw [List.getD_append_right _ _ _ _ (by omega), List.getD_append_right _ _ _ _ (by omega)]
    exact hs _ _

theorem SamePast.firOut {h h' : List (List R)} (hs : SamePast h h') (M : IrMat R) (m : Nat) :
    firOut M h m = firOut M h' m := by
  unfold Verif.firOut
  refine congrArg List.sum (List.map_congr_left fun s _ => congrArg List.sum (List.map_congr_left fun k _ => ?_))
  rw [hs k s]

/-- Processors that differ in the length of the silence before the first sample. -/
structure FxSame (p p' : FxSt R) : Prop where
  ctrl : p'.ctrl = p.ctrl
  cnt : p'.cnt = p.cnt
  mat : p'.sec.mat = p.sec.mat
  past : SamePast p.sec.hist p'.sec.hist

theorem FxSame.blockOut {p p' : FxSt R} (h : FxSame p p') (x : Mat R) : p'.sec.blockOut x = p.sec.blockOut x := by
  unfold Fir.blockOut
  rw [h.mat]
  refine matOf_congr fun m k _ _ => ?_
  exact ((h.past.append _).firOut _ _).symm

theorem FxSame.push {p p' : FxSt R} (h : FxSame p p') (x : Mat R) :
    SamePast (p.sec.pushBlock x).hist (p'.sec.pushBlock x).hist := h.past.append _

/-- The same steps of both processors. -/
theorem fxAct_same {q : FxPar R} {p p' : FxSt R} (h : FxSame p p') {T T' : Tape R} {a n : Int}
    (hT : ∀ k c t, a ≤ t → T' k c t = T k c t) (h1 : a ≤ n - q.bs) 
    (h2 : "update_filter" ∈ p.cnt.event → a ≤ n - q.ub - q.L + 1) (hL : 0 < q.L) :
    FxSame (fxAct q p T n).1 (fxAct q p' T' n).1 ∧
      ∀ k c t, a ≤ t → (fxAct q p' T' n).2 k c t = (fxAct q p T n).2 k c t := by
  have hwrite : ∀ {T T' : Tape R}, (∀ k c t, a ≤ t → T' k c t = T k c t) → ∀ (nm : String) (b : Int) (w : Nat) (x : Mat R),
      ∀ k c t, a ≤ t → T'.write nm b w x k c t = T.write nm b w x k c t := by
    intro T T' hT nm b w x k c t ht
    unfold Tape.write
    split
    · rfl
    · exact hT k c t ht
  have href : ∀ {T T' : Tape R}, (∀ k c t, a ≤ t → T' k c t = T k c t) → ∀ w : Nat, a ≤ n - w →
      refBlock q T' n w = refBlock q T n w := by
    intro T T' hT w hw
    unfold refBlock
    exact matOf_congr fun c k _ _ => hT _ _ _ (by omega)
  have hgen : FxSame (fxGen q p T n).1 (fxGen q p' T' n).1 := by
    unfold fxGen
    refine ⟨?_, h.cnt, h.mat, h.past⟩
    simp only
    rw [h.ctrl, href hT q.bs h1]
  have hgenT : ∀ k c t, a ≤ t → (fxGen q p' T' n).2 k c t = (fxGen q p T n).2 k c t := by
    unfold fxGen
    simp only
    rw [h.ctrl, href hT q.bs h1]
    exact hwrite hT _ _ _ _
  have hupd : a ≤ n - q.ub - q.L + 1 → ∀ {p p' : FxSt R} {T T' : Tape R}, FxSame p p' → (∀ k c t, a ≤ t → T' k c t = T k c t) →
      FxSame (fxUpd q p T n).1 (fxUpd q p' T' n).1 ∧ ∀ k c t, a ≤ t → (fxUpd q p' T' n).2 k c t = (fxUpd q p T n).2 k c t := by
    intro h2 p p' T T' h hT
    have hr := href hT q.ub (by omega)
    have hX : ∀ k c t, a ≤ t → (fxUpd q p' T' n).2 k c t = (fxUpd q p T n).2 k c t := by
      unfold fxUpd
      simp only
      rw [hr, h.blockOut]
      exact hwrite hT _ _ _ _
    have hg : tapeGrads q (fxUpd q p' T' n).2 n = tapeGrads q (fxUpd q p T n).2 n := by
      unfold tapeGrads
      refine List.map_congr_left fun r _ => List.map_congr_left fun l _ => List.map_congr_left fun k hk => ?_
      rw [List.mem_range] at hk
      unfold lmsGrad
      refine Finset.sum_congr rfl fun i hi => ?_
      congr 1
      · refine Finset.sum_congr rfl fun m _ => ?_
        unfold tapeXf
        rw [hX _ _ _ (by omega), hX _ _ _ (by omega)]
      · unfold lmsWeight
        cases q.norm with
        | none => rfl
        | sample =>
          simp only
          congr 2
          refine Finset.sum_congr rfl fun r _ => Finset.sum_congr rfl fun l _ => Finset.sum_congr rfl fun m _ =>
            Finset.sum_congr rfl fun j hj => ?_
          rw [Finset.mem_range] at hj
          unfold tapeXf
          rw [hX _ _ _ (by omega)]
        | block =>
          simp only
          congr 2
          refine Finset.sum_congr rfl fun r _ => Finset.sum_congr rfl fun l _ => Finset.sum_congr rfl fun m _ =>
            Finset.sum_congr rfl fun j hj => ?_
          unfold tapeXf
          rw [hX _ _ _ (by omega)]
    refine ⟨⟨?_, h.cnt, h.mat, ?_⟩, hX⟩
    · show fxStep q.mu p'.ctrl (tapeGrads q (fxUpd q p' T' n).2 n) = fxStep q.mu p.ctrl (tapeGrads q (fxUpd q p T n).2 n)
      rw [hg, h.ctrl]
    · show SamePast (p.sec.pushBlock (refBlock q T n q.ub)).hist (p'.sec.pushBlock (refBlock q T' n q.ub)).hist
      rw [hr]
      exact h.push _
  have hmay : FxSame (fxMaybe q (fxGen q p T n) n).1 (fxMaybe q (fxGen q p' T' n) n).1 ∧
      ∀ k c t, a ≤ t → (fxMaybe q (fxGen q p' T' n) n).2 k c t = (fxMaybe q (fxGen q p T n) n).2 k c t := by
    unfold fxMaybe
    rw [hgen.cnt]
    split
    · rename_i hev
      exact hupd (h2 hev) hgen hgenT
    · exact ⟨hgen, hgenT⟩
  refine ⟨⟨hmay.1.ctrl, ?_, hmay.1.mat, hmay.1.past⟩, hmay.2⟩
  show fxCount q p'.cnt q.bs = fxCount q p.cnt q.bs
  rw [h.cnt]

end

section
variable {R IR F S A D O : Type} [Field R] {cfg : SimCfg R IR F S A (FxSt R) D O} {q : FxPar R}

/-- Whole runs. -/
theorem gSteps_same {B' C' m : Nat} (hd : FxDims q cfg.dims)
    (hd' : FxDims q ({ cfg with B := B', C := C' } : SimCfg R IR F S A (FxSt R) D O).dims)
    (hm1 : 1 ≤ m) {e e' : Eng (Tape R) F S A (FxSt R)} (h : AgrP FxSame m e e') :
    ∀ k {u u'}, (∀ j < k, ∀ v v', cfg.gSteps (fxTape hd) j e = .ok v →
        ({ cfg with B := B', C := C' } : SimCfg R IR F S A (FxSt R) D O).gSteps (fxTape hd') j e' = .ok v' → j % q.bs = q.bs - 1 →
        "update_filter" ∈ v.proc.cnt.event → "update_filter" ∈ v'.proc.cnt.event → q.ub + q.L ≤ m + j + 1) → cfg.gSteps (fxTape hd) k e = .ok u →
      ({ cfg with B := B', C := C' } : SimCfg R IR F S A (FxSt R) D O).gSteps (fxTape hd') k e' = .ok u' →
      AgrP FxSame m u u'
  | 0, u, u', _, h1, h1' => by cases h1; cases h1'; exact h
  | k + 1, u, u', hm, h1, h1' => by
    simp only [SimCfg.gSteps] at h1 h1'
    split at h1
    · cases h1
    · rename_i v hv
      split at h1'
      · cases h1'
      · rename_i v' hv'
        have hA := gSteps_same hd hd' hm1 h k (fun j hj => hm j (by omega)) hv hv'
        unfold SimCfg.gEngine at h1 h1'
        change (match cfg.arrUpdate v'.arr k with
          | .error x => (.error x : Except PyErr (Eng (Tape R) F S A (FxSt R)))
          | .ok arr => cfg.tPropagate k (cfg.gProc (fxTape hd) k { v' with arr := arr })) = _ at h1'
        rw [hA.arr] at h1'
        split at h1
        · cases h1
        · rename_i arr ha
          rw [ha] at h1'
          dsimp only at h1'
          refine tPropagate_agr (cfg := cfg) ?_ h1 h1'
          unfold SimCfg.gProc
          split
          · rename_i hb
            have hbs : (fxProc q).bs = q.bs := rfl
            have hbs0 := hd.bs
            have hk : q.bs - 1 ≤ k := by rw [hbs] at hb; rw [← hb]; exact Nat.mod_le _ _
            have := fxAct_same hA.proc (a := -(m : Int)) (n := (k : Int)) hA.sig (by omega)
              (fun hev => by have := hm k (by omega) v v' hv hv' hb hev (by rw [hA.proc.cnt]; exact hev); omega) hd.L
            exact ⟨hA.srcs, hA.filts, rfl, this.1, this.2⟩
          · exact ⟨hA.srcs, hA.filts, rfl, hA.proc, hA.sig⟩

/-- A past of silence. -/
theorem firOut_silent {h : List (List R)} (hz : ∀ k s, (h.getD k []).getD s 0 = 0) (M : IrMat R) (m : Nat) :
    firOut M h m = 0 := by
  unfold firOut
  rw [List.sum_eq_zero]
  intro x hx
  obtain ⟨s, -, rfl⟩ := List.mem_map.1 hx
  rw [List.sum_eq_zero]
  intro y hy
  obtain ⟨k, -, rfl⟩ := List.mem_map.1 hy
  rw [hz, mul_zero]

theorem silentBlock {T : Tape R} {B : Nat} (hz : ∀ c < q.nr, ∀ t : Int, -(B : Int) ≤ t → t < 0 → T "ref" c t = 0) {n : Nat}
    {l : List (List R)} (hl : ∀ x ∈ l, x ∈ colsOf (refBlock q T 0 B) n) (k s : Nat) : (l.getD k []).getD s 0 = 0 := by
  rw [List.getD_eq_getElem?_getD (l := l)]
  cases hk : l[k]? with
  | none => rfl
  | some x =>
    have hx := hl x (List.mem_of_getElem? hk)
    unfold colsOf at hx
    obtain ⟨j, -, rfl⟩ := List.mem_map.1 hx
    simp only [Option.getD_some]
    rw [List.getD_eq_getElem?_getD, List.getElem?_map]
    cases hs : (refBlock q T 0 B)[s]? with
    | none => rfl
    | some row =>
      simp only [Option.map_some, Option.getD_some]
      unfold refBlock matOf at hs
      rw [List.getElem?_map, Option.map_eq_some_iff] at hs
      obtain ⟨c, hc, rfl⟩ := hs
      rw [List.getD_eq_getElem?_getD, List.getElem?_map]
      have hcn : c < q.nr := List.mem_range.1 (List.mem_of_getElem? hc)
      cases hj : (List.range B)[j]? with
      | none => rfl
      | some j' =>
        have hj' : j' < B := List.mem_range.1 (List.mem_of_getElem? hj)
        exact hz c hcn _ (by omega) (by omega)

/-- The prepared processors: the reference was silent. -/
theorem fxStart_same (h : FxScene cfg q) (hN : Names cfg) {Sp : IrMat R} {B' C' m : Nat}
    (hN' : Names ({ cfg with B := B', C := C' } : SimCfg R IR F S A (FxSt R) D O))
    {srcs : String → S} {arr : A} {f0 : F} {e e' : Eng (Tape R) F S A (FxSt R)}
    (he : cfg.tInit srcs arr (fxInit q Sp) f0 = .ok e)
    (he' : ({ cfg with B := B', C := C' } : SimCfg R IR F S A (FxSt R) D O).tInit srcs arr (fxInit q Sp) f0 = .ok e')
    (hA : Agr m e e') (hz : ∀ c < q.nr, ∀ t : Int, -(cfg.B : Int) ≤ t → t < 0 → e.sig "ref" c t = 0)
    (hz' : ∀ c < q.nr, ∀ t : Int, -(B' : Int) ≤ t → t < 0 → e'.sig "ref" c t = 0) :
    AgrP FxSame m (fxStart q cfg.B e) (fxStart q B' e') := by
  have hp := tInit_proc hN he
  have hp' := tInit_proc hN' he'
  have hout : ∀ {e : Eng (Tape R) F S A (FxSt R)} {B : Nat}, e.proc = fxInit q Sp →
      (∀ c < q.nr, ∀ t : Int, -(B : Int) ≤ t → t < 0 → e.sig "ref" c t = 0) → ∀ c j,
      matVal (e.proc.sec.blockOut (refBlock q e.sig 0 B)) c j = 0 := by
    intro e B hp hz c j
    unfold Fir.blockOut matVal matOf
    rw [List.getD_eq_getElem?_getD (a := ([] : List R)), List.getElem?_map]
    cases hc : (List.range e.proc.sec.mat.numOut)[c]? with
    | none => rfl
    | some c' =>
      simp only [Option.map_some, Option.getD_some]
      rw [List.getD_eq_getElem?_getD, List.getElem?_map]
      cases hj : (List.range (numCols (refBlock q e.sig 0 B)))[j]? with
      | none => rfl
      | some j' =>
        simp only [Option.map_some, Option.getD_some]
        refine firOut_silent (silentBlock (q := q) (n := numCols (refBlock q e.sig 0 B)) hz ?_) _ _
        intro x hx
        rw [hp] at hx
        simp only [fxInit, List.append_nil, List.mem_reverse] at hx
        exact List.mem_of_mem_take hx
  refine ⟨hA.srcs, hA.filts, hA.arr, ?_, ?_⟩
  · refine ⟨?_, ?_, ?_, ?_⟩
    · show e'.proc.ctrl = e.proc.ctrl
      rw [hA.proc]
    · show e'.proc.cnt = e.proc.cnt
      rw [hA.proc]
    · show e'.proc.sec.mat = e.proc.sec.mat
      rw [hA.proc]
    · intro k s
      show ((((colsOf _ _).reverse ++ e.proc.sec.hist)).getD k []).getD s 0 =
        ((((colsOf _ _).reverse ++ e'.proc.sec.hist)).getD k []).getD s 0
      rw [hp, hp']
      simp only [fxInit, List.append_nil]
      rw [silentBlock (q := q) hz (fun x hx => List.mem_reverse.1 hx), silentBlock (q := q) hz' (fun x hx => List.mem_reverse.1 hx)]
  · intro k c t ht
    show Tape.write _ _ _ _ _ _ _ _ = Tape.write _ _ _ _ _ _ _ _
    have hw : ∀ {e : Eng (Tape R) F S A (FxSt R)} {B : Nat}, e.proc = fxInit q Sp →
        (∀ c < q.nr, ∀ t : Int, -(B : Int) ≤ t → t < 0 → e.sig "ref" c t = 0) → (∀ c t, e.sig "xf" c t = 0) →
        e.sig.write "xf" (-(B : Int)) B (e.proc.sec.blockOut (refBlock q e.sig 0 B)) k c t = e.sig k c t := by
      intro e B hp hz hx
      unfold Tape.write
      split
      · rename_i hh
        rw [hh.1, hx]
        exact hout hp hz _ _
      · rfl
    have hun : Unwritten cfg "xf" := xf_unwritten h
    rw [hw hp hz fun c t => tInit_unwritten hN he hun c t,
      hw hp' hz' fun c t => tInit_unwritten hN' he' ⟨hun.src, hun.mic, hun.con⟩ c t]
    exact hA.sig k c t ht

end
end Verif

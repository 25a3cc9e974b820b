import Verif.Lemmas.Started

namespace Verif

theorem foldlM_both {ε α γ : Type} (I : α → α → Prop) (step step' : α → γ → Except ε α) :
    ∀ (l : List γ) (t t' u u' : α),
      (∀ t t' x u u', x ∈ l → I t t' → step t x = .ok u → step' t' x = .ok u' → I u u') →
      I t t' → l.foldlM step t = .ok u → l.foldlM step' t' = .ok u' → I u u'
  | [], t, t', u, u', _, h0, h, h' => by cases h; cases h'; exact h0
  | x :: l, t, t', u, u', H, h0, h, h' => by
    simp only [List.foldlM_cons] at h h'
    cases hx : step t x with
    | error e => rw [hx] at h; cases h
    | ok v =>
      cases hx' : step' t' x with
      | error e => rw [hx'] at h'; cases h'
      | ok v' =>
        rw [hx] at h
        rw [hx'] at h'
        exact foldlM_both I step step' l v v' u u' (fun t t' x u u' hm => H t t' x u u' (by simp [hm]))
          (H t t' x v v' (by simp) h0 hx hx') h h'

/-- The two tapes agree from step `-m` on; the processors are related by `Q`, everything
else is equal. -/
structure AgrP {R F S A P : Type} (Q : P → P → Prop) (m : Nat) (e e' : Eng (Tape R) F S A P) : Prop where
  srcs : e'.srcs = e.srcs
  filts : e'.filts = e.filts
  arr : e'.arr = e.arr
  proc : Q e.proc e'.proc
  sig : ∀ k c t, -(m : Int) ≤ t → e'.sig k c t = e.sig k c t

/-- The same processor as well. -/
abbrev Agr {R F S A P : Type} (m : Nat) (e e' : Eng (Tape R) F S A P) : Prop := AgrP (fun a b : P => b = a) m e e'

section
variable {R IR F S A P D O : Type} [Zero R] [Add R] (cfg : SimCfg R IR F S A P D O)

theorem tAssign_agr {m : Nat} {dims : String → Option Nat} {T T' T1 T1' : Tape R} {name : String}
    {a : Int} {n : Nat} {v : Mat R} (h : ∀ k c t, -(m : Int) ≤ t → T' k c t = T k c t)
    (h1 : tAssign dims T name a n v = .ok T1) (h1' : tAssign dims T' name a n v = .ok T1') :
    ∀ k c t, -(m : Int) ≤ t → T1' k c t = T1 k c t := by
  unfold tAssign at h1 h1'
  split at h1
  · cases h1
  · rename_i num hn
    rw [hn] at h1'
    dsimp only at h1'
    split at h1
    · cases h1
    · rename_i w hw
      rw [hw] at h1'
      cases h1
      cases h1'
      intro k c t ht
      unfold Tape.write
      split
      · rfl
      · exact h k c t ht

theorem tAdd_agr {m : Nat} {dims : String → Option Nat} {T T' T1 T1' : Tape R} {name : String}
    {a : Int} {n : Nat} {v : Mat R} (h : ∀ k c t, -(m : Int) ≤ t → T' k c t = T k c t)
    (h1 : tAdd dims T name a n v = .ok T1) (h1' : tAdd dims T' name a n v = .ok T1') :
    ∀ k c t, -(m : Int) ≤ t → T1' k c t = T1 k c t := by
  unfold tAdd at h1 h1'
  split at h1
  · cases h1
  · rename_i num hn
    rw [hn] at h1'
    dsimp only at h1'
    split at h1
    · cases h1
    · rename_i w hw
      rw [hw] at h1'
      cases h1
      cases h1'
      intro k c t ht
      unfold Tape.addOn
      split
      · rw [h k c t ht]
      · exact h k c t ht

theorem tGet_agr {m : Nat} {dims : String → Option Nat} {T T' : Tape R} {name : String} {a : Int}
    {n : Nat} (h : ∀ k c t, -(m : Int) ≤ t → T' k c t = T k c t) (ha : -(m : Int) ≤ a) :
    tGet dims T' name a n = tGet dims T name a n := by
  unfold tGet
  cases dims name with
  | none => rfl
  | some num =>
    dsimp only
    congr 1
    unfold matOf
    refine List.map_congr_left fun c _ => List.map_congr_left fun p _ => ?_
    exact h name c _ (by omega)

omit [Zero R] [Add R] in
theorem broadcast_const [Zero R] {y w w' : Mat R} {num n n' : Nat} (hn : n ≠ n') (h2 : 2 ≤ n) (h2' : 2 ≤ n')
    (h : broadcastMat y num n = some w) (h' : broadcastMat y num n' = some w') (c p p' : Nat) (hp : p < n)
    (hp' : p' < n') : matVal w' c p' = matVal w c p := by
  unfold broadcastMat at h h'
  cases hb : broadcastChan y num with
  | none => rw [hb] at h; cases h
  | some u =>
    rw [hb] at h h'
    simp only [Option.bind_some] at h h'
    rcases mapM_some_getD h c with ⟨a1, a2⟩ | ⟨r, b, a1, a2, a3⟩
    · rcases mapM_some_getD h' c with ⟨b1, b2⟩ | ⟨r', b', b1, b2, b3⟩
      · unfold matVal
        rw [List.getD_eq_getElem?_getD (l := w), List.getD_eq_getElem?_getD (l := w'), a2, b2]
        rfl
      · rw [a1] at b1; cases b1
    · rcases mapM_some_getD h' c with ⟨b1, b2⟩ | ⟨r', b', b1, b2, b3⟩
      · rw [a1] at b1; cases b1
      · rw [a1] at b1
        cases b1
        have e1 : matVal w c p = b.getD p 0 := by
          unfold matVal; rw [List.getD_eq_getElem?_getD (l := w), a2]; rfl
        have e2 : matVal w' c p' = b'.getD p' 0 := by
          unfold matVal; rw [List.getD_eq_getElem?_getD (l := w'), b2]; rfl
        rw [e1, e2]
        unfold broadcastRow at a3 b3
        match r with
        | [] =>
          rw [if_neg (by simp; omega)] at a3
          cases a3
        | [x] =>
          rw [if_neg (by simp; omega)] at a3 b3
          cases a3
          cases b3
          simp [hp, hp']
        | x :: x' :: l =>
          split at a3
          · rename_i hl
            rw [if_neg (by omega)] at b3
            cases b3
          · cases a3

variable {cfg}

theorem tSource_agr {Q : P → P → Prop} {m n : Nat} {e e' u u' : Eng (Tape R) F S A P} {a : ArrInfo} (h : AgrP Q m e e')
    (h1 : cfg.tSource n e a = .ok u) (h1' : cfg.tSource n e' a = .ok u') : AgrP Q m u u' := by
  unfold SimCfg.tSource at h1 h1'
  rw [h.srcs] at h1'
  split at h1
  · cases h1
  · rename_i s v hg
    rw [hg] at h1'
    dsimp only at h1'
    split at h1
    · cases h1
    · rename_i T hT
      split at h1'
      · cases h1'
      · rename_i T' hT'
        cases h1
        cases h1'
        exact ⟨rfl, h.filts, h.arr, h.proc, tAssign_agr h.sig hT hT'⟩

theorem tPrepSource_agr {Q : P → P → Prop} {m n : Nat} {e e' u u' : Eng (Tape R) F S A P} {a : ArrInfo} (h : AgrP Q m e e')
    (h1 : cfg.tPrepSource n e a = .ok u) (h1' : cfg.tPrepSource n e' a = .ok u') : AgrP Q m u u' := by
  unfold SimCfg.tPrepSource at h1 h1'
  rw [h.srcs] at h1'
  split at h1
  · cases h1
  · rename_i s v hg
    rw [hg] at h1'
    dsimp only at h1'
    split at h1
    · cases h1
    · rename_i T hT
      split at h1'
      · cases h1'
      · rename_i T' hT'
        cases h1
        cases h1'
        exact ⟨rfl, h.filts, h.arr, h.proc, tAssign_agr h.sig hT hT'⟩

theorem stepUpdate_agr {Q : P → P → Prop} {m : Nat} {e e' u u' : Eng (Tape R) F S A P} {p : ArrInfo × ArrInfo} (h : AgrP Q m e e')
    (h1 : cfg.stepUpdate e p = .ok u) (h1' : cfg.stepUpdate e' p = .ok u') : AgrP Q m u u' := by
  unfold SimCfg.stepUpdate at h1 h1'
  rw [h.filts, h.arr] at h1'
  split_ifs at h1 h1'
  · split at h1
    · cases h1
    · rename_i ir hir
      rw [hir] at h1'
      dsimp only at h1'
      split at h1
      · cases h1
      · rename_i f hf
        rw [hf] at h1'
        cases h1
        cases h1'
        exact ⟨h.srcs, rfl, rfl, h.proc, h.sig⟩
  · cases h1
    cases h1'
    exact h

theorem ifAssign_agr {m : Nat} {b : Bool} {dims : String → Option Nat} {T T' T1 T1' : Tape R} {name : String}
    {a : Int} {n : Nat} {v : Mat R} (h : ∀ k c t, -(m : Int) ≤ t → T' k c t = T k c t)
    (h1 : (if b then tAssign dims T name a n v else .ok T) = .ok T1)
    (h1' : (if b then tAssign dims T' name a n v else .ok T') = .ok T1') :
    ∀ k c t, -(m : Int) ≤ t → T1' k c t = T1 k c t := by
  split_ifs at h1 h1'
  · exact tAssign_agr h h1 h1'
  · cases h1
    cases h1'
    exact h

theorem tPair_agr {Q : P → P → Prop} {m n : Nat} {e e' u u' : Eng (Tape R) F S A P} {p : ArrInfo × ArrInfo} (h : AgrP Q m e e')
    (h1 : cfg.tPair n e p = .ok u) (h1' : cfg.tPair n e' p = .ok u') : AgrP Q m u u' := by
  unfold SimCfg.tPair at h1 h1'
  rw [tGet_agr h.sig (by omega), h.filts] at h1'
  split at h1
  · cases h1
  · rename_i x hx
    rw [hx] at h1'
    dsimp only at h1'
    split at h1
    · cases h1
    · rename_i f y hf
      rw [hf] at h1'
      dsimp only at h1'
      split at h1
      · cases h1
      · rename_i T hT
        split at h1'
        · cases h1'
        · rename_i T' hT'
          have hs := tAdd_agr h.sig hT hT'
          split at h1
          · cases h1
          · rename_i T2 hT2
            split at h1'
            · cases h1'
            · rename_i T2' hT2'
              cases h1
              cases h1'
              exact ⟨h.srcs, rfl, h.arr, h.proc, ifAssign_agr hs hT2 hT2'⟩

theorem tPrepPair_agr {Q : P → P → Prop} {m num B' C' : Nat} (hm : m ≤ cfg.B) (hm' : m ≤ B') (h2 : 2 ≤ cfg.B) (h2' : 2 ≤ B')
    (hnum : num ≤ m)
    {e e' u u' : Eng (Tape R) F S A P} {p : ArrInfo × ArrInfo} (h : AgrP Q m e e')
    (h1 : cfg.tPrepPair num e p = .ok u)
    (h1' : ({ cfg with B := B', C := C' } : SimCfg R IR F S A P D O).tPrepPair num e' p = .ok u') :
    AgrP Q m u u' := by
  unfold SimCfg.tPrepPair at h1 h1'
  change (match tGet cfg.dims e'.sig p.1.name (-(num : Int)) num with
    | .error x => (.error x : Except PyErr (Eng (Tape R) F S A P))
    | .ok x =>
    match cfg.filt.process (e'.filts p.1.name p.2.name) x with
    | .error x => .error x
    | .ok (f', y) =>
      match tAdd cfg.dims e'.sig p.2.name (-(B' : Int)) B' y with
      | .error x => .error x
      | .ok sig =>
        match (if cfg.contrib then
            tAssign cfg.dims sig (contribName p.1 p.2) (-(num : Int)) num y else .ok sig) with
        | .error x => .error x
        | .ok sig => .ok { e' with
            sig := sig
            filts := fun s m => if s = p.1.name ∧ m = p.2.name then f' else e'.filts s m }) = _ at h1'
  rw [tGet_agr h.sig (by omega), h.filts] at h1'
  split at h1
  · cases h1
  · rename_i x hx
    rw [hx] at h1'
    dsimp only at h1'
    split at h1
    · cases h1
    · rename_i f y hf
      rw [hf] at h1'
      dsimp only at h1'
      split at h1
      · cases h1
      · rename_i T hT
        split at h1'
        · cases h1'
        · rename_i T' hT'
          have hs : ∀ k c t, -(m : Int) ≤ t → T' k c t = T k c t := by
            by_cases hB : cfg.B = B'
            · rw [← hB] at hT'
              exact tAdd_agr h.sig hT hT'
            · unfold tAdd at hT hT'
              split at hT
              · cases hT
              · rename_i nn hn
                rw [hn] at hT'
                dsimp only at hT'
                split at hT
                · cases hT
                · rename_i w hw
                  split at hT'
                  · cases hT'
                  · rename_i w' hw'
                    cases hT
                    cases hT'
                    intro k c t ht
                    unfold Tape.addOn
                    by_cases hk : k = p.2.name ∧ t < 0
                    · rw [if_pos ⟨hk.1, by omega, by omega⟩, if_pos ⟨hk.1, by omega, by omega⟩, h.sig k c t ht,
                        broadcast_const hB h2 h2' hw hw' c (t - -(cfg.B : Int)).toNat (t - -(B' : Int)).toNat
                          (by omega) (by omega)]
                    · rw [if_neg, if_neg, h.sig k c t ht]
                      · rintro ⟨g1, g2, g3⟩; exact hk ⟨g1, by omega⟩
                      · rintro ⟨g1, g2, g3⟩; exact hk ⟨g1, by omega⟩
          split at h1
          · cases h1
          · rename_i T2 hT2
            split at h1'
            · cases h1'
            · rename_i T2' hT2'
              cases h1
              cases h1'
              exact ⟨h.srcs, rfl, h.arr, h.proc, ifAssign_agr hs hT2 hT2'⟩

theorem tProc_agr {m n : Nat} {lp : ProcView R P} {e e' u u' : Eng (Tape R) F S A P}
    (hm : ∀ p, cfg.proc = some p → lp.H + 1 ≤ m + p.bs) (h : Agr m e e')
    (h1 : cfg.tProc lp n e = .ok u) (h1' : cfg.tProc lp n e' = .ok u') : Agr m u u' := by
  unfold SimCfg.tProc at h1 h1'
  split at h1
  · rename_i hp
    rw [hp] at h1'
    cases h1
    cases h1'
    exact h
  · rename_i p hp
    rw [hp] at h1'
    dsimp only at h1'
    split_ifs at h1 h1' with g1 g2
    · have hH := hm p hp
      have hn : p.bs - 1 ≤ n := by rw [← g2]; exact Nat.mod_le _ _
      rw [h.proc, cut_congr (T := e'.sig) (T' := e.sig) (a := (n : Int) - lp.H) (a' := (n : Int) - lp.H)
        (fun k num c q _ _ _ => h.sig k c _ (by omega))] at h1'
      split at h1
      · cases h1
      · rename_i q out ho
        rw [ho] at h1'
        cases h1
        cases h1'
        refine ⟨h.srcs, h.filts, h.arr, rfl, ?_⟩
        intro k c t ht
        show Tape.paste _ _ _ _ _ _ _ = Tape.paste _ _ _ _ _ _ _
        unfold Tape.paste
        split
        · rfl
        · exact h.sig k c t ht
    · cases h1
      cases h1'
      exact h

theorem tPropagate_agr {Q : P → P → Prop} {m n : Nat} {v v' u u' : Eng (Tape R) F S A P} (hA : AgrP Q m v v')
    (h1 : cfg.tPropagate n v = .ok u) (h1' : cfg.tPropagate n v' = .ok u') : AgrP Q m u u' := by
  unfold SimCfg.tPropagate at h1 h1'
  split at h1
  · cases h1
  · rename_i w1 hw1
    split at h1'
    · cases h1'
    · rename_i w1' hw1'
      have hA1 := foldlM_both (AgrP Q m) (cfg.tSource n) (cfg.tSource n) _ _ _ _ _
        (fun t t' x u u' _ hI g1 g2 => tSource_agr hI g1 g2) hA hw1 hw1'
      split at h1
      · cases h1
      · rename_i w2 hw2
        split at h1'
        · cases h1'
        · rename_i w2' hw2'
          have hA2 := foldlM_both (AgrP Q m) cfg.stepUpdate cfg.stepUpdate _ _ _ _ _
            (fun t t' x u u' _ hI g1 g2 => stepUpdate_agr hI g1 g2) hA1 hw2 hw2'
          exact foldlM_both (AgrP Q m) (cfg.tPair n) (cfg.tPair n) _ _ _ _ _
            (fun t t' x u u' _ hI g1 g2 => tPair_agr hI g1 g2) hA2 h1 h1'

theorem tEngine_agr {m n : Nat} {lp : ProcView R P} {e e' u u' : Eng (Tape R) F S A P}
    (hm : ∀ p, cfg.proc = some p → lp.H + 1 ≤ m + p.bs) (h : Agr m e e')
    (h1 : cfg.tEngine lp n e = .ok u) (h1' : cfg.tEngine lp n e' = .ok u') : Agr m u u' := by
  unfold SimCfg.tEngine at h1 h1'
  rw [h.arr] at h1'
  split at h1
  · cases h1
  · rename_i a ha
    rw [ha] at h1'
    dsimp only at h1'
    split at h1
    · cases h1
    · rename_i v hv
      split at h1'
      · cases h1'
      · rename_i v' hv'
        have hA := tProc_agr hm (e := { e with arr := a }) (e' := { e' with arr := a })
          ⟨h.srcs, h.filts, rfl, h.proc, h.sig⟩ hv hv'
        exact tPropagate_agr hA h1 h1'

theorem tSteps_agr {m B' C' : Nat} {lp : ProcView R P} {e e' : Eng (Tape R) F S A P}
    (hm : ∀ p, cfg.proc = some p → lp.H + 1 ≤ m + p.bs) (h : Agr m e e') :
    ∀ k {u u'}, cfg.tSteps lp k e = .ok u →
      ({ cfg with B := B', C := C' } : SimCfg R IR F S A P D O).tSteps lp k e' = .ok u' → Agr m u u'
  | 0, u, u', h1, h1' => by cases h1; cases h1'; exact h
  | k + 1, u, u', h1, h1' => by
    simp only [SimCfg.tSteps] at h1 h1'
    split at h1
    · cases h1
    · rename_i v hv
      split at h1'
      · cases h1'
      · rename_i v' hv'
        exact tEngine_agr hm (tSteps_agr hm h k hv hv') h1 h1'

theorem tInit_agr {B' C' : Nat} (hw : cfg.warm = false ∨ B' = cfg.B) (h2 : 2 ≤ cfg.B) (h2' : 2 ≤ B')
    {srcs : String → S} {arr : A} {proc : P} {f0 : F} {e e' : Eng (Tape R) F S A P}
    (h1 : cfg.tInit srcs arr proc f0 = .ok e)
    (h1' : ({ cfg with B := B', C := C' } : SimCfg R IR F S A P D O).tInit srcs arr proc f0 = .ok e') :
    Agr (min cfg.B B') e e' := by
  have hnum : ({ cfg with B := B', C := C' } : SimCfg R IR F S A P D O).prepNum = cfg.prepNum := by
    unfold SimCfg.prepNum
    rcases hw with hw | rfl
    · simp only [hw]; rfl
    · rfl
  have hle : cfg.prepNum ≤ min cfg.B B' := by
    unfold SimCfg.prepNum
    rcases hw with hw | rfl
    · rw [hw]; simp; omega
    · split <;> simp; omega
  unfold SimCfg.tInit at h1 h1'
  change (match cfg.createFilters arr (fun _ _ => f0) with
    | .error x => (.error x : Except PyErr (Eng (Tape R) F S A P))
    | .ok fs => _) = _ at h1'
  split at h1
  · cases h1
  · rename_i fs hfs
    rw [hfs] at h1'
    dsimp only at h1'
    unfold SimCfg.tPrepare at h1 h1'
    rw [hnum] at h1'
    split at h1
    · cases h1
    · rename_i v hv
      split at h1'
      · cases h1'
      · rename_i v' hv'
        have hA := foldlM_both (Agr (min cfg.B B')) (cfg.tPrepSource cfg.prepNum) (cfg.tPrepSource cfg.prepNum) _ _ _ _ _
          (fun t t' x u u' _ hI g1 g2 => tPrepSource_agr hI g1 g2)
          ⟨rfl, rfl, rfl, rfl, fun _ _ _ _ => rfl⟩ hv hv'
        exact foldlM_both (Agr (min cfg.B B')) (cfg.tPrepPair cfg.prepNum)
          (SimCfg.tPrepPair { cfg with B := B', C := C' } cfg.prepNum) _ _ _ _ _
          (fun t t' x u u' _ hI g1 g2 => tPrepPair_agr (by omega) (by omega) h2 h2' hle hI g1 g2) hA h1 h1'

end

theorem Sigs.At.unique {R : Type} {S : Sigs R} {name : String} {c i : Nat} {v w : R} (h : S.At name c i v)
    (h' : S.At name c i w) : v = w := by
  obtain ⟨m, r, a1, a2, a3⟩ := h
  obtain ⟨m', r', b1, b2, b3⟩ := h'
  rw [a1] at b1; cases b1
  rw [a2] at b2; cases b2
  rw [a3] at b3; cases b3
  rfl

theorem forall₂_unique {α β : Type} {p q : α → β → Prop} {l : List α} {a b : List β}
    (h : List.Forall₂ p l a) (h' : List.Forall₂ q l b)
    (H : ∀ x v w, x ∈ l → p x v → q x w → v = w) : b = a := by
  induction h generalizing b with
  | nil => cases h'; rfl
  | cons x1 _ ih =>
    cases h' with
    | cons y1 y2 =>
      rw [ih y2 fun x v w hx => H x v w (by simp [hx]), H _ _ _ (by simp) x1 y1]

section
variable {R IR F S A P V : Type} [Field R] [DecidableEq R]
  {cfg : SimCfg R IR F S A P (DData R P V) (DOut R V)} {lp : ProcView R P}
  {srcs : String → S} {arr : A} {proc : P} {f0 : F} {ds0 : List (Diag (DData R P V))}
  {st0 fin : SimSt R F S A P (DData R P V) (DOut R V)}

theorem SimCfg.Produced.unique {name : String} {c t : Nat} {v w : R} (h : cfg.Produced st0 name c t v)
    (h' : cfg.Produced st0 name c t w) : v = w := by
  cases t with
  | zero => exact Sigs.At.unique h h'
  | succ n =>
    obtain ⟨s, e, a1, a2, _, a3⟩ := h
    obtain ⟨s', e', b1, b2, _, b3⟩ := h'
    rw [a1] at b1; cases b1
    rw [a2] at b2; cases b2
    exact a3.unique b3

theorem CompletedRun.started (h : CompletedRun cfg lp srcs arr proc f0 ds0 st0 fin) :
    Started cfg lp srcs arr proc f0 ds0 st0 := ⟨h.sizes, h.diag, h.names, h.init⟩

theorem CompletedRun.steps (h : CompletedRun cfg lp srcs arr proc f0 ds0 st0 fin) :
    ∃ st, cfg.steps cfg.tot st0 = .ok st := by
  have hr := h.run
  unfold SimCfg.run at hr
  rw [h.init] at hr
  dsimp only at hr
  split at hr
  · cases hr
  · rename_i st hst
    exact steps_prefix cfg cfg.mbs hst

end
end Verif

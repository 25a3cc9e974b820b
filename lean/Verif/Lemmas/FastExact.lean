/-
What `FastBlockFxLMS` does, for every buffer and all secondary paths.
-/
import Verif.Lemmas.FastTotal
import Verif.Props.Adaptive
namespace Verif

section
variable {R : Type} [Field R]

/-! ### Long paths -/

theorem fastSecIr_firstTaps (q : FxPar R) (S : IrMat R) (hbs : q.bs ≤ q.L) (l m : Nat) :
    fastSecIr q (S.firstTaps (q.L - q.bs)) l m = fastSecIr q S l m := by
  have key : ∀ a : List R, (let b := if a.length < 2 * q.L then a ++ List.replicate (2 * q.L - a.length) 0
      else if a.length > 2 * q.L then a.take (2 * q.L) else a
      b.take q.L ++ List.replicate (b.length - q.L) 0) =
      (a ++ List.replicate (2 * q.L) 0).take q.L ++ List.replicate q.L 0 := by
    intro a
    dsimp only
    split
    · rw [List.length_append, List.length_replicate, show a.length + (2 * q.L - a.length) - q.L = q.L by omega]
      congr 1
      rw [List.take_append, List.take_append, List.take_replicate, List.take_replicate]
      congr 2
      omega
    · split
      · rw [List.take_take, Nat.min_eq_left (by omega), List.length_take, Nat.min_eq_left (by omega),
          show 2 * q.L - q.L = q.L by omega, List.take_append_of_le_length (by omega)]
      · rw [show a.length - q.L = q.L by omega, List.take_append_of_le_length (by omega)]
  unfold fastSecIr
  rw [key, key]
  congr 1
  show (List.replicate q.bs 0 ++ (S.ir l m).take (q.L - q.bs) ++ _).take q.L = _
  by_cases hlen : (S.ir l m).length ≤ q.L - q.bs
  · rw [List.take_of_length_le hlen]
  · have h1 : (List.replicate q.bs (0 : R) ++ (S.ir l m).take (q.L - q.bs)).length = q.L := by
      simp
      omega
    have h2 : (List.replicate q.bs (0 : R) ++ S.ir l m).take q.L = List.replicate q.bs 0 ++ (S.ir l m).take (q.L - q.bs) := by
      rw [List.take_append, List.length_replicate, List.take_of_length_le (by simpa using hbs)]
    have h3 : (List.replicate q.bs (0 : R) ++ S.ir l m ++ List.replicate (2 * q.L) 0).take q.L =
        (List.replicate q.bs (0 : R) ++ S.ir l m).take q.L :=
      List.take_append_of_le_length (by simp; omega)
    have h4 : (List.replicate q.bs (0 : R) ++ (S.ir l m).take (q.L - q.bs) ++ List.replicate (2 * q.L) 0).take q.L =
        List.replicate q.bs (0 : R) ++ (S.ir l m).take (q.L - q.bs) := by
      rw [List.take_append_of_le_length (by rw [h1])]
      exact List.take_of_length_le (by rw [h1])
    rw [h3, h4, h2]

theorem fastInit_firstTaps (q : FxPar R) (S : IrMat R) (hbs : q.bs ≤ q.L) :
    fastInit q (S.firstTaps (q.L - q.bs)) = fastInit q S := by
  unfold fastInit
  have : fastSecIr q (S.firstTaps (q.L - q.bs)) = fastSecIr q S := by
    funext l m
    exact fastSecIr_firstTaps q S hbs l m
  rw [this]

theorem firstTaps_short (q : FxPar R) (S : IrMat R) (hbs : q.bs ≤ q.L) : ShortPaths q (S.firstTaps (q.L - q.bs)) := by
  intro l _ m _
  show q.bs + ((S.ir l m).take (q.L - q.bs)).length ≤ q.L
  rw [List.length_take]
  omega

/-! ### The tape of `FastBlockFxLMS` is that of `FxLMS` -/

theorem FastRel.out {q : FxPar R} {S : IrMat R} {p : FxSt R} {p' : FastSt R} (h : FastRel q S p p') (hS : ShortPaths q S)
    (hn : 0 < q.nr) (g : Nat → Nat → R) : fastOut q p'.ir p'.last (matOf q.nr q.L g) = p.sec.blockOut (matOf q.nr q.L g) := by
  have h1 := h.block hS hn g
  rw [osProcess_block] at h1
  have h2 := congrArg Prod.snd (Except.ok.inj h1)
  exact h2

theorem fastPast_rel {q : FxPar R} {S : IrMat R} (hn : 0 < q.nr) (hS : ShortPaths q S) (hub : q.ub = q.L) (T : Tape R) (off : Int) :
    ∀ j, FastRel q S { fxInit q S with sec := (fxInit q S).sec.pushBlock (matOf q.nr (j * q.L) fun c k => T "ref" c (off + k)) }
        (fastPast q S T off j).1 ∧
      (fastPast q S T off j).2 = T.write "xf" off (j * q.L)
        ((fxInit q S).sec.blockOut (matOf q.nr (j * q.L) fun c k => T "ref" c (off + k)))
  | 0 => by
    constructor
    · refine ⟨rfl, ?_, rfl, rfl, ?_⟩
      · show EventSt.init _ = EventSt.init _
        rw [hub]
      · dsimp only
        rw [pushBlock_cols _ hn, Nat.zero_mul]
        show List.replicate q.nr (List.replicate q.L (0 : R)) = matOf q.nr q.L fun c k => (([] : List (List R)).getD _ []).getD c 0
        unfold matOf
        simp
    · funext k c t
      unfold Tape.write
      rw [if_neg (by push_cast; omega)]
      rfl
  | j + 1 => by
    obtain ⟨h1, h2⟩ := fastPast_rel hn hS hub T off j
    have hb : refBlock q T (off + ((j + 1) * q.L : Nat)) q.L = matOf q.nr q.L fun c k => T "ref" c (off + ((j * q.L + k : Nat) : Int)) := by
      unfold refBlock
      refine matOf_congr fun c k _ _ => congrArg (T "ref" c) ?_
      rw [Nat.add_mul, Nat.one_mul]
      push_cast
      ring
    have hout := h1.out hS hn fun c k => T "ref" c (off + ((j * q.L + k : Nat) : Int))
    have hpush := h1.push hn fun c k => T "ref" c (off + ((j * q.L + k : Nat) : Int))
    constructor
    · rw [pushBlock_cols _ hn, pushBlock_cols _ hn] at hpush
      rw [pushBlock_cols _ hn, Nat.add_mul, Nat.one_mul, pastCols_add, List.append_assoc]
      show FastRel q S _ { (fastPast q S T off j).1 with last := refBlock q T (off + ((j + 1) * q.L : Nat)) q.L }
      rw [hb]
      exact hpush
    · show (fastPast q S T off j).2.write "xf" (off + (j * q.L : Nat)) q.L (fastOut q (fastPast q S T off j).1.ir
        (fastPast q S T off j).1.last (refBlock q T (off + ((j + 1) * q.L : Nat)) q.L)) = _
      rw [hb, hout, h2, blockOut_cols _ hn, blockOut_cols _ hn, pushBlock_cols _ hn, Nat.add_mul, Nat.one_mul, blockOut_cols _ hn]
      have hm : (fxInit q S).sec.mat.numOut = q.nr * q.nl * q.ne := rfl
      have hh : (fxInit q S).sec.hist = [] := rfl
      rw [hm, hh]
      dsimp only
      have := write_append T "xf" off (q.nr * q.nl * q.ne) (j * q.L) q.L fun m k =>
        firOut (fxInit q S).sec.mat (pastCols q.nr (fun c k => T "ref" c (off + k)) (k + 1) ++ []) m
      rw [← this]
      have hcols : ∀ k, pastCols q.nr (fun c k => T "ref" c (off + ((j * q.L + k : Nat) : Int))) (k + 1) ++
          (pastCols q.nr (fun c k => T "ref" c (off + k)) (j * q.L) ++ []) =
          pastCols q.nr (fun c k => T "ref" c (off + k)) (j * q.L + k + 1) ++ [] := by
        intro k
        rw [Nat.add_assoc, pastCols_add q.nr (fun c k => T "ref" c (off + k)) (j * q.L) (k + 1), List.append_assoc]
      simp only [hcols]

theorem fastAct_rel {q : FxPar R} {S : IrMat R} (hn : 0 < q.nr) (hS : ShortPaths q S) (hnorm : q.norm = .block) (hub : q.ub = q.L)
    {p : FxSt R} {p' : FastSt R} (h : FastRel q S p p') (T : Tape R) (n : Int) :
    FastRel q S (fxAct q p T n).1 (fastAct q p' T n).1 ∧ (fastAct q p' T n).2 = (fxAct q p T n).2 := by
  have hgen : FastRel q S (fxGen q p T n).1 (fastGen q p' T n).1 ∧ (fastGen q p' T n).2 = (fxGen q p T n).2 := by
    unfold fastGen fxGen
    rw [h.ctrl]
    exact ⟨⟨rfl, h.cnt, h.ir, h.mat, h.last⟩, rfl⟩
  obtain ⟨g1, g2⟩ := hgen
  have hmay : FastRel q S (fxMaybe q (fxGen q p T n) n).1 (fastMaybe q (fastGen q p' T n) n).1 ∧
      (fastMaybe q (fastGen q p' T n) n).2 = (fxMaybe q (fxGen q p T n) n).2 := by
    unfold fastMaybe fxMaybe
    rw [g1.cnt]
    split
    · generalize fxGen q p T n = a at *
      generalize fastGen q p' T n = b at *
      obtain ⟨p, T⟩ := a
      obtain ⟨p', T'⟩ := b
      dsimp only at g1 g2
      subst g2
      have hb : refBlock q T' n q.L = matOf q.nr q.L fun c k => T' "ref" c (n - q.L + k) := rfl
      have hx : fastXf q p' T' n = (fxUpd q p T' n).2 := by
        unfold fastXf fxUpd
        dsimp only
        rw [hub, hb, g1.out hS hn]
      refine ⟨?_, hx⟩
      have h2 := g1.push hn fun c k => T' "ref" c (n - q.L + k)
      rw [← hb] at h2
      refine ⟨?_, h2.cnt, h2.ir, h2.mat, ?_⟩
      · unfold fastUpd
        dsimp only
        rw [hx, g1.ctrl]
        unfold rawGrads
        rw [fastStep_eq hnorm hub]
        rfl
      · have := h2.last
        unfold fxUpd fastUpd
        dsimp only at this ⊢
        rw [hub]
        exact this
    · exact ⟨g1, g2⟩
  obtain ⟨m1, m2⟩ := hmay
  refine ⟨⟨m1.ctrl, ?_, m1.ir, m1.mat, m1.last⟩, m2⟩
  show fxCount q p'.cnt q.bs = fxCount q p.cnt q.bs
  rw [h.cnt]

/-! ### From steps to time indices -/

omit [Field R] in
theorem secIn_gap (a bs : Nat) (ρ : Nat → Int → R) (c : Nat) (t : Int) :
    secIn a bs (fun c t => ρ c (t + 1)) c t = skippedFrom a bs ρ c (t + 1) := by
  unfold secIn skippedFrom
  by_cases h : t < -(a : Int)
  · rw [if_pos h, if_pos (by omega)]
  · rw [if_neg h, if_neg (by omega)]
    show ρ c (t + a + (bs - 1) + 1) = ρ c (t + 1 + a + (bs - 1))
    congr 1
    ring

theorem secRef_gap (S : IrMat R) (a bs : Nat) (ρ : Nat → Int → R) (r l m : Nat) (t : Int) :
    filteredRef S bs (secIn a bs fun c t => ρ c (t + 1)) r l m t = filteredRef S bs (skippedFrom a bs ρ) r l m (t + 1) := by
  unfold filteredRef
  refine Finset.sum_congr rfl fun q _ => ?_
  rw [secIn_gap]
  congr 2
  ring

theorem stepXf_gap (S : IrMat R) (a bs : Nat) (ρ : Nat → Int → R) (r l m : Nat) (t : Int) :
    stepXf S a bs (fun c t => ρ c (t + 1)) r l m t = storedFrom S a bs ρ r l m (t + 1) := by
  unfold stepXf storedFrom
  by_cases h : t < -(a : Int)
  · rw [if_pos h, if_pos (by omega), secRef_gap]
  · rw [if_neg h, if_neg (show ¬ t + 1 ≤ -(a : Int) by omega)]
    by_cases h' : t < (bs : Int) - 1
    · rw [if_pos h', if_pos (show t + 1 < (bs : Int) by omega)]
    · rw [if_neg h', if_neg (show ¬ t + 1 < (bs : Int) by omega), secRef_gap]
      congr 1
      ring

theorem stepTaps_gap (q : FxPar R) (hbs : 0 < q.bs) (S : IrMat R) (a : Nat) (ρ e : Nat → Int → R) (r l x : Nat) : ∀ j,
    stepTaps q S a (fun c t => ρ c (t + 1)) (fun c t => e c (t + 1)) j r l x =
      lmsTaps q.norm q.beta q.mu q.nr q.nl q.ne q.L q.ub q.bs (storedFrom S a q.bs ρ) e j r l x
  | 0 => rfl
  | j + 1 => by
    have ih := stepTaps_gap q hbs S a ρ e r l x j
    unfold stepTaps at ih ⊢
    simp only [lmsTaps]
    rw [ih, lmsGrad_time q.norm q.beta q.nr q.nl q.ne q.L q.ub (fun r l m t => stepXf_gap S a q.bs ρ r l m t)
      (fun m t => rfl), show ((q.bs - 1 + j * q.ub : Nat) : Int) + 1 = ((q.bs + j * q.ub : Nat) : Int) by
        push_cast [Nat.cast_sub hbs]; omega]

/-- Nothing left out. -/
theorem storedFrom_zero (S : IrMat R) (bs : Nat) (ρ : Nat → Int → R) (r l m : Nat) (t : Int) :
    storedFrom S 0 bs ρ r l m t = storedRef S bs ρ r l m t := by
  have h1 : skippedFrom 0 bs ρ = skipped bs ρ := by
    funext c t
    unfold skippedFrom skipped
    simp
  unfold storedFrom storedRef
  rw [h1]
  simp

end

section
variable {R IR F S A D O : Type} [Field R] {cfg : SimCfg R IR F S A (FastSt R) D O} {q : FxPar R}
  {st0 st : SimSt R F S A (FastSt R) D O} {k : Nat}

theorem FastScene.toBlock (h : FastScene cfg q) : FastScene cfg { q with norm := .block } :=
  ⟨h.proc, h.ref, h.err, h.ls, h.own, h.nr, h.nl, h.ne, h.L, h.bs, h.ub, h.chunk, h.buffer, h.regular⟩

theorem fastXf_unwritten (h : FastScene cfg q) : Unwritten cfg "xf" where
  src := fun a ha he => h.own a (mem_freeOf ha).1 he.symm
  mic := fun p hp he => h.own p.2 (mem_micsOf (mem_combosOf.1 hp).2).1 he.symm
  con := fun _ p _ => contribName_ne_xf p.1 p.2

/-- The invariant at every step. -/
theorem fastInv_steps (h : FastScene cfg q) (hN : Names cfg) (hnorm : q.norm = .block) {Sp : IrMat R} (hS : ShortPaths q Sp)
    {e0 : Eng (Tape R) F S A (FastSt R)} {ρ ε : Nat → Int → R} {a w : Nat}
    (hz : ∀ c < q.nr, ∀ t : Int, t < -(w : Int) - a → ρ c t = 0)
    (h0 : ∃ p, FastRel q Sp p e0.proc ∧ AInv q Sp a w ρ ε 0 p e0.sig) :
    ∀ (k : Nat) {te}, cfg.gSteps (fastTape (fast_dims h hN) h.ub.1) k e0 = .ok te →
      (∀ c < q.nr, ∀ t : Int, t < k → te.sig "ref" c t = ρ c t) → (∀ c < q.ne, ∀ t : Int, t < k → te.sig "error" c t = ε c t) →
      ∃ p, FastRel q Sp p te.proc ∧ AInv q Sp a w ρ ε k p te.sig
  | 0, te, hs, _, _ => by cases hs; exact h0
  | k + 1, te, hs, hρ, he => by
    simp only [SimCfg.gSteps] at hs
    split at hs
    · cases hs
    · rename_i e1 h1
      have hpast : ∀ nm, nm ≠ "xf" → ∀ c (t : Int), t < k → te.sig nm c t = e1.sig nm c t :=
        fun nm hnm c t ht => gEngine_past hs (fast_past _ _ hnm) c t ht
      have hρ1 : ∀ c < q.nr, ∀ t : Int, t < k → e1.sig "ref" c t = ρ c t := by
        intro c hc t ht
        rw [← hpast _ (by decide) c t ht]
        exact hρ c hc t (by push_cast; omega)
      have he1 : ∀ c < q.ne, ∀ t : Int, t < k → e1.sig "error" c t = ε c t := by
        intro c hc t ht
        rw [← hpast _ (by decide) c t ht]
        exact he c hc t (by push_cast; omega)
      obtain ⟨p, hR, hI⟩ := fastInv_steps h hN hnorm hS hz h0 k h1 hρ1 he1
      unfold SimCfg.gEngine at hs
      split at hs
      · cases hs
      · rename_i arr _
        have hproc := tPropagate_proc hs
        have hxf := tPropagate_keeps hs (fastXf_unwritten h)
        have hls := tPropagate_keeps hs (fastLs_unwritten h hN)
        have key : ∃ p, FastRel q Sp p (cfg.gProc (fastTape (fast_dims h hN) h.ub.1) k { e1 with arr := arr }).proc ∧
            AInv q Sp a w ρ ε (k + 1) p (cfg.gProc (fastTape (fast_dims h hN) h.ub.1) k { e1 with arr := arr }).sig := by
          have hbs := h.bs
          by_cases hm : k % q.bs = q.bs - 1
          · have hgp : cfg.gProc (fastTape (fast_dims h hN) h.ub.1) k { e1 with arr := arr } = { e1 with
                arr := arr, proc := (fastAct q e1.proc e1.sig k).1, sig := (fastAct q e1.proc e1.sig k).2 } := by
              unfold SimCfg.gProc
              exact if_pos hm
            rw [hgp]
            obtain ⟨r1, r2⟩ := fastAct_rel h.nr hS hnorm h.ub.1 hR e1.sig k
            refine ⟨_, r1, ?_⟩
            dsimp only
            rw [r2]
            exact hI.call ⟨h.nr, h.bs, by rw [h.ub.1]; exact h.L, by rw [h.ub.1]; exact h.ub.2⟩ hz hρ1 he1 hm
          · have hgp : cfg.gProc (fastTape (fast_dims h hN) h.ub.1) k { e1 with arr := arr } = { e1 with arr := arr } := by
              unfold SimCfg.gProc
              exact if_neg hm
            rw [hgp]
            have hnext : (k + 1) / q.bs = k / q.bs := by
              rw [Nat.succ_div, if_neg, Nat.add_zero]
              intro hdvd
              have h1 : k % q.bs < q.bs := Nat.mod_lt _ (by omega)
              have h2 := Nat.div_add_mod k q.bs
              have h3 : (k % q.bs + 1) % q.bs = 0 := by
                rw [Nat.mod_add_mod]
                exact Nat.mod_eq_zero_of_dvd hdvd
              rw [Nat.mod_eq_of_lt (by omega)] at h3
              omega
            obtain ⟨i1, i2, i3, i4, i5, i6, i7, i8, i9⟩ := hI
            refine ⟨p, hR, ⟨?_, ?_, ?_, ?_, ?_, i6, ?_, ?_, i9⟩⟩ <;> rw [hnext] <;> assumption
        obtain ⟨p, hR, i1, i2, i3, i4, i5, i6, i7, i8, i9⟩ := key
        rw [← hproc] at hR
        refine ⟨p, hR, i1, i2, i3, i4, i5, i6, ?_, ?_, i9⟩
        · intro r hr l hl m hm t
          rw [← i7 r hr l hl m hm t]
          unfold tapeXf
          rw [hxf]
        · intro l hl t ht
          rw [← i8 l hl t ht, hls]

theorem fast_recorded_iff (h : FastScene cfg q) (hN : Names cfg) {e0 te : Eng (Tape R) F S A (FastSt R)}
    (hI : GInv (fastTape (fast_dims h hN) h.ub.1) e0 0 st0 e0 (-(cfg.B : Int)) 0) (hk : cfg.steps k st0 = .ok st)
    (ht : cfg.gSteps (fastTape (fast_dims h hN) h.ub.1) k e0 = .ok te)
    (hz : ∀ nm, nm ≠ "xf" → ∀ c t, t < -(cfg.B : Int) → e0.sig nm c t = 0)
    {name : String} (hn : name ≠ "xf") {num : Nat} (hd : cfg.dims name = some num) {c : Nat} (hc : c < num) {t : Int}
    (htk : t ≤ k) {v : R} : cfg.Recorded st0 name c t v ↔ te.sig name c (t - 1) = v := by
  have hB := h.buffer.1
  unfold SimCfg.Recorded
  by_cases h0 : 0 ≤ t
  · rw [if_pos h0, gProduced_iff (fast_sizes h hN) hI hk ht (t := t.toNat) (by omega) (fast_past _ _ hn),
      show ((t.toNat : Nat) : Int) = t by omega]
    constructor
    · rintro ⟨_, _, _, h4⟩; exact h4
    · intro h4; exact ⟨num, hd, hc, h4⟩
  · rw [if_neg h0]
    have hp := gSteps_past (n := 0) (e := e0) rfl (fast_past (fast_dims h hN) h.ub.1 hn) k (e' := te) (by rw [Nat.zero_add]; exact ht)
      c (t - 1) (by omega)
    rw [hp]
    by_cases h1 : -(cfg.B : Int) < t
    · rw [if_pos h1, hI.eng]
      show (cut cfg.dims e0.sig (-(cfg.B : Int)) (cfg.B + cfg.C)).At name c _ v ↔ _
      rw [cut_at, show -(cfg.B : Int) + (((cfg.B : Int) - 1 + t).toNat : Int) = t - 1 by omega]
      constructor
      · rintro ⟨_, _, _, _, h4⟩; exact h4
      · intro h4; exact ⟨num, hd, hc, by omega, h4⟩
    · rw [if_neg h1, hz name hn c (t - 1) (by omega)]
      exact eq_comm

end
end Verif

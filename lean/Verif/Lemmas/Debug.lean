import Verif.Lemmas.Processor
import Verif.Lemmas.Started

namespace Verif

theorem matOf_row {R : Type} {ch n : Nat} (f : Nat → Nat → R) {c : Nat} (hc : c < ch) :
    (matOf ch n f)[c]? = some ((List.range n).map (f c)) := by
  simp [matOf, List.getElem?_map, List.getElem?_range hc]

section
variable {R : Type} [Zero R]

theorem setCol_eq {nm tot L i j : Nat} (G f : Nat → Nat → R) (hi : i < tot) (hj : j < L) :
    setCol (matOf nm tot G) (matOf nm L f) i j =
      .ok (matOf nm tot fun c x => if x = i then f c j else G c x) := by
  unfold setCol
  have h1 : (matOf nm tot G).any (fun r => decide (r.length ≤ i)) = false := by
    rw [List.any_eq_false]
    intro r hr
    obtain ⟨c, _, rfl⟩ := List.mem_map.1 hr
    simp; omega
  have h2 : (matOf nm L f).any (fun r => decide (r.length ≤ j)) = false := by
    rw [List.any_eq_false]
    intro r hr
    obtain ⟨c, _, rfl⟩ := List.mem_map.1 hr
    simp; omega
  have h3 := pySlice2_matOf nm L j 1 f (by omega)
  have h4 := pyAssign2_matOf nm tot i 1 G (by omega) (matOf nm 1 fun c k => f c (j + k))
  simp only [Nat.cast_one] at h3 h4
  rw [h1, h2, h3, h4, broadcastMat_self]
  simp only [Bool.or_self, Bool.false_eq_true, if_false, Option.map_some, Except.ok.injEq]
  refine matOf_congr fun c x hc hx => ?_
  by_cases hxi : x = i
  · rw [if_pos (by omega), if_pos hxi, matVal_matOf _ _ _ hc (by omega)]
    congr 1; omega
  · rw [if_neg (by omega), if_neg hxi]

/-- The logging loop of the `DebugProcessor`. -/
theorem debugLog_fold {nm L tot b j0 : Nat} (f g G G' : Nat → Nat → R) (p : DebugSt R)
    (hm : p.mic = matOf nm tot G) (hl : p.ls = matOf nm tot G') :
    ∀ m, j0 + m ≤ L →
      ((List.range m).map fun k => (b + k, j0 + k)).foldlM (debugLog tot (matOf nm L f) (matOf nm L g)) p =
        .ok { p with
          manual := p.manual + (min (b + m) tot - min b tot)
          mic := matOf nm tot fun c x => if b ≤ x ∧ x < b + m then f c (j0 + (x - b)) else G c x
          ls := matOf nm tot fun c x => if b ≤ x ∧ x < b + m then g c (j0 + (x - b)) else G' c x }
  | 0, _ => by
    simp only [List.range_zero, List.map_nil, List.foldlM_nil, Nat.add_zero, Nat.sub_self]
    have e1 : ∀ (f G : Nat → Nat → R), (matOf nm tot fun c x => if b ≤ x ∧ x < b then f c (j0 + (x - b)) else G c x) =
        matOf nm tot G := by
      intro f G
      exact matOf_congr fun c x _ _ => if_neg (by omega)
    rw [e1, e1, ← hm, ← hl]
    rfl
  | m + 1, hL => by
    rw [List.range_succ, List.map_append, List.foldlM_append, debugLog_fold f g G G' p hm hl m (by omega)]
    simp only [List.map_cons, List.map_nil, List.foldlM_cons, List.foldlM_nil]
    show (debugLog tot (matOf nm L f) (matOf nm L g) _ (b + m, j0 + m) >>= fun s => pure s) = _
    unfold debugLog
    simp only
    by_cases hb : b + m < tot
    · rw [if_pos hb, setCol_eq _ _ hb (by omega)]
      simp only
      rw [setCol_eq _ _ hb (by omega)]
      simp only [bind_pure]
      congr 1
      have e1 : ∀ (f G : Nat → Nat → R), (matOf nm tot fun c x => if x = b + m then f c (j0 + m) else
          if b ≤ x ∧ x < b + m then f c (j0 + (x - b)) else G c x) =
          matOf nm tot fun c x => if b ≤ x ∧ x < b + (m + 1) then f c (j0 + (x - b)) else G c x := by
        intro f G
        refine matOf_congr fun c x _ _ => ?_
        by_cases h1 : x = b + m
        · rw [if_pos h1, if_pos (by omega)]; congr 1; omega
        · rw [if_neg h1]
          by_cases h2 : b ≤ x ∧ x < b + m
          · rw [if_pos h2, if_pos (by omega)]
          · rw [if_neg h2, if_neg (by omega)]
      rw [e1, e1]
      congr 1
      omega
    · rw [if_neg hb]
      have e1 : ∀ (f G : Nat → Nat → R), (matOf nm tot fun c x =>
          if b ≤ x ∧ x < b + m then f c (j0 + (x - b)) else G c x) =
          matOf nm tot fun c x => if b ≤ x ∧ x < b + (m + 1) then f c (j0 + (x - b)) else G c x := by
        intro f G
        refine matOf_congr fun c x _ hx => ?_
        by_cases h2 : b ≤ x ∧ x < b + m
        · rw [if_pos h2, if_pos (by omega)]
        · rw [if_neg h2, if_neg (by omega)]
      rw [e1, e1]
      show Except.ok _ = _
      congr 2
      omega

/-- One call of the `DebugProcessor` seen through its window. -/
theorem debug_act {dims : String → Option Nat} {tot bs nm : Nat} (hm : dims "mic" = some nm)
    (hl : dims "loudspeaker" = some nm) (q : DebugSt R) {G G' : Nat → Nat → R}
    (hqm : q.mic = matOf nm tot G) (hql : q.ls = matOf nm tot G') (T : Tape R) (a : Int) :
    ∃ out, ((debugProc tot bs).view bs).act q (cut dims T a (bs + bs)) = .ok
      ({ q with
          processed := q.processed + bs
          irAdd := q.irAdd + bs
          manual := q.manual + (min (q.manual + bs) tot - min q.manual tot)
          mic := matOf nm tot fun c x => if q.manual ≤ x ∧ x < q.manual + bs then
            T "mic" c (a + (x - q.manual : Nat)) else G c x
          ls := matOf nm tot fun c x => if q.manual ≤ x ∧ x < q.manual + bs then
            T "loudspeaker" c (a + (x - q.manual : Nat)) else G' c x }, out) ∧
      ∀ c < nm, ∀ x < bs, out "loudspeaker" c x = T "mic" c (a + x) := by
  show ∃ out, (debugProcess tot bs q (cut dims T a (bs + bs)) bs).map _ = _ ∧ _
  unfold debugProcess
  have g2 := sigGet_cut (dims := dims) T a (bs + bs) "mic" 0 bs (by omega)
  have e3 : ((bs : Int) - bs) = ((0 : Nat) : Int) := by omega
  have e4 : ((0 : Nat) : Int) + bs = (bs : Int) := by omega
  rw [e4] at g2
  rw [e3, g2]
  unfold tGet
  rw [hm]
  simp only
  have s2 := sigAssign_cut (dims := dims) T a (bs + bs) "loudspeaker" bs bs (by omega)
    (matOf nm bs fun c p => T "mic" c (a + ((0 : Nat) : Int) + p))
  rw [s2]
  unfold tAssign
  rw [hl]
  simp only
  rw [broadcastMat_self]
  simp only [Except.map]
  set T' := T.write "loudspeaker" (a + bs) bs (matOf nm bs fun c p => T "mic" c (a + ((0 : Nat) : Int) + p)) with hT'
  have c1 : cut dims T' a (bs + bs) "mic" = some (matOf nm (bs + bs) fun c p => T' "mic" c (a + p)) := by
    simp [cut, hm]
  have c2 : cut dims T' a (bs + bs) "loudspeaker" =
      some (matOf nm (bs + bs) fun c p => T' "loudspeaker" c (a + p)) := by
    simp [cut, hl]
  rw [c1, c2]
  simp only
  have e5 : ((List.range bs).map fun k => (q.manual + k, (((0 : Nat) : Int) + k).toNat)) =
      (List.range bs).map fun k => (q.manual + k, 0 + k) :=
    List.map_congr_left fun k _ => by congr 1
  rw [e5, debugLog_fold _ _ G G' q hqm hql bs (by omega)]
  simp only
  have hmic : ∀ c t, T' "mic" c t = T "mic" c t := by
    intro c t
    rw [hT']
    unfold Tape.write
    rw [if_neg (by simp)]
  have hls : ∀ c t, t < a + bs → T' "loudspeaker" c t = T "loudspeaker" c t := by
    intro c t ht
    rw [hT']
    unfold Tape.write
    rw [if_neg (by omega)]
  have hm' : (matOf nm tot fun c x => if q.manual ≤ x ∧ x < q.manual + bs then
        T' "mic" c (a + ((0 + (x - q.manual) : Nat) : Int)) else G c x) =
      matOf nm tot fun c x => if q.manual ≤ x ∧ x < q.manual + bs then
        T "mic" c (a + ((x - q.manual : Nat) : Int)) else G c x := by
    refine matOf_congr fun c x _ _ => ?_
    rw [hmic, Nat.zero_add]
  have hl' : (matOf nm tot fun c x => if q.manual ≤ x ∧ x < q.manual + bs then
        T' "loudspeaker" c (a + ((0 + (x - q.manual) : Nat) : Int)) else G' c x) =
      matOf nm tot fun c x => if q.manual ≤ x ∧ x < q.manual + bs then
        T "loudspeaker" c (a + ((x - q.manual : Nat) : Int)) else G' c x := by
    refine matOf_congr fun c x _ _ => ?_
    split
    · rw [hls _ _ (by omega), Nat.zero_add]
    · rfl
  rw [hm', hl']
  refine ⟨_, rfl, ?_⟩
  intro c hc x hx
  rw [c2, Option.getD_some, matVal_matOf _ _ _ hc (by omega), hT']
  unfold Tape.write
  rw [if_pos ⟨rfl, by push_cast; omega, by push_cast; omega⟩, matVal_matOf _ _ _ hc (by omega)]
  exact congrArg (T "mic" c) (by omega)

end

section
variable {R IR F S A D O : Type} [AddMonoid R] (cfg : SimCfg R IR F S A (DebugSt R) D O)

/-- What holds after `k` steps with a `DebugProcessor`; `d` is the number of
samples of complete blocks. -/
structure DebugInv (tot bs nm k : Nat) (e : Eng (Tape R) F S A (DebugSt R)) : Prop where
  ls : ∀ c < nm, ∀ t : Int, t < (k / bs * bs : Nat) + bs - 1 →
    e.sig "loudspeaker" c t = if t < (bs : Int) - 1 then 0 else e.sig "mic" c (t - bs)
  manual : e.proc.manual = min (k / bs * bs) tot
  processed : e.proc.processed = k / bs * bs
  irAdd : e.proc.irAdd = k / bs * bs
  micLog : e.proc.mic = matOf nm tot fun c x => if x < k / bs * bs then e.sig "mic" c ((x : Int) - 1) else 0
  lsLog : e.proc.ls = matOf nm tot fun c x =>
    if x < k / bs * bs then e.sig "loudspeaker" c ((x : Int) - 1) else 0

variable {cfg}

omit [AddMonoid R] in
theorem ctrl_ne (hN : Names cfg) {l : ArrInfo} (hl : l ∈ cfg.arrays) (hk : l.kind = .ctrl) :
    ∀ x ∈ freeOf cfg.arrays, l.name ≠ x.name := by
  intro x hx he
  obtain ⟨h3, h4⟩ := mem_freeOf hx
  have := hN.inj l hl x h3 he
  rw [this, h4] at hk
  cases hk

omit [AddMonoid R] in
theorem ctrl_source {l : ArrInfo} (hl : l ∈ cfg.arrays) (hk : l.kind = .ctrl) :
    l ∈ sourcesOf cfg.arrays := by
  unfold sourcesOf; rw [List.mem_filter]; exact ⟨hl, by rw [hk]; rfl⟩

theorem debugInv_init (hN : Names cfg) {tot bs nm : Nat} {l : ArrInfo}
    (hl : l ∈ cfg.arrays) (hk : l.kind = .ctrl) (hln : l.name = "loudspeaker")
    {srcs : String → S} {arr : A} {f0 : F} {e0 : Eng (Tape R) F S A (DebugSt R)}
    (hi : cfg.tInit srcs arr (DebugSt.init nm nm tot) f0 = .ok e0) : DebugInv tot bs nm 0 e0 := by
  obtain ⟨fs, e1, W, g1, g2, g3⟩ := tInit_parts cfg hN hi
  obtain ⟨n1, n2⟩ := src_ne hN (ctrl_source hl hk)
  have n3 := ctrl_ne hN hl hk
  rw [hln] at n1 n2 n3
  have hz : ∀ c t, e0.sig "loudspeaker" c t = 0 := by
    intro c t
    rw [g3.old _ c t (fun hc => .inl (n1 hc)) (.inr (.inr n2)), g2.sig _ c t (.inl n3)]
  have hp : e0.proc = DebugSt.init nm nm tot := by rw [g3.proc, g2.proc]
  have hrep : ∀ f : Nat → Nat → R, (matOf nm tot fun c x => if x < 0 / bs * bs then f c x else 0) =
      List.replicate nm (List.replicate tot 0) := by
    intro f
    have : (matOf nm tot fun c x => if x < 0 / bs * bs then f c x else 0) =
        (List.range nm).map fun _ => (List.range tot).map fun _ => (0 : R) :=
      matOf_congr fun c x _ _ => if_neg (by simp)
    rw [this, List.map_const', List.map_const', List.length_range, List.length_range]
  refine ⟨?_, ?_, ?_, ?_, ?_, ?_⟩
  · intro c hc t ht
    rw [hz, if_pos (by simpa using ht)]
  · rw [hp]; simp [DebugSt.init]
  · rw [hp]; simp [DebugSt.init]
  · rw [hp]; simp [DebugSt.init]
  · rw [hp, hrep fun c x => e0.sig "mic" c ((x : Int) - 1)]; rfl
  · rw [hp, hrep fun c x => e0.sig "loudspeaker" c ((x : Int) - 1)]; rfl

theorem debugInv_step (hN : Names cfg) {tot bs nm : Nat} {m l : ArrInfo}
    (hproc : cfg.proc = some (debugProc tot bs))
    (hm : m ∈ cfg.arrays) (hmn : m.name = "mic") (hmm : m.num = nm)
    (hl : l ∈ cfg.arrays) (hk : l.kind = .ctrl) (hln : l.name = "loudspeaker") (hlm : l.num = nm)
    {k : Nat} {e e' : Eng (Tape R) F S A (DebugSt R)} (hI : DebugInv tot bs nm k e)
    (h : cfg.tEngine ((debugProc tot bs).view bs) k e = .ok e') : DebugInv tot bs nm (k + 1) e' := by
  have hpast := tEngine_past cfg _ h
  obtain ⟨arr, e1, e2, e3, W, p1, p2, p3, p4, p5⟩ := tEngine_parts cfg hN h
  obtain ⟨n1, n2⟩ := src_ne hN (ctrl_source hl hk)
  have n3 := ctrl_ne hN hl hk
  rw [hln] at n1 n2 n3
  have hdm : cfg.dims "mic" = some nm := by rw [← hmn, hN.arr m hm, hmm]
  have hdl : cfg.dims "loudspeaker" = some nm := by rw [← hln, hN.arr l hl, hlm]
  have hls : ∀ c t, e'.sig "loudspeaker" c t = e1.sig "loudspeaker" c t := by
    intro c t
    rw [p5.old _ c t (fun hc => .inl (n1 hc)) (.inr (.inr n2)), p4.sig, p3.sig _ c t (.inl n3)]
  have hpr : e'.proc = e1.proc := by rw [p5.proc, p4.proc, p3.proc]
  unfold SimCfg.tProc at p2
  rw [hproc] at p2
  simp only at p2
  change (if bs = 0 then _ else if k % bs = bs - 1 then _ else _) = _ at p2
  by_cases hb : bs = 0
  · rw [if_pos hb] at p2; cases p2
  rw [if_neg hb] at p2
  by_cases hc : k % bs = bs - 1
  · rw [if_pos hc] at p2
    obtain ⟨out, hact, hout⟩ := debug_act hdm hdl e.proc hI.micLog hI.lsLog e.sig ((k : Int) - bs) (tot := tot) (bs := bs)
    rw [show (((debugProc (R := R) tot bs).view bs).H) = bs from rfl,
      show (debugProc (R := R) tot bs).bs = bs from rfl, hact] at p2
    simp only [Except.ok.injEq] at p2
    have hdiv : (k + 1) / bs = k / bs + 1 := by
      have h1 := Nat.div_add_mod k bs
      have : k + 1 = bs * (k / bs + 1) := by rw [Nat.mul_add]; omega
      rw [this, Nat.mul_div_cancel_left _ (by omega)]
    have hkb : k = k / bs * bs + (bs - 1) := by
      have h1 := Nat.div_add_mod k bs
      rw [Nat.mul_comm] at h1; omega
    have hnext : (k + 1) / bs * bs = k / bs * bs + bs := by rw [hdiv, Nat.add_mul, Nat.one_mul]
    set d := k / bs * bs with hd
    have hman := hI.manual
    rw [← hd] at hman
    have hls1 : ∀ c < nm, ∀ t : Int, e1.sig "loudspeaker" c t =
        if (k : Int) ≤ t ∧ t < k + bs then e.sig "mic" c (t - bs) else e.sig "loudspeaker" c t := by
      intro c hc t
      rw [← p2]
      show Tape.paste _ _ _ _ _ _ _ = _
      unfold Tape.paste
      change (if (k : Int) ≤ t ∧ t < (k : Int) + bs then _ else _) = _
      split
      · rename_i ht
        rw [hout c hc _ (by omega)]
        exact congrArg (e.sig "mic" c) (by omega)
      · rfl
    refine ⟨?_, ?_, ?_, ?_, ?_, ?_⟩
    · intro c hc t ht
      rw [hnext] at ht
      rw [hls, hls1 c hc t]
      split
      · rename_i hin
        rw [if_neg (by omega), hpast "mic" c _ (by omega)]
      · rename_i hout'
        rw [hI.ls c hc t (by rw [← hd]; push_cast at ht ⊢; omega)]
        split
        · rfl
        · rw [hpast "mic" c _ (by push_cast at ht; omega)]
    · rw [hpr, ← p2, hnext]
      show e.proc.manual + _ = _
      rw [hman]
      omega
    · rw [hpr, ← p2, hnext]
      show e.proc.processed + bs = _
      rw [hI.processed]
    · rw [hpr, ← p2, hnext]
      show e.proc.irAdd + bs = _
      rw [hI.irAdd]
    · rw [hpr, ← p2, hnext]
      show (matOf nm tot fun c x => _) = _
      refine matOf_congr fun c x hc hx => ?_
      rw [hman]
      split
      · rename_i hx1
        rw [if_pos (by omega), hpast "mic" c _ (by omega)]
        exact congrArg (e.sig "mic" c) (by omega)
      · rename_i hx1
        by_cases hx2 : x < d
        · rw [if_pos hx2, if_pos (by omega), hpast "mic" c _ (by omega)]
        · rw [if_neg hx2, if_neg (by omega)]
    · rw [hpr, ← p2, hnext]
      show (matOf nm tot fun c x => _) = _
      refine matOf_congr fun c x hc hx => ?_
      rw [hman]
      split
      · rename_i hx1
        rw [if_pos (by omega), hpast "loudspeaker" c _ (by omega)]
        exact congrArg (e.sig "loudspeaker" c) (by omega)
      · rename_i hx1
        by_cases hx2 : x < d
        · rw [if_pos hx2, if_pos (by omega), hpast "loudspeaker" c _ (by omega)]
        · rw [if_neg hx2, if_neg (by omega)]
  · rw [if_neg hc] at p2
    cases p2
    have hnext : (k + 1) / bs = k / bs := by
      rw [Nat.succ_div, if_neg, Nat.add_zero]
      intro hdvd
      have h1 : k % bs < bs := Nat.mod_lt _ (by omega)
      have h2 := Nat.div_add_mod k bs
      have h3 : (k % bs + 1) % bs = 0 := by
        rw [Nat.mod_add_mod]
        exact Nat.mod_eq_zero_of_dvd hdvd
      rw [Nat.mod_eq_of_lt (by omega)] at h3
      omega
    have hdle : k / bs * bs ≤ k := Nat.div_mul_le_self k bs
    refine ⟨?_, ?_, ?_, ?_, ?_, ?_⟩
    · intro c hc t ht
      rw [hnext] at ht
      rw [hls]
      show e.sig _ _ _ = _
      rw [hI.ls c hc t ht]
      split
      · rfl
      · rw [hpast "mic" c _ (by omega)]
    · rw [hpr, hnext]; exact hI.manual
    · rw [hpr, hnext]; exact hI.processed
    · rw [hpr, hnext]; exact hI.irAdd
    · rw [hpr, hnext]
      show e.proc.mic = _
      rw [hI.micLog]
      refine matOf_congr fun c x hc hx => ?_
      split
      · rw [hpast "mic" c _ (by omega)]
      · rfl
    · rw [hpr, hnext]
      show e.proc.ls = _
      rw [hI.lsLog]
      refine matOf_congr fun c x hc hx => ?_
      split
      · rw [hpast "loudspeaker" c _ (by omega)]
      · rfl

theorem debugInv_steps (hN : Names cfg) {tot bs nm : Nat} {m l : ArrInfo}
    (hproc : cfg.proc = some (debugProc tot bs))
    (hm : m ∈ cfg.arrays) (hmn : m.name = "mic") (hmm : m.num = nm)
    (hl : l ∈ cfg.arrays) (hk : l.kind = .ctrl) (hln : l.name = "loudspeaker") (hlm : l.num = nm)
    {e0 : Eng (Tape R) F S A (DebugSt R)} (h0 : DebugInv tot bs nm 0 e0) :
    ∀ k {e}, cfg.tSteps ((debugProc tot bs).view bs) k e0 = .ok e → DebugInv tot bs nm k e
  | 0, e, h => by cases h; exact h0
  | k + 1, e, h => by
    simp only [SimCfg.tSteps] at h
    split at h
    · cases h
    · rename_i e1 h1
      exact debugInv_step hN hproc hm hmn hmm hl hk hln hlm
        (debugInv_steps hN hproc hm hmn hmm hl hk hln hlm h0 k h1) h

end
end Verif

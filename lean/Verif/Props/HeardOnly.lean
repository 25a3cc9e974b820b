/-
C200: adaptive noise control depends on the noise only through what the microphones hear.
-/
import Verif.Lemmas.Anc
import Verif.Props.AdaptiveScale
import Verif.Spec.Heard
namespace Verif

section
variable {R : Type} [Field R]

theorem sum_filter_split {α : Type} (p p1 p2 : α → Bool) (f g1 g2 : α → R) : ∀ l : List α,
    (∀ a ∈ l, (if p a then f a else 0) = (if p1 a then g1 a else 0) + (if p2 a then g2 a else 0)) →
    ((l.filter p).map f).sum = ((l.filter p1).map g1).sum + ((l.filter p2).map g2).sum
  | [], _ => by simp
  | a :: l, h => by
    have ih := sum_filter_split p p1 p2 f g1 g2 l fun b hb => h b (List.mem_cons_of_mem _ hb)
    have ha := h a List.mem_cons_self
    have one : ∀ (p : α → Bool) (f : α → R), (((a :: l).filter p).map f).sum =
        (if p a then f a else 0) + ((l.filter p).map f).sum := by
      intro p f
      by_cases hp : p a = true
      · rw [List.filter_cons_of_pos hp, if_pos hp, List.map_cons, List.sum_cons]
      · rw [List.filter_cons_of_neg hp, if_neg hp, zero_add]
    rw [one, one, one, ih, ha]
    ring

theorem louder_one (q : FxPar R) : q.louder 1 = q := by
  unfold FxPar.louder
  split <;> simp

variable {S A P D O : Type} {cfg : SimCfg R (IrMat R) (Fir R) S A P D O}

/-- What a microphone hears: the noise and the loudspeakers of the processor. -/
theorem convSum_heard (hN : Names cfg) {l : ArrInfo} (hl : l ∈ cfg.arrays) (hln : l.name = "loudspeaker") (hlk : l.kind = .ctrl)
    (ir : String → IrMat R) (x : String → Nat → Nat → R) (Y : Nat → Nat → R) (c : Nat) (t : Int) :
    convSum (cfg.arrays.filter fun s => s.kind != .mic) ir (cfg.playedWith x Y) c t =
      convSum (cfg.arrays.filter fun s => s.kind == .free) ir (cfg.played x) c t +
        convSum (cfg.arrays.filter fun s => s.name == "loudspeaker") ir
          (fun _ i r => if r < 0 then 0 else Y i r.toNat) c t := by
  unfold convSum
  refine sum_filter_split _ _ _ _ _ _ _ fun s hs => ?_
  by_cases hn : s.name = "loudspeaker"
  · obtain rfl := hN.inj s hs l hl (by rw [hn, hln])
    simp [hlk, hn, SimCfg.playedWith]
  · have hz : (if (s.name == "loudspeaker") = true then ((List.range s.num).map fun i =>
        ((List.range ((ir s.name).ir i c).length).map fun k => ((ir s.name).ir i c).getD k 0 *
          (if t - (k : Int) < 0 then (0 : R) else Y i (t - k).toNat)).sum).sum else 0) = 0 := by
      rw [if_neg (by simpa using hn)]
    rw [hz, add_zero]
    have hp : ∀ i r, cfg.playedWith x Y s.name i r = cfg.played x s.name i r := by
      intro i r
      unfold SimCfg.playedWith
      rw [if_neg hn]
    simp only [hp]
    cases hk : s.kind with
    | mic => simp
    | free => simp
    | ctrl =>
      have h0 : ∀ i r, cfg.played x s.name i r = 0 := by
        intro i r
        unfold SimCfg.played
        refine if_neg fun hh => ?_
        obtain ⟨⟨b, hb, hbn, hbk⟩, -⟩ := hh
        rw [hN.inj b hb s hs hbn, hk] at hbk
        cases hbk
      simp [h0]

/-- The microphones before the first step: the noise, with sources that start at time index 0
the noise at that time. -/
theorem tInit_noise (hN : Names cfg) (hfilt : cfg.filt = firOps R) (hpos : ∀ a ∈ cfg.arrays, 0 < a.num) {arr : A}
    (hsh : cfg.PathShape arr) (hB : 1 ≤ cfg.B) {srcs : String → S} {proc : P} {f0 : Fir R} {e0 : Eng (Tape R) (Fir R) S A P}
    (hi : cfg.tInit srcs arr proc f0 = .ok e0) {x : String → Nat → Nat → R}
    (hx : ∀ a ∈ cfg.arrays, a.kind = .free → IsStream cfg.srcGet (srcs a.name) a.num (x a.name))
    {m : ArrInfo} (hm : m ∈ micsOf cfg.arrays) {c : Nat} (hc : c < m.num) {t : Int} (h1 : -(cfg.B : Int) < t) (h2 : t < 0) {v : R}
    (hv : cfg.NoiseAt arr x m c (if cfg.warm then t else 0) v) : e0.sig m.name c (t - 1) = v := by
  obtain ⟨ir, j1, rfl⟩ := hv
  obtain ⟨jr, g1, g2⟩ := prep_fir cfg hN hfilt hpos hsh hB hm hi
  obtain ⟨i, hie⟩ := Int.eq_ofNat_of_zero_le (show 0 ≤ t - 1 + cfg.B by omega)
  have hiB : i < cfg.B := by omega
  rw [show t - 1 = (i : Int) - cfg.B by omega, g2 c i hc hiB]
  unfold convSum
  have hsplit := sum_filter_split (fun s : ArrInfo => s.kind != .mic) (fun s => s.kind == .free) (fun _ => false)
    (fun s => firOut (jr s.name) ((List.range (if cfg.warm then i + 1 else 1)).map fun d : Nat => colAt e0.sig s
            ((if cfg.warm then (i : Int) - cfg.B else -1) - d)) c)
    (fun s => ((List.range s.num).map fun n => ((List.range ((ir s.name).ir n c).length).map fun k =>
      ((ir s.name).ir n c).getD k 0 * cfg.played x s.name n ((if cfg.warm then t else 0) - k)).sum).sum) (fun _ => 0) cfg.arrays ?_
  · unfold sourcesOf
    rw [hsplit]
    simp
  · intro s hs
    by_cases hk : s.kind = .mic
    · simp [hk]
    have hss : s ∈ sourcesOf cfg.arrays := by
      unfold sourcesOf; rw [List.mem_filter]; exact ⟨hs, by simpa using hk⟩
    have hpl : ∀ n < s.num, ∀ k : Nat, (((List.range (if cfg.warm then i + 1 else 1)).map fun d : Nat => colAt e0.sig s
        ((if cfg.warm then (i : Int) - cfg.B else -1) - d)).getD k []).getD n 0 =
        cfg.played x s.name n ((if cfg.warm then t else 0) - k) := by
      intro n hn k
      have hpn : cfg.prepNum = if cfg.warm then cfg.B else 1 := rfl
      have hfr : (∃ a ∈ cfg.arrays, a.name = s.name ∧ a.kind = .free) ↔ s.kind = .free :=
        ⟨fun ⟨a, ha, han, hak⟩ => by rw [← hN.inj a ha s hs han]; exact hak, fun h => ⟨s, hs, rfl, h⟩⟩
      unfold SimCfg.played
      simp only [hfr]
      by_cases hkl : k < (if cfg.warm then i + 1 else 1)
      · have e1 : (((List.range (if cfg.warm then i + 1 else 1)).map fun d : Nat => colAt e0.sig s
            ((if cfg.warm then (i : Int) - cfg.B else -1) - d)).getD k []).getD n 0 =
            e0.sig s.name n ((if cfg.warm then (i : Int) - cfg.B else -1) - k) := by
          simp [List.getD_eq_getElem?_getD, hkl, colAt, hn]
        rw [e1]
        by_cases hw : cfg.warm = true
        · simp only [hw, if_true] at hkl hpn ⊢
          have := tInit_played hN hi hx hss hn (j := i - k) (by omega)
          rw [show ((i - k : Nat) : Int) - (cfg.prepNum : Nat) = (i : Int) - cfg.B - k by omega] at this
          rw [this]
          by_cases hf : s.kind = .free
          · rw [if_pos hf, if_pos ⟨hf, by omega⟩]
            congr 1
            omega
          · rw [if_neg hf, if_neg fun hh => hf hh.1]
        · simp only [hw, if_false] at hkl hpn ⊢
          have := tInit_played hN hi hx hss hn (j := 0) (by simp at hpn; omega)
          simp at hkl hpn
          subst hkl
          rw [show ((0 : Nat) : Int) - (cfg.prepNum : Nat) = -1 by omega] at this
          simp
          rw [this]
      · have e1 : (((List.range (if cfg.warm then i + 1 else 1)).map fun d : Nat => colAt e0.sig s
            ((if cfg.warm then (i : Int) - cfg.B else -1) - d)).getD k []) = [] := by
          rw [List.getD_eq_default]
          simp only [List.length_map, List.length_range]
          omega
        rw [e1, if_neg]
        · rfl
        · rintro ⟨-, hlt⟩
          by_cases hw : cfg.warm = true
          · simp only [hw, if_true] at hkl hlt
            omega
          · simp [hw] at hkl hlt
            omega
    have hterm : firOut (jr s.name) ((List.range (if cfg.warm then i + 1 else 1)).map fun d : Nat => colAt e0.sig s
        ((if cfg.warm then (i : Int) - cfg.B else -1) - d)) c =
        ((List.range s.num).map fun n => ((List.range ((jr s.name).ir n c).length).map fun k =>
          ((jr s.name).ir n c).getD k 0 * cfg.played x s.name n ((if cfg.warm then t else 0) - k)).sum).sum := by
      unfold firOut
      rw [(g1 s hss).2]
      congr 1
      refine List.map_congr_left fun n hn => ?_
      congr 1
      refine List.map_congr_left fun k _ => ?_
      rw [hpl n (List.mem_range.1 hn) k]
    rw [hterm]
    by_cases hf : s.kind = .free
    · have hir : ir s.name = jr s.name := by
        have b1 := j1 s hs hf
        rw [show (if cfg.warm then t else 0).toNat = 0 by split <;> omega] at b1
        exact Except.ok.inj (b1.symm.trans (g1 s hss).1)
      simp [hf, hir]
    · have hz : ∀ n r, cfg.played x s.name n r = 0 := by
        intro n r
        unfold SimCfg.played
        refine if_neg fun hh => ?_
        obtain ⟨⟨b, hb, hbn, hbk⟩, -⟩ := hh
        rw [hN.inj b hb s hs hbn] at hbk
        exact hf hbk
      simp [hf, hz]

end

section
variable {R S A D O S' A' D' O' : Type} [Field R] {cfg : SimCfg R (IrMat R) (Fir R) S A (FxSt R) D O}
  {cfg' : SimCfg R (IrMat R) (Fir R) S' A' (FxSt R) D' O'} {q : FxPar R} {Sp : IrMat R}
  {srcs : String → S} {srcs' : String → S'} {arr : A} {arr' : A'} {f0 f0' : Fir R} {ds : List (Diag D)} {ds' : List (Diag D')}
  {st0 st : SimSt R (Fir R) S A (FxSt R) D O} {st0' st' : SimSt R (Fir R) S' A' (FxSt R) D' O'} {k : Nat}

theorem initWith_nodup {R IR F S A P D O : Type} [Zero R] [Add R] {cfg : SimCfg R IR F S A P D O}
    {prep : P → Sigs R → Int → Except PyErr (P × Sigs R)} {srcs : String → S} {arr : A} {proc : P} {f0 : F} {ds : List (Diag D)}
    {st0 : SimSt R F S A P D O} (hi : cfg.initWith prep srcs arr proc f0 ds = .ok st0) :
    (cfg.arrays.map ArrInfo.name).Nodup := by
  unfold SimCfg.initWith at hi
  split at hi
  · cases hi
  · rename_i st1 h1
    have := init_nodup cfg h1
    have hsub : ∀ l : List (String × Nat), ((cfg.arrays.map (fun a => (a.name, a.num)) ++ l).map (·.1)).Nodup →
        (cfg.arrays.map ArrInfo.name).Nodup := by
      intro l hl
      rw [List.map_append, List.map_map] at hl
      exact (List.nodup_append.1 hl).1
    unfold SimCfg.signalList at this
    dsimp only at this
    split at this
    · exact hsub _ this
    · rw [List.append_assoc] at this
      exact hsub _ this

/-- What the microphones hold before time index 0. -/
theorem fx_past_noise (h : FxScene cfg q) (hi : cfg.initWith fxPrepare srcs arr (fxInit q Sp) f0 ds = .ok st0)
    (hk : cfg.steps k st0 = .ok st) (hfilt : cfg.filt = firOps R) (hpos : ∀ a ∈ cfg.arrays, 0 < a.num) (hsh : cfg.PathShape arr)
    {x : String → Nat → Nat → R}
    (hx : ∀ b ∈ cfg.arrays, b.kind = .free → IsStream cfg.srcGet (srcs b.name) b.num (x b.name))
    {m : ArrInfo} (hm : m ∈ cfg.arrays) (hmic : m.kind = .mic) {c : Nat} (hc : c < m.num) {t : Int} (ht : t < 0) {u v : R}
    (hu : cfg.NoiseAt arr x m c (if cfg.warm then t else 0) u) (hv : cfg.Recorded st0 m.name c t v) :
    v = if -(cfg.B : Int) < t then u else 0 := by
  obtain ⟨hN, e, he, hI⟩ := fx_init h Sp hi
  obtain ⟨te, off, r, hT⟩ := GInv.steps (fx_sizes h hN) hI k hk
  have hB := h.buffer.1
  have hmm : m ∈ micsOf cfg.arrays := by
    unfold micsOf; rw [List.mem_filter]; exact ⟨hm, by simpa using hmic⟩
  by_cases hb : -(cfg.B : Int) < t
  · rw [if_pos hb]
    have hz : ∀ nm, nm ≠ "xf" → ∀ c t, t < -(cfg.B : Int) → (fxStart q cfg.B e).sig nm c t = 0 := by
      intro nm hn c t ht
      rw [fxStart_sig hn, tInit_before hN he _ _ _ (by omega) ht]
    rw [recorded_iff h hN hI hk hT.tape hz (h.own m hm) (hN.arr m hm) hc (by omega)] at hv
    rw [gSteps_past (n := 0) (e := fxStart q cfg.B e) rfl (fx_past (fx_dims h hN) (h.own m hm)) k (e' := te)
      (by rw [Nat.zero_add]; exact hT.tape) c (t - 1) (by simp; omega), fxStart_sig (h.own m hm)] at hv
    rw [← hv]
    exact tInit_noise hN hfilt hpos hsh (by omega) he hx hmm hc hb ht hu
  · rw [if_neg hb]
    unfold SimCfg.Recorded at hv
    rwa [if_neg (by omega), if_neg hb] at hv

/-- C200. Two simulations with `FxLMS`, with any noise sources and any further arrays, the
same `sim_buffer` and `start_sources_before_0`.  The reference and the error microphones
hear the same of the noise in both and have the same impulse responses from the
loudspeakers.  Then in both the loudspeakers play the same, every microphone array with that property records
the same and the control filters have the same taps. -/
theorem C200_heard (h : FxScene cfg q) (h' : FxScene cfg' q)
    (hi : cfg.initWith fxPrepare srcs arr (fxInit q Sp) f0 ds = .ok st0)
    (hi' : cfg'.initWith fxPrepare srcs' arr' (fxInit q Sp) f0' ds' = .ok st0')
    (hk : cfg.steps k st0 = .ok st) (hk' : cfg'.steps k st0' = .ok st')
    (hfilt : cfg.filt = firOps R) (hfilt' : cfg'.filt = firOps R)
    (hpos : ∀ a ∈ cfg.arrays, 0 < a.num) (hpos' : ∀ a ∈ cfg'.arrays, 0 < a.num)
    (hsh : cfg.PathShape arr) (hsh' : cfg'.PathShape arr') {x x' : String → Nat → Nat → R}
    (hx : ∀ b ∈ cfg.arrays, b.kind = .free → IsStream cfg.srcGet (srcs b.name) b.num (x b.name))
    (hx' : ∀ b ∈ cfg'.arrays, b.kind = .free → IsStream cfg'.srcGet (srcs' b.name) b.num (x' b.name))
    (hB : cfg'.B = cfg.B) (hw : cfg'.warm = cfg.warm)
    (hheard : ∀ m ∈ cfg.arrays, ∀ m' ∈ cfg'.arrays, m'.name = m.name → m.name ∈ ["ref", "error"] →
      SameHeard cfg arr x cfg' arr' x' m m' k) :
    (∀ t ≤ k, ∀ l < q.nl, ∃ v, cfg.Produced st0 "loudspeaker" l t v ∧ cfg'.Produced st0' "loudspeaker" l t v) ∧
    (∀ m ∈ cfg.arrays, ∀ m' ∈ cfg'.arrays, m.kind = .mic → m'.kind = .mic → SameHeard cfg arr x cfg' arr' x' m m' k →
      ∀ t ≤ k, ∀ c < m.num, ∃ v, cfg.Produced st0 m.name c t v ∧ cfg'.Produced st0' m'.name c t v) ∧
    ∀ r < q.nr, ∀ l < q.nl, st'.eng.proc.ctrl.mat.ir r l = st.eng.proc.ctrl.mat.ir r l := by
  obtain ⟨ρ, e, hρ, he⟩ := fx_recorded h hi hk
  obtain ⟨ρ', e', hρ', he'⟩ := fx_recorded h' hi' hk'
  have hbs := h.bs
  obtain ⟨hls, htaps⟩ := C143_stored h hi hk hρ he
  obtain ⟨hls', htaps'⟩ := C143_stored h' hi' hk' hρ' he'
  have hloop := fun {m : ArrInfo} (hm : m ∈ cfg.arrays) (hmic : m.kind = .mic) =>
    C148_closed_loop h hi hk hfilt hpos hsh hx hρ he hm hmic
  have hloop' := fun {m : ArrInfo} (hm : m ∈ cfg'.arrays) (hmic : m.kind = .mic) =>
    C148_closed_loop h' hi' hk' hfilt' hpos' hsh' hx' hρ' he' hm hmic
  obtain ⟨hN, -⟩ := fx_init h Sp hi
  obtain ⟨hN', -⟩ := fx_init h' Sp hi'
  generalize hY : adaptiveOut q.bs q.ub q.nr q.L
    (lmsTaps q.norm q.beta q.mu q.nr q.nl q.ne q.L q.ub q.bs (storedRef Sp q.bs ρ) e) ρ = Y at hls hloop
  generalize hY' : adaptiveOut q.bs q.ub q.nr q.L
    (lmsTaps q.norm q.beta q.mu q.nr q.nl q.ne q.L q.ub q.bs (storedRef Sp q.bs ρ') e') ρ' = Y' at hls' hloop'
  have hrec : ∀ {name : String} {c t : Nat} {v : R}, cfg.Recorded st0 name c t v → cfg.Produced st0 name c t v := by
    intro name c t v hv
    unfold SimCfg.Recorded at hv
    rwa [if_pos (by omega), Int.toNat_natCast] at hv
  have hrec' : ∀ {name : String} {c t : Nat} {v : R}, cfg'.Recorded st0' name c t v → cfg'.Produced st0' name c t v := by
    intro name c t v hv
    unfold SimCfg.Recorded at hv
    rwa [if_pos (by omega), Int.toNat_natCast] at hv
  -- the loudspeakers up to time `t` from what was recorded before
  have hplay : ∀ t : Nat, (∀ c < q.nr, ∀ t' < (t : Int), ρ' c t' = ρ c t') →
      (∀ c < q.ne, ∀ t' < (t : Int), e' c t' = e c t') → ∀ i < q.nl, ∀ r ≤ t, Y' i r = Y i r := by
    intro t h1 h2 i hi r hr
    have := adaptiveOut_scale (a := 1) one_ne_zero q hbs Sp (t := r) (ρ := ρ) (ρ' := ρ') (e := e) (e' := e')
      (fun c hc t' ht' => by rw [one_mul]; exact h1 c hc t' (by omega))
      (fun c hc t' ht' => by rw [one_mul]; exact h2 c hc t' (by omega)) hi
    rw [louder_one, one_mul, hY, hY'] at this
    exact this
  obtain ⟨l, hl, hln, hlk, hlnum⟩ := h.ls
  obtain ⟨l', hl', hln', hlk', hlnum'⟩ := h'.ls
  have hmic : ∀ t ≤ k, (∀ c < q.nr, ∀ t' < (t : Int), ρ' c t' = ρ c t') →
      (∀ c < q.ne, ∀ t' < (t : Int), e' c t' = e c t') → ∀ m ∈ cfg.arrays, ∀ m' ∈ cfg'.arrays, m.kind = .mic → m'.kind = .mic →
      SameHeard cfg arr x cfg' arr' x' m m' k → ∀ c < m.num,
      ∃ v, cfg.Produced st0 m.name c t v ∧ cfg'.Produced st0' m'.name c t v := by
    intro t ht h1 h2 m hm m' hm' hmm hmm' hS c hc
    obtain ⟨ir, g1, g2⟩ := hloop hm hmm t ht
    obtain ⟨ir', g1', g2'⟩ := hloop' hm' hmm' t ht
    obtain ⟨p1, -⟩ := g2 c hc
    obtain ⟨p1', -⟩ := g2' c (by rw [hS.num]; exact hc)
    refine ⟨_, p1, ?_⟩
    rw [convSum_heard hN hl hln hlk]
    rw [convSum_heard hN' hl' hln' hlk'] at p1'
    obtain ⟨v, ⟨jr, j1, j2⟩, jr', j1', j2'⟩ := hS.noise t (by omega) c hc
    have hfree : ∀ {as : List ArrInfo} {s : ArrInfo}, s ∈ as.filter (fun s => s.kind == .free) → s ∈ as ∧ s.kind = .free := by
      intro as s hs
      rw [List.mem_filter] at hs
      exact ⟨hs.1, by simpa using hs.2⟩
    have e1 : convSum (cfg.arrays.filter fun s => s.kind == .free) ir (cfg.played x) c t = v := by
      rw [j2]
      refine convSum_ir _ _ (fun s hs => ?_) _ _
      obtain ⟨hs1, hs2⟩ := hfree hs
      exact IrAt.unique (g1 s hs1 (by rw [hs2]; decide)) (j1 s hs1 hs2)
    have e2 : convSum (cfg'.arrays.filter fun s => s.kind == .free) ir' (cfg'.played x') c t = v := by
      rw [j2']
      refine convSum_ir _ _ (fun s hs => ?_) _ _
      obtain ⟨hs1, hs2⟩ := hfree hs
      exact IrAt.unique (g1' s hs1 (by rw [hs2]; decide)) (j1' s hs1 hs2)
    have one : ∀ {as : List ArrInfo} {b : ArrInfo} {nm : String}, (as.map ArrInfo.name).Nodup → b ∈ as → b.name = nm →
        as.filter (fun s => s.name == nm) = [b] := by
      intro as
      induction as with
      | nil => intro b nm _ hb; cases hb
      | cons s as ih =>
        intro b nm hnd hb hn
        rw [List.map_cons, List.nodup_cons] at hnd
        rcases List.mem_cons.1 hb with rfl | hb
        · rw [List.filter_cons_of_pos (by simpa using hn), List.filter_eq_nil_iff.2]
          intro s hs hsn
          exact hnd.1 (by rw [hn, ← (by simpa using hsn : s.name = nm)]; exact List.mem_map_of_mem hs)
        · rw [List.filter_cons_of_neg, ih hnd.2 hb hn]
          intro hsn
          exact hnd.1 (by rw [(by simpa using hsn : s.name = nm), ← hn]; exact List.mem_map_of_mem hb)
    obtain ⟨pr, pr1, pr2⟩ := hS.path l hl l' hl' hln hln' t ht
    have f1 : ir "loudspeaker" = pr := by
      rw [← hln]
      exact IrAt.unique (g1 l hl (by rw [hlk]; decide)) pr1
    have f2 : ir' "loudspeaker" = pr := by
      rw [← hln']
      exact IrAt.unique (g1' l' hl' (by rw [hlk']; decide)) pr2
    rw [e2, one (initWith_nodup hi') hl' hln'] at p1'
    rw [e1, one (initWith_nodup hi) hl hln]
    have e3 : convSum [l'] ir' (fun _ i r => if r < 0 then 0 else Y' i r.toNat) c t =
        convSum [l] ir (fun _ i r => if r < 0 then 0 else Y i r.toNat) c t := by
      unfold convSum
      simp only [List.map_cons, List.map_nil, List.sum_cons, List.sum_nil, hln, hln', f1, f2, hlnum, hlnum']
      congr 2
      refine List.map_congr_left fun i hi => ?_
      congr 1
      refine List.map_congr_left fun j _ => ?_
      congr 1
      split
      · rfl
      · exact hplay t h1 h2 i (List.mem_range.1 hi) _ (by omega)
    rw [e3] at p1'
    exact p1'
  have hall : ∀ t : Nat, t ≤ k + 1 → (∀ c < q.nr, ∀ t' < (t : Int), ρ' c t' = ρ c t') ∧
      ∀ c < q.ne, ∀ t' < (t : Int), e' c t' = e c t' := by
    intro t
    obtain ⟨b, hb, hbn, hbk, hbnum⟩ := h.ref
    obtain ⟨d, hd, hdn, hdk, hdnum⟩ := h.err
    obtain ⟨b', hb', hbn', hbk', hbnum'⟩ := h'.ref
    obtain ⟨d', hd', hdn', hdk', hdnum'⟩ := h'.err
    induction t with
    | zero =>
      intro _
      refine ⟨fun c hc t' ht' => ?_, fun c hc t' ht' => ?_⟩
      · have hS := hheard b hb b' hb' (by rw [hbn, hbn']) (by simp [hbn])
        have t0 : t' < 0 := by simpa using ht'
        obtain ⟨u, u1, u2⟩ := hS.noise (if cfg.warm then t' else 0) (by split <;> omega) c (by omega)
        rw [← hw] at u2
        have p1 := hρ c hc t' (by omega)
        have p2 := hρ' c hc t' (by omega)
        rw [← hbn] at p1
        rw [← hbn'] at p2
        rw [fx_past_noise h hi hk hfilt hpos hsh hx hb hbk (by omega) t0 u1 p1,
          fx_past_noise h' hi' hk' hfilt' hpos' hsh' hx' hb' hbk' (by omega) t0 u2 p2, hB]
      · have hS := hheard d hd d' hd' (by rw [hdn, hdn']) (by simp [hdn])
        have t0 : t' < 0 := by simpa using ht'
        obtain ⟨u, u1, u2⟩ := hS.noise (if cfg.warm then t' else 0) (by split <;> omega) c (by omega)
        rw [← hw] at u2
        have p1 := he c hc t' (by omega)
        have p2 := he' c hc t' (by omega)
        rw [← hdn] at p1
        rw [← hdn'] at p2
        rw [fx_past_noise h hi hk hfilt hpos hsh hx hd hdk (by omega) t0 u1 p1,
          fx_past_noise h' hi' hk' hfilt' hpos' hsh' hx' hd' hdk' (by omega) t0 u2 p2, hB]
    | succ t ih =>
      intro ht
      obtain ⟨i1, i2⟩ := ih (by omega)
      refine ⟨fun c hc t' ht' => ?_, fun c hc t' ht' => ?_⟩
      · by_cases hlt : t' < t
        · exact i1 c hc t' hlt
        · obtain rfl : t' = t := by omega
          obtain ⟨v, g, g'⟩ := hmic t (by omega) i1 i2 b hb b' hb' hbk hbk' (hheard b hb b' hb' (by rw [hbn, hbn']) (by simp [hbn])) c (by omega)
          rw [hbn] at g
          rw [hbn'] at g'
          rw [fx_unique h hi hk (by decide) (by omega) (hrec (hρ c hc t (by omega))) g,
            fx_unique h' hi' hk' (by decide) (by omega) (hrec' (hρ' c hc t (by omega))) g']
      · by_cases hlt : t' < t
        · exact i2 c hc t' hlt
        · obtain rfl : t' = t := by omega
          obtain ⟨v, g, g'⟩ := hmic t (by omega) i1 i2 d hd d' hd' hdk hdk' (hheard d hd d' hd' (by rw [hdn, hdn']) (by simp [hdn])) c (by omega)
          rw [hdn] at g
          rw [hdn'] at g'
          rw [fx_unique h hi hk (by decide) (by omega) (hrec (he c hc t (by omega))) g,
            fx_unique h' hi' hk' (by decide) (by omega) (hrec' (he' c hc t (by omega))) g']
  refine ⟨?_, ?_, ?_⟩
  · intro t ht i hi
    obtain ⟨i1, i2⟩ := hall t (by omega)
    refine ⟨Y i t, hls i hi t ht, ?_⟩
    rw [← hplay t i1 i2 i hi t (le_refl _)]
    exact hls' i hi t ht
  · intro m hm m' hm' hmk hmk' hS t ht c hc
    obtain ⟨i1, i2⟩ := hall t (by omega)
    exact hmic t ht i1 i2 m hm m' hm' hmk hmk' hS c hc
  · intro r hr l hl
    rw [htaps r hr l hl, htaps' r hr l hl]
    obtain ⟨i1, i2⟩ := hall (k + 1) (le_refl _)
    refine List.map_congr_left fun y _ => ?_
    have := lmsTaps_scale (a := 1) one_ne_zero q (b := q.bs) (X := storedRef Sp q.bs ρ) (X' := storedRef Sp q.bs ρ')
      (e := e) (e' := e') (T := ((k + 1 : Nat) : Int))
      (fun r hr l _ m _ t' ht' => storedRef_scale hbs (fun u hu => by rw [one_mul]; exact i1 r hr u (by omega)) l m)
      (fun c hc t' ht' => by rw [one_mul]; exact i2 c hc t' ht') hr hl y ((k / q.bs - 1) * q.bs / q.ub) ?_
    · rw [louder_one] at this
      exact this
    by_cases hj : 1 ≤ k / q.bs
    · right
      have a1 := Nat.div_mul_le_self ((k / q.bs - 1) * q.bs) q.ub
      have a2 := Nat.div_mul_le_self k q.bs
      have a4 : (k / q.bs - 1) * q.bs + q.bs = k / q.bs * q.bs := by
        rw [Nat.sub_mul, Nat.one_mul]
        have := Nat.mul_le_mul_right q.bs hj
        omega
      omega
    · left
      rw [show k / q.bs - 1 = 0 by omega, Nat.zero_mul, Nat.zero_div]

end

section
/-- One noise source. -/
def wholeCfg : SimCfg ℚ (IrMat ℚ) (Fir ℚ) Nat Unit (FxSt ℚ) (DData ℚ (FxSt ℚ) ℚ) (DOut ℚ ℚ) :=
  fxCfg 5 3 (fxDemo 1 2 2 .sample) [2, 4] [0, 2] [1, -1]

/-- Two noise sources that play the same, half as loud at the microphones. -/
def halvesCfg : SimCfg ℚ (IrMat ℚ) (Fir ℚ) Nat Unit (FxSt ℚ) (DData ℚ (FxSt ℚ) ℚ) (DOut ℚ ℚ) :=
  { wholeCfg with
    arrays := [⟨"buzz", 1, .free, false⟩, ⟨"ref", 1, .mic, false⟩, ⟨"error", 1, .mic, false⟩, ⟨"noise", 1, .free, false⟩,
      ⟨"loudspeaker", 1, .ctrl, false⟩]
    arrPath := fun _ x m => .ok ⟨1, 1, fun _ _ => if m = "ref" then (if x = "loudspeaker" then [0] else [1, 2])
      else if x = "loudspeaker" then [1, -1] else [0, 1]⟩ }

theorem whole_scene : FxScene wholeCfg (fxDemo 1 2 2 .sample) :=
  fxCfg_scene (by decide) (by decide) (by decide) (by decide) (by decide)

theorem halves_scene : FxScene halvesCfg (fxDemo 1 2 2 .sample) := by
  have h := whole_scene
  refine ⟨h.proc, ⟨⟨"ref", 1, .mic, false⟩, by simp [halvesCfg], rfl, rfl, rfl⟩,
    ⟨⟨"error", 1, .mic, false⟩, by simp [halvesCfg], rfl, rfl, rfl⟩,
    ⟨⟨"loudspeaker", 1, .ctrl, false⟩, by simp [halvesCfg], rfl, rfl, rfl⟩, ?_, h.nr, h.nl, h.ne, h.L, h.bs, h.ub, h.chunk,
    h.buffer, h.regular⟩
  intro x hx
  simp only [halvesCfg, List.mem_cons, List.not_mem_nil, or_false] at hx
  rcases hx with rfl | rfl | rfl | rfl | rfl <;> decide

theorem whole_stream : IsStream wholeCfg.srcGet 0 1 fun _ t => ((t + 1 : Nat) : ℚ) := by
  refine isStream_of_inv (fun off s => s = off) rfl ?_
  rintro off s n rfl
  refine ⟨s + n, ?_, rfl⟩
  simp [wholeCfg, fxCfg, blockOf]

theorem IrAt.still {R IR F S A P D O : Type} {cfg : SimCfg R IR F S A P D O} {arr : A} {s m : ArrInfo} {ir : IR}
    (hd : ¬(s.dynamic = true ∨ m.dynamic = true)) (h : cfg.arrPath arr s.name m.name = .ok ir) : ∀ t, cfg.IrAt arr s m t ir
  | 0 => h
  | t + 1 => by
    simp only [SimCfg.IrAt]
    rw [if_neg hd]
    exact h

theorem whole_mem : ∀ b ∈ wholeCfg.arrays, b = ⟨"ref", 1, .mic, false⟩ ∨ b = ⟨"error", 1, .mic, false⟩ ∨ b = ⟨"noise", 1, .free, false⟩ ∨
    b = ⟨"loudspeaker", 1, .ctrl, false⟩ := by
  intro b hb
  simpa only [wholeCfg, fxCfg, List.mem_cons, List.not_mem_nil, or_false] using hb

theorem halves_mem : ∀ b ∈ halvesCfg.arrays, b = ⟨"buzz", 1, .free, false⟩ ∨ b = ⟨"ref", 1, .mic, false⟩ ∨
    b = ⟨"error", 1, .mic, false⟩ ∨ b = ⟨"noise", 1, .free, false⟩ ∨ b = ⟨"loudspeaker", 1, .ctrl, false⟩ := by
  intro b hb
  simpa only [halvesCfg, List.mem_cons, List.not_mem_nil, or_false] using hb

theorem halves_heard {m m' : ArrInfo} (hm : m ∈ wholeCfg.arrays) (hm' : m' ∈ halvesCfg.arrays) (hn : m'.name = m.name)
    (hnm : m.name ∈ ["ref", "error"]) (k : Nat) :
    SameHeard wholeCfg () (fun _ _ t => ((t + 1 : Nat) : ℚ)) halvesCfg () (fun _ _ t => ((t + 1 : Nat) : ℚ)) m m' k := by
  have hnum : m'.num = m.num := by
    rcases whole_mem m hm with rfl | rfl | rfl | rfl <;> rcases halves_mem m' hm' with rfl | rfl | rfl | rfl | rfl <;> rfl
  refine ⟨hnum, ?_, ?_⟩
  · intro t _ c hc
    refine ⟨_, ⟨fun x => ⟨1, 1, fun _ _ => if m.name = "ref" then (if x = "noise" then [2, 4] else [0])
      else if x = "noise" then [0, 2] else [1, -1]⟩, ?_, rfl⟩,
      fun x => ⟨1, 1, fun _ _ => if m.name = "ref" then (if x = "loudspeaker" then [0] else [1, 2])
        else if x = "loudspeaker" then [1, -1] else [0, 1]⟩, ?_, ?_⟩
    · intro s hs _
      have hsd : ¬(s.dynamic = true ∨ m.dynamic = true) := by
        rcases whole_mem s hs with rfl | rfl | rfl | rfl <;> rcases whole_mem m hm with rfl | rfl | rfl | rfl <;> decide
      exact IrAt.still hsd rfl _
    · intro s hs _
      have hsd : ¬(s.dynamic = true ∨ m'.dynamic = true) := by
        rcases halves_mem s hs with rfl | rfl | rfl | rfl | rfl <;> rcases halves_mem m' hm' with rfl | rfl | rfl | rfl | rfl <;> decide
      rw [← hn]
      exact IrAt.still hsd rfl _
    · have e1 : (wholeCfg.arrays.filter fun s => s.kind == .free) = [⟨"noise", 1, .free, false⟩] := by rfl
      have e2 : (halvesCfg.arrays.filter fun s => s.kind == .free) = [⟨"buzz", 1, .free, false⟩, ⟨"noise", 1, .free, false⟩] := by rfl
      obtain ⟨u, hu⟩ : ∃ u : Int → ℚ, u = fun r => if (-1 : Int) < r then ((r.toNat + 1 : Nat) : ℚ) else 0 := ⟨_, rfl⟩
      have p1 : ∀ r, wholeCfg.played (fun _ _ t => ((t + 1 : Nat) : ℚ)) "noise" 0 r = u r := by
        intro r
        unfold SimCfg.played
        simp [hu, wholeCfg, fxCfg]
      have p2 : ∀ nm ∈ ["buzz", "noise"], ∀ r, halvesCfg.played (fun _ _ t => ((t + 1 : Nat) : ℚ)) nm 0 r = u r := by
        intro nm hnm r
        unfold SimCfg.played
        simp only [List.mem_cons, List.not_mem_nil, or_false] at hnm
        rcases hnm with rfl | rfl <;> simp [hu, halvesCfg, wholeCfg, fxCfg]
      rw [e1, e2]
      unfold convSum
      simp only [List.map_cons, List.map_nil, List.sum_cons, List.sum_nil, List.range_one]
      simp only [p1, p2 "buzz" (by simp), p2 "noise" (by simp)]
      simp only [List.mem_cons, List.not_mem_nil, or_false] at hnm
      rcases hnm with hnm | hnm <;> simp [hnm, List.range_succ] <;> ring
  · intro l hl l' hl' hln hln' t _
    have hsd : ¬(l.dynamic = true ∨ m.dynamic = true) := by
      rcases whole_mem l hl with rfl | rfl | rfl | rfl <;> rcases whole_mem m hm with rfl | rfl | rfl | rfl <;> decide
    have hsd' : ¬(l'.dynamic = true ∨ m'.dynamic = true) := by
      rcases halves_mem l' hl' with rfl | rfl | rfl | rfl | rfl <;> rcases halves_mem m' hm' with rfl | rfl | rfl | rfl | rfl <;> decide
    refine ⟨⟨1, 1, fun _ _ => if m.name = "ref" then [0] else [1, -1]⟩, ?_, ?_⟩
    · have hp : wholeCfg.arrPath () l.name m.name = .ok ⟨1, 1, fun _ _ => if m.name = "ref" then [0] else [1, -1]⟩ := by
        rw [hln]; simp [wholeCfg, fxCfg]
      exact IrAt.still hsd hp t
    · have hp : halvesCfg.arrPath () l'.name m'.name = .ok ⟨1, 1, fun _ _ => if m.name = "ref" then [0] else [1, -1]⟩ := by
        rw [hln', hn]; simp [halvesCfg]
      exact IrAt.still hsd' hp t

/-- The hypotheses are met: the loudspeaker plays the same for one noise source and for
the two halves of it. -/
example : ∃ (st0 st0' : SimSt ℚ (Fir ℚ) Nat Unit (FxSt ℚ) (DData ℚ (FxSt ℚ) ℚ) (DOut ℚ ℚ)),
    fxRun wholeCfg (fxDemo 1 2 2 .sample) [1, -1] = .ok st0 ∧ fxRun halvesCfg (fxDemo 1 2 2 .sample) [1, -1] = .ok st0' ∧
    wholeCfg.Produced st0 "loudspeaker" 0 6 (-76404/2701) ∧ halvesCfg.Produced st0' "loudspeaker" 0 6 (-76404/2701) := by
  have h1 : fxSample wholeCfg (fxDemo 1 2 2 .sample) [1, -1] "loudspeaker" 7 = some (-91668/2701) := by decide +kernel
  have h2 : fxSample wholeCfg (fxDemo 1 2 2 .sample) [1, -1] "loudspeaker" 6 = some (-76404/2701) := by decide +kernel
  have h1' : fxSample halvesCfg (fxDemo 1 2 2 .sample) [1, -1] "loudspeaker" 7 = some (-91668/2701) := by decide +kernel
  obtain ⟨st0, st, h0, hk⟩ := fxRun_steps h1
  obtain ⟨st0', st', h0', hk'⟩ := fxRun_steps h1'
  have p := fxSample_produced h0 h2
  obtain ⟨g, -, -⟩ := C200_heard (x := fun _ _ t => ((t + 1 : Nat) : ℚ)) (x' := fun _ _ t => ((t + 1 : Nat) : ℚ))
    whole_scene halves_scene h0 h0' hk hk' rfl rfl
    (fun b hb => by rcases whole_mem b hb with rfl | rfl | rfl | rfl <;> decide)
    (fun b hb => by rcases halves_mem b hb with rfl | rfl | rfl | rfl | rfl <;> decide)
    (by
      intro n a _ s m h hs hm hp
      cases hp
      rcases whole_mem m hm with rfl | rfl | rfl | rfl <;> rfl)
    (by
      intro n a _ s m h hs hm hp
      cases hp
      rcases halves_mem m hm with rfl | rfl | rfl | rfl | rfl <;> rfl)
    (fun b hb _ => by rcases whole_mem b hb with rfl | rfl | rfl | rfl <;> exact whole_stream)
    (fun b hb _ => by rcases halves_mem b hb with rfl | rfl | rfl | rfl | rfl <;> exact whole_stream)
    rfl rfl
    (fun m hm m' hm' hn hnm => halves_heard hm hm' hn hnm 6)
  obtain ⟨v, g1, g2⟩ := g 6 (by decide) 0 (by decide)
  have hv := fx_unique whole_scene h0 hk (by decide) (by decide) g1 p
  rw [hv] at g2
  exact ⟨st0, st0', h0, h0', p, g2⟩

end
end Verif

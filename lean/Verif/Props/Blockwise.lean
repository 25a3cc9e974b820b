/-
C131: processors that work block by block.
-/
import Verif.Lemmas.Blockwise
import Verif.Lemmas.Valid
import Verif.Lemmas.Causal
import Verif.Props.SamePlace
import Verif.Spec.Blockwise
import Verif.Demo.Small
namespace Verif

/-! ### The operators realised -/

section
variable {R : Type} [Field R]

/-- Sample `i` of all channels. -/
def sampleCol (nin : Nat) (u : Nat → Nat → R) (i : Nat) : List R := (List.range nin).map fun c => u c i

theorem colsOf_matOf (nin n : Nat) (f : Nat → Nat → R) :
    colsOf (matOf nin n f) n = (List.range n).map fun k => (List.range nin).map fun c => f c k := by
  unfold colsOf
  refine List.map_congr_left fun k hk => ?_
  rw [List.mem_range] at hk
  unfold matOf
  rw [List.map_map]
  refine List.map_congr_left fun c _ => ?_
  simp [List.getElem?_range hk]

theorem firOut_past {W : IrMat R} {nin : Nat} (hW : W.numIn = nin) (u : Nat → Nat → R) (n l : Nat) :
    firOut W (((List.range (n + 1)).map (sampleCol nin u)).reverse) l = filtered W u l n := by
  unfold firOut filtered
  congr 1
  refine List.map_congr_left fun s hs => ?_
  rw [List.mem_range, hW] at hs
  congr 1
  refine List.map_congr_left fun q _ => ?_
  by_cases hq : q ≤ n
  · rw [if_pos hq]
    congr 1
    rw [List.getD_eq_getElem?_getD (l := List.reverse _), List.getElem?_reverse (by simp; omega)]
    simp only [List.length_map, List.length_range]
    rw [List.getElem?_map, List.getElem?_range (by omega)]
    simp only [Option.map_some, Option.getD_some, sampleCol]
    rw [List.getD_eq_getElem?_getD, List.getElem?_map, List.getElem?_range hs]
    simp only [Option.map_some, Option.getD_some]
    rfl
  · rw [if_neg hq, List.getD_eq_getElem?_getD (l := List.reverse _), List.getElem?_eq_none (by simp; omega)]
    simp

theorem fir_feed {W : IrMat R} {nin : Nat} (hW : W.numIn = nin) (hn : 1 ≤ nin) (bs : Nat) (u : Nat → Nat → R) :
    ∀ j, feed Fir.process bs nin u ⟨W, []⟩ j = .ok ⟨W, ((List.range (j * bs)).map (sampleCol nin u)).reverse⟩
  | 0 => by simp [feed]
  | j + 1 => by
    unfold feed
    rw [fir_feed hW hn bs u j]
    simp only [Fir.process]
    rw [if_neg (by simp [hW, matOf]), numCols_matOf _ hn, colsOf_matOf]
    simp only [Except.map, Except.ok.injEq, Fir.mk.injEq, true_and]
    rw [← List.reverse_append, Nat.add_mul, Nat.one_mul, List.range_add, List.map_append, List.map_map]
    rfl

/-- A filter object works block by block as the convolution with the past. -/
theorem fir_realises {W : IrMat R} {nin nout : Nat} (hW : W.numIn = nin) (hW' : W.numOut = nout) (hn : 1 ≤ nin)
    (bs : Nat) : Realises Fir.process bs nin nout ⟨W, []⟩ (filtered W) := by
  intro u j
  have h := fir_feed hW hn bs u j
  refine ⟨_, ⟨W, ((List.range ((j + 1) * bs)).map (sampleCol nin u)).reverse⟩, h, ?_⟩
  simp only [Fir.process]
  rw [if_neg (by simp [hW, matOf]), numCols_matOf _ hn, colsOf_matOf, hW']
  simp only [Except.ok.injEq, Prod.mk.injEq]
  refine ⟨?_, matOf_congr fun l k _ hk => ?_⟩
  · rw [← List.reverse_append, Nat.add_mul, Nat.one_mul, List.range_add, List.map_append, List.map_map]
    rfl
  rw [← firOut_past hW, ← List.reverse_append, ← List.map_take, List.take_range, Nat.min_eq_left (by omega),
    show j * bs + k + 1 = j * bs + (k + 1) by omega, List.range_add (n := j * bs), List.map_append, List.map_map]
  rfl

omit [Field R] in
/-- A source works block by block as the stream it delivers. -/
theorem stream_realises [Zero R] {S : Type} {get : S → Nat → Except PyErr (S × Mat R)} {s0 : S} {nout : Nat}
    {x : Nat → Nat → R} (hx : IsStream get s0 nout x) (bs : Nat) :
    Realises (fun s (_ : Mat R) => get s bs) bs 0 nout s0 fun _ => x := by
  intro u j
  have hrun : ∀ j, ∃ s, feed (fun s (_ : Mat R) => get s bs) bs 0 u s0 j = .ok s ∧ StreamAt get s nout (j * bs) x := by
    intro j
    induction j with
    | zero => exact ⟨s0, rfl, by rw [Nat.zero_mul]; exact StreamAt.of_isStream hx⟩
    | succ j ih =>
      obtain ⟨s, h1, h2⟩ := ih
      obtain ⟨s', h3, h4⟩ := h2.next bs
      refine ⟨s', ?_, by rw [Nat.add_mul, Nat.one_mul]; exact h4⟩
      unfold feed
      rw [h1]
      simp only
      rw [h3]
      rfl
  obtain ⟨s, h1, h2⟩ := hrun j
  obtain ⟨s', h3, _⟩ := h2.next bs
  exact ⟨s, s', h1, h3⟩

end

/-! ### What the loudspeakers play -/

section
variable {R IR F S A P V : Type} [Field R] [DecidableEq R]
  {cfg : SimCfg R IR F S A P (DData R P V) (DOut R V)}
  {srcs : String → S} {arr : A} {f0 : F} {ds0 : List (Diag (DData R P V))} {p0 : P}
  {st0 st : SimSt R F S A P (DData R P V) (DOut R V)} {k bs nin : Nat}

theorem emitted_same {name : String} {c : Nat} {t : Int} {v w : R} (h : cfg.Emitted st0 name c t v)
    (h' : cfg.Emitted st0 name c t w) : v = w := by
  unfold SimCfg.Emitted at h h'
  split at h
  · rename_i h0
    rw [if_pos h0] at h'
    exact h.unique h'
  · rename_i h0
    rw [if_neg h0] at h'
    split at h
    · rename_i h1
      rw [if_pos h1] at h'
      exact Sigs.At.unique h h'
    · rename_i h1
      rw [if_neg h1] at h'
      rw [h, h']

/-- What a blockwise processor makes of its input, on the tape. -/
theorem block_out {inp : Option String} {out : String} {step : P → Mat R → Except PyErr (P × Mat R)}
    (h : Started cfg ((blockProc inp out bs step).view bs) srcs arr p0 f0 ds0 st0)
    (hk : cfg.steps k st0 = .ok st) (hproc : cfg.proc = some (blockProc inp out bs step))
    {Φ : (Nat → Nat → R) → Nat → Nat → R} {l : ArrInfo} (hΦ : Realises step bs nin l.num p0 Φ)
    (hin : ReadsNum cfg.dims inp nin)
    (hl : l ∈ cfg.arrays) (hlk : l.kind = .ctrl) (hln : l.name = out) :
    ∃ x : Nat → Nat → R, (∀ nm, inp = some nm → ∀ c < nin, ∀ t ≤ k, cfg.Produced st0 nm c t (x c t)) ∧
      ∀ c < l.num, ∀ t ≤ (k : Int), cfg.Emitted st0 out c t
        (if t < bs then 0 else Φ x c (t - bs).toNat) := by
  obtain ⟨e0, te, he0, h0, hte, _, hprod⟩ := h.tape hk
  have hI := blockInv_steps h.nm hproc hΦ hin hl hlk hln rfl (blockInv_init h.nm hl hlk hln he0) k hte
  have hb : 1 ≤ bs := by
    have := h.sizes.block; unfold SimCfg.mbs at this; rw [hproc] at this; exact this
  have hdl : cfg.dims out = some l.num := by rw [← hln, h.nm.arr l hl]
  have hlt : k < k / bs * bs + bs := by
    have h1 := Nat.div_add_mod k bs
    have h2 := Nat.mod_lt k (show bs > 0 by omega)
    rw [Nat.mul_comm] at h1; omega
  refine ⟨tapeIn inp te.sig, ?_, ?_⟩
  · rintro nm rfl c hc t ht
    rw [hprod t ht]
    exact ⟨nin, hin, hc, rfl⟩
  · intro c hc t ht
    have hem := h.emitted h0 hte hprod hdl hc ht
    have hls := hI.out c hc (t - 1) (by omega)
    have hval : (if -(cfg.prepNum : Int) < t then te.sig out c (t - 1) else 0) =
        if t < bs then 0 else Φ (tapeIn inp te.sig) c (t - bs).toNat := by
      rw [hls]
      by_cases ht2 : t < bs
      · rw [if_pos ht2, if_pos (show t - 1 < (bs : Int) - 1 by omega)]
        split <;> rfl
      · rw [if_pos (show -(cfg.prepNum : Int) < t by omega), if_neg ht2, if_neg (show ¬ t - 1 < (bs : Int) - 1 by omega)]
        congr 2
        omega
    rw [hval] at hem
    exact hem

end

section
variable {R IR F S A P V : Type} [Field R] [DecidableEq R]
  {srcs : String → S} {arr : A} {f0 : F} {k bs : Nat}

/-- C131, playing a sound: the loudspeakers driven by a processor that plays a
stream are silent for `block_size` samples and then play the stream, whatever the
block size, the buffer and the other arrays are. -/
theorem C131_play {cfg : SimCfg R IR F S A P (DData R P V) (DOut R V)} {ds0 : List (Diag (DData R P V))} {p0 : P}
    {st0 st : SimSt R F S A P (DData R P V) (DOut R V)} {get : P → Nat → Except PyErr (P × Mat R)} {out : String}
    (h : Started cfg ((playProc get out bs).view bs) srcs arr p0 f0 ds0 st0)
    (hk : cfg.steps k st0 = .ok st) (hproc : cfg.proc = some (playProc get out bs))
    {l : ArrInfo} (hl : l ∈ cfg.arrays) (hlk : l.kind = .ctrl) (hln : l.name = out)
    {x : Nat → Nat → R} (hx : IsStream get p0 l.num x) :
    ∀ c < l.num, ∀ t ≤ k, cfg.Produced st0 out c t (if t < bs then 0 else x c (t - bs)) := by
  rw [play_eq] at h hproc
  obtain ⟨_, _, h2⟩ := block_out h hk hproc (stream_realises hx bs) rfl hl hlk hln
  intro c hc t ht
  have := h2 c hc t (by omega)
  unfold SimCfg.Emitted at this
  rw [if_pos (by omega), Int.toNat_natCast] at this
  have e : (if (t : Int) < bs then 0 else x c ((t : Int) - bs).toNat) = if t < bs then 0 else x c (t - bs) := by
    by_cases htb : t < bs
    · rw [if_pos htb, if_pos (by omega)]
    · rw [if_neg htb, if_neg (by omega)]
      congr 1
      omega
  rw [e] at this
  exact this

/-- C131, control filter: loudspeakers driven by a fixed control filter are silent
for `block_size` samples and then play the microphone signal, as recorded from
time 0 on, filtered and `block_size` samples late: the block size is a latency
and has no other effect. -/
theorem C131_control {cfg : SimCfg R IR F S A (Fir R) (DData R (Fir R) V) (DOut R V)}
    {ds0 : List (Diag (DData R (Fir R) V))} {st0 st : SimSt R F S A (Fir R) (DData R (Fir R) V) (DOut R V)}
    {inp out : String} {W : IrMat R} (h : Started cfg ((ancProc inp out bs).view bs) srcs arr ⟨W, []⟩ f0 ds0 st0)
    (hk : cfg.steps k st0 = .ok st) (hproc : cfg.proc = some (ancProc inp out bs))
    {m l : ArrInfo} (hm : m ∈ cfg.arrays) (hmn : m.name = inp) (hm1 : 0 < m.num)
    (hl : l ∈ cfg.arrays) (hlk : l.kind = .ctrl) (hln : l.name = out)
    (hW : W.numIn = m.num) (hW' : W.numOut = l.num) :
    ∃ x : Nat → Nat → R, (∀ c < m.num, ∀ t ≤ k, cfg.Produced st0 inp c t (x c t)) ∧
      ∀ c < l.num, ∀ t ≤ k, cfg.Produced st0 out c t (if t < bs then 0 else filtered W x c (t - bs)) := by
  rw [anc_eq] at h hproc
  obtain ⟨x, h1, h2⟩ := block_out h hk hproc (fir_realises hW hW' hm1 bs)
    (by show cfg.dims inp = _; rw [← hmn, h.nm.arr m hm]) hl hlk hln
  refine ⟨x, h1 inp rfl, ?_⟩
  intro c hc t ht
  have := h2 c hc t (by omega)
  unfold SimCfg.Emitted at this
  rw [if_pos (by omega), Int.toNat_natCast] at this
  have e : (if (t : Int) < bs then 0 else filtered W x c ((t : Int) - bs).toNat) =
      if t < bs then 0 else filtered W x c (t - bs) := by
    by_cases htb : t < bs
    · rw [if_pos htb, if_pos (by omega)]
    · rw [if_neg htb, if_neg (by omega)]
      congr 1
      omega
  rw [e] at this
  exact this

end

/-! ### What the microphones hear -/

section
variable {R : Type} [Field R]

theorem delayed_row (row : List R) (n : Nat) (y : Int → R) (t : Int) :
    ((List.range (List.replicate n (0 : R) ++ row).length).map fun q =>
      (List.replicate n (0 : R) ++ row).getD q 0 * y (t - q)).sum =
    ((List.range row.length).map fun q => row.getD q 0 * y (t - n - q)).sum := by
  rw [List.length_append, List.length_replicate, List.range_add, List.map_append, List.sum_append, List.map_map]
  have h0 : ((List.range n).map fun q => (List.replicate n (0 : R) ++ row).getD q 0 * y (t - q)).sum = 0 := by
    apply List.sum_eq_zero
    intro v hv
    obtain ⟨q, hq, rfl⟩ := List.mem_map.1 hv
    rw [List.mem_range] at hq
    rw [List.getD_eq_getElem?_getD, List.getElem?_append_left (by simpa using hq),
      List.getElem?_replicate, if_pos hq]
    simp
  rw [h0, zero_add]
  congr 1
  refine List.map_congr_left fun q _ => ?_
  simp only [Function.comp]
  rw [List.getD_eq_getElem?_getD, List.getElem?_append_right (by simp), List.length_replicate,
    Nat.add_sub_cancel_left, ← List.getD_eq_getElem?_getD]
  congr 2
  push_cast
  ring

theorem convSum_delayed {sources : List ArrInfo} {h : String → IrMat R} {u u' : String → Nat → Int → R}
    {out : String} {n c : Nat} {t : Int}
    (hu : ∀ s ∈ sources, s.name ≠ out → ∀ i < s.num, ∀ r ≤ t, u s.name i r = u' s.name i r)
    (ho : ∀ s ∈ sources, s.name = out → ∀ i < s.num, ∀ r ≤ t, u out i r = u' out i (r - n)) :
    convSum sources h u c t = convSum sources (fun s => if s = out then (h s).delayed n else h s) u' c t := by
  unfold convSum
  congr 1
  refine List.map_congr_left fun s hs => ?_
  congr 1
  refine List.map_congr_left fun i hi => ?_
  rw [List.mem_range] at hi
  by_cases hso : s.name = out
  · simp only [if_pos hso, IrMat.delayed]
    rw [delayed_row]
    congr 1
    refine List.map_congr_left fun q _ => ?_
    rw [hso, ho s hs hso i hi _ (by omega)]
    congr 2
    ring
  · simp only [if_neg hso]
    congr 1
    refine List.map_congr_left fun q _ => ?_
    rw [hu s hs hso i hi _ (by omega)]

end

section
variable {R S A V : Type} [Field R] [DecidableEq R]
  {cfg : SimCfg R (IrMat R) (Fir R) S A (Fir R) (DData R (Fir R) V) (DOut R V)}
  {srcs : String → S} {arr : A} {f0 : Fir R} {ds0 : List (Diag (DData R (Fir R) V))}
  {st0 st : SimSt R (Fir R) S A (Fir R) (DData R (Fir R) V) (DOut R V)} {k bs : Nat}

/-- C131, what the microphones hear: with standing arrays the signal at any
microphone array is that of a loudspeaker array which plays the output of the
control filter without latency, through secondary paths with `block_size` zeros
put in front, plus what the other sources contribute.  This is the secondary path
the adaptive processors of the examples identify the system with. -/
theorem C131_heard {inp out : String} {W : IrMat R}
    (h : Started cfg ((ancProc inp out bs).view bs) srcs arr ⟨W, []⟩ f0 ds0 st0)
    (hk : cfg.steps k st0 = .ok st) (hproc : cfg.proc = some (ancProc inp out bs))
    {r l m : ArrInfo} (hr : r ∈ cfg.arrays) (hrn : r.name = inp)
    (hl : l ∈ cfg.arrays) (hlk : l.kind = .ctrl) (hln : l.name = out)
    (hW : W.numIn = r.num) (hW' : W.numOut = l.num)
    (hfilt : cfg.filt = firOps R) (hpos : ∀ a ∈ cfg.arrays, 0 < a.num) (hsh : cfg.PathShape arr)
    (hstat : ∀ a ∈ cfg.arrays, a.dynamic = false) (hm : m ∈ cfg.arrays) (hmic : m.kind = .mic)
    {ir : String → IrMat R}
    (hir : ∀ s ∈ cfg.arrays, s.kind ≠ .mic → cfg.arrPath arr s.name m.name = .ok (ir s.name)) :
    ∃ (x : Nat → Nat → R) (u : String → Nat → Int → R),
      (∀ c < r.num, ∀ t ≤ k, cfg.Produced st0 inp c t (x c t)) ∧
      (∀ s ∈ cfg.arrays, s.kind ≠ .mic → s.name ≠ out → ∀ i < s.num, ∀ t ≤ (k : Int),
        cfg.Emitted st0 s.name i t (u s.name i t)) ∧
      (∀ i t, u out i t = if t < 0 then 0 else filtered W x i t.toNat) ∧
      ∀ t ≤ k, ∀ c < m.num, cfg.Produced st0 m.name c t
        (convSum (cfg.arrays.filter fun s => s.kind != .mic)
          (fun s => if s = out then (ir s).delayed bs else ir s) u c t) := by
  have hmo : m.name ≠ out := by
    intro he
    have := h.nm.inj m hm l hl (he.trans hln.symm)
    rw [this, hlk] at hmic
    cases hmic
  rw [anc_eq] at h hproc
  obtain ⟨x, h1, h2⟩ := block_out h hk hproc (fir_realises hW hW' (hpos r hr) bs)
    (by show cfg.dims inp = _; rw [← hrn, h.nm.arr r hr]) hl hlk hln
  obtain ⟨u, g1, g2⟩ := C10_convolution h hk hfilt hpos hsh hstat hm hmic
    (by intro p hp; rw [hproc] at hp; cases hp; exact block_keeps _ _ _ _ hmo) hir
  refine ⟨x, fun s i t => if s = out then (if t < 0 then 0 else filtered W x i t.toNat) else u s i t,
    h1 inp rfl, ?_, ?_, ?_⟩
  · intro s hs hsk hso i hi t ht
    simp only [if_neg hso]
    exact g1 s hs hsk i hi t ht
  · intro i t
    simp only [if_true]
  · intro t ht c hc
    rw [← convSum_delayed (u := u)]
    · exact g2 t ht c hc
    · intro s _ hso i _ r _
      simp only [if_neg hso]
    · intro s hs hso i hi r' hr'
      rw [List.mem_filter] at hs
      have hsl : s = l := h.nm.inj s hs.1 l hl (hso.trans hln.symm)
      subst hsl
      have e1 := g1 s hs.1 (by simpa using hs.2) i hi r' (by omega)
      have e2 := h2 i hi r' (by omega)
      rw [hso] at e1
      rw [emitted_same e1 e2]
      simp only [if_true]
      by_cases hb : r' < bs
      · rw [if_pos hb, if_pos (by omega)]
      · rw [if_neg hb, if_neg (by omega)]

end

/-! ### Concrete cases -/

section

abbrev CtlSt := SimSt ℚ (Fir ℚ) Nat Unit (Fir ℚ) (DData ℚ (Fir ℚ) ℚ) (DOut ℚ ℚ)

/-- A reference and an error microphone, a counting source and a loudspeaker with
a control filter, blocks of two samples. -/
def ctlCfg : SimCfg ℚ (IrMat ℚ) (Fir ℚ) Nat Unit (Fir ℚ) (DData ℚ (Fir ℚ) ℚ) (DOut ℚ ℚ) where
  B := 4
  C := 2
  tot := 6
  warm := true
  contrib := true
  plotNone := false
  arrays := [⟨"ref", 1, .mic, false⟩, ⟨"error", 1, .mic, false⟩, ⟨"noise", 1, .free, false⟩,
    ⟨"loudspeaker", 1, .ctrl, false⟩]
  srcGet := fun p n => .ok (p + n, [(List.range n).map fun k => ((p + k + 1 : Nat) : ℚ)])
  filt := firOps ℚ
  arrUpdate := fun _ _ => .ok ()
  arrPath := fun _ s _ => .ok ⟨1, 1, fun _ _ => if s = "noise" then [1, 2] else [0, 3]⟩
  proc := some (ancProc "ref" "loudspeaker" 2)
  diag := diagOps ℚ (Fir ℚ) ℚ

/-- The control filter `-1/2, 1/4`. -/
def ctlFilt : IrMat ℚ := ⟨1, 1, fun _ _ => [-1/2, 1/4]⟩

theorem ctl_admissible : Admissible ctlCfg ((ancProc "ref" "loudspeaker" 2).view 2) where
  block := by decide
  buffer := by decide
  chunk := by decide
  proc := by
    intro p hp
    cases hp
    exact ⟨Or.inl (by decide), by decide⟩
  valid := by
    show ((ancProc "ref" "loudspeaker" 2).view 2).Valid _ (some (ancProc "ref" "loudspeaker" 2))
    rw [anc_eq]
    exact block_valid _ _ _ _ _

theorem ctl_started : ∃ (st0 st : CtlSt), Started ctlCfg ((ancProc "ref" "loudspeaker" 2).view 2) (fun _ => 0) ()
    ⟨ctlFilt, []⟩ demoFilt [] st0 ∧ ctlCfg.steps 7 st0 = .ok st := by
  have h0 : ∃ st0, ctlCfg.init (fun _ => 0) () ⟨ctlFilt, []⟩ demoFilt [] = .ok st0 := ⟨_, by rfl⟩
  obtain ⟨st0, h0⟩ := h0
  have h1 : ((ctlCfg.init (fun _ => 0) () ⟨ctlFilt, []⟩ demoFilt []).bind fun st0 =>
      (ctlCfg.steps 7 st0).map fun _ => ()) = .ok () := by rfl
  rw [h0] at h1
  change (ctlCfg.steps 7 st0).map _ = _ at h1
  cases hs : ctlCfg.steps 7 st0 with
  | error x => rw [hs] at h1; cases h1
  | ok st => exact ⟨st0, st, ⟨ctl_admissible, rfl, by decide, h0⟩, hs⟩

theorem ctl_shape (arr) : ctlCfg.PathShape arr := by
  intro n a _ s m h hs hm hp
  cases hp
  simp only [ctlCfg, List.mem_cons, List.not_mem_nil, or_false] at hm
  rcases hm with rfl | rfl | rfl | rfl <;> rfl

example : ∃ (st0 : CtlSt) (x : Nat → Nat → ℚ), (∀ t ≤ 7, ctlCfg.Produced st0 "ref" 0 t (x 0 t)) ∧
    ctlCfg.Produced st0 "loudspeaker" 0 1 0 ∧
    ctlCfg.Produced st0 "loudspeaker" 0 7 (((-1/2) * x 0 5 + (1/4 * x 0 4 + 0)) + 0) := by
  obtain ⟨st0, st, h, hk⟩ := ctl_started
  obtain ⟨x, h1, h2⟩ := C131_control h hk rfl (m := ⟨"ref", 1, .mic, false⟩)
    (l := ⟨"loudspeaker", 1, .ctrl, false⟩) (by simp [ctlCfg]) rfl (by decide) (by simp [ctlCfg]) rfl rfl rfl rfl
  exact ⟨st0, x, h1 0 (by decide), h2 0 (by decide) 1 (by decide), h2 0 (by decide) 7 (by decide)⟩

example : ∃ (st0 : CtlSt) (x : Nat → Nat → ℚ) (u : String → Nat → Int → ℚ),
    (∀ t ≤ (7 : Int), ctlCfg.Emitted st0 "noise" 0 t (u "noise" 0 t)) ∧
    (u "loudspeaker" 0 4 = ((-1/2) * x 0 4 + (1/4 * x 0 3 + 0)) + 0) ∧
    ctlCfg.Produced st0 "error" 0 7
      (convSum [⟨"noise", 1, .free, false⟩, ⟨"loudspeaker", 1, .ctrl, false⟩]
        (fun s => ⟨1, 1, fun _ _ => if s = "loudspeaker" then [0, 0, 0, 3] else [1, 2]⟩) u 0 7) := by
  obtain ⟨st0, st, h, hk⟩ := ctl_started
  obtain ⟨x, u, h1, h2, h3, h4⟩ := C131_heard h hk rfl (r := ⟨"ref", 1, .mic, false⟩)
    (l := ⟨"loudspeaker", 1, .ctrl, false⟩) (m := ⟨"error", 1, .mic, false⟩) (by simp [ctlCfg]) rfl
    (by simp [ctlCfg]) rfl rfl rfl rfl rfl
    (by intro a ha; simp only [ctlCfg, List.mem_cons, List.not_mem_nil, or_false] at ha
        rcases ha with rfl | rfl | rfl | rfl <;> decide) (ctl_shape _)
    (by intro a ha; simp only [ctlCfg, List.mem_cons, List.not_mem_nil, or_false] at ha
        rcases ha with rfl | rfl | rfl | rfl <;> rfl)
    (by simp [ctlCfg]) rfl
    (ir := fun s => ⟨1, 1, fun _ _ => if s = "noise" then [1, 2] else [0, 3]⟩) (fun s _ _ => rfl)
  refine ⟨st0, x, u, fun t ht => h2 ⟨"noise", 1, .free, false⟩ (by simp [ctlCfg]) (by decide) (by decide) 0 (by decide) t ht,
    h3 0 4, ?_⟩
  exact h4 7 (by decide) 0 (by decide)

abbrev PlaySt := SimSt ℚ (Fir ℚ) Nat Unit Nat (DData ℚ Nat ℚ) (DOut ℚ ℚ)

def countGet' : Nat → Nat → Except PyErr (Nat × Mat ℚ) :=
  fun p n => .ok (p + n, [(List.range n).map fun k => ((p + k + 1 : Nat) : ℚ)])

/-- A loudspeaker playing 1, 2, 3, ... in blocks of three samples. -/
def playCfg : SimCfg ℚ (IrMat ℚ) (Fir ℚ) Nat Unit Nat (DData ℚ Nat ℚ) (DOut ℚ ℚ) where
  B := 5
  C := 3
  tot := 6
  warm := false
  contrib := false
  plotNone := false
  arrays := [⟨"ls", 1, .ctrl, false⟩, ⟨"mic", 1, .mic, false⟩]
  srcGet := countGet'
  filt := firOps ℚ
  arrUpdate := fun _ _ => .ok ()
  arrPath := fun _ _ _ => .ok ⟨1, 1, fun _ _ => [0, 3]⟩
  proc := some (playProc countGet' "ls" 3)
  diag := diagOps ℚ Nat ℚ

theorem play_admissible : Admissible playCfg ((playProc countGet' "ls" 3).view 3) where
  block := by decide
  buffer := by decide
  chunk := by decide
  proc := by
    intro p hp
    cases hp
    exact ⟨Or.inl (by decide), by decide⟩
  valid := by
    show ((playProc countGet' "ls" 3).view 3).Valid _ (some (playProc countGet' "ls" 3))
    rw [play_eq]
    exact block_valid _ _ _ _ _

example : ∃ (st0 : PlaySt), (playCfg.Produced st0 "ls" 0 2 0) ∧ playCfg.Produced st0 "ls" 0 3 1 ∧
    playCfg.Produced st0 "ls" 0 8 6 := by
  have h0 : ∃ st0, playCfg.init (fun _ => 0) () 0 demoFilt [] = .ok st0 := ⟨_, by rfl⟩
  obtain ⟨st0, h0⟩ := h0
  have h1 : ((playCfg.init (fun _ => 0) () 0 demoFilt []).bind fun st0 =>
      (playCfg.steps 9 st0).map fun _ => ()) = .ok () := by rfl
  rw [h0] at h1
  change (playCfg.steps 9 st0).map _ = _ at h1
  cases hs : playCfg.steps 9 st0 with
  | error x => rw [hs] at h1; cases h1
  | ok st =>
    have h2 := C131_play (st0 := st0) ⟨play_admissible, rfl, by decide, h0⟩ hs rfl (l := ⟨"ls", 1, .ctrl, false⟩)
      (by simp [playCfg]) rfl rfl (x := fun _ t => ((t + 1 : Nat) : ℚ))
      (isStream_of_inv (fun k s => s = k) rfl fun k s n hs => by
        subst hs
        exact ⟨s + n, rfl, rfl⟩) 0 (by decide)
    refine ⟨st0, h2 2 (by decide), ?_, ?_⟩
    · have := h2 3 (by decide)
      norm_num at this
      exact this
    · have := h2 8 (by decide)
      norm_num at this
      exact this

end
end Verif

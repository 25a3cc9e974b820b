import Verif.Lemmas.Engine
import Verif.Lemmas.Diagnostics
import Verif.Spec.Processor
import Verif.Spec.Run
import Verif.Spec.Fir

namespace Verif

section
variable {R IR F S A P D O : Type} (cfg : SimCfg R IR F S A P D O) {lp : ProcView R P}

/-! ### signals the processor leaves alone -/

theorem matOf_inj {ch n : Nat} {f g : Nat → Nat → R} (h : matOf ch n f = matOf ch n g) {c k : Nat}
    (hc : c < ch) (hk : k < n) : f c k = g c k := by
  have h1 : (matOf ch n f)[c]? = (matOf ch n g)[c]? := by rw [h]
  simp only [matOf, List.getElem?_map, List.getElem?_range hc, Option.map_some, Option.some.injEq] at h1
  have h2 := congrArg (·[k]?) h1
  simpa [List.getElem?_map, List.getElem?_range hk] using h2

theorem tProc_keeps (hv : lp.Valid cfg.dims cfg.proc) {name : String}
    (hk : ∀ p, cfg.proc = some p → p.Keeps name) {num : Nat} (hd : cfg.dims name = some num) {n : Nat}
    {e e' : Eng (Tape R) F S A P} (h : cfg.tProc lp n e = .ok e') {c : Nat} (hc : c < num) (t : Int) :
    e'.sig name c t = e.sig name c t := by
  unfold SimCfg.tProc at h
  cases hp : cfg.proc with
  | none => rw [hp] at h; cases h; rfl
  | some p =>
    rw [hp] at h
    simp only at h
    split_ifs at h with h0 h1
    · split at h
      · cases h
      · rename_i p' out hact
        cases h
        simp only [Tape.paste]
        split
        · rename_i ht
          have hval := hv p hp e.proc (fun k c t => e.sig k c ((n : Int) - lp.H + t)) lp.H (lp.H + p.bs)
            (le_refl _) (le_refl _)
          have hcut : cut cfg.dims (fun k c t => e.sig k c ((n : Int) - lp.H + t)) ((lp.H : Int) - lp.H)
              (lp.H + p.bs) = cut cfg.dims e.sig ((n : Int) - lp.H) (lp.H + p.bs) := by
            apply cut_congr
            intro k num c q _ _ _
            exact congrArg (e.sig k c) (by omega)
          rw [hcut, hact] at hval
          simp only [Except.map] at hval
          have hkeep := hk p hp _ _ _ _ _ hval
          unfold cut at hkeep
          rw [hd] at hkeep
          simp only [Option.map_some, Option.some.injEq] at hkeep
          have := matOf_inj hkeep hc (k := lp.H + (t - n).toNat) (by omega)
          simp only [Tape.paste] at this
          rw [if_pos (by push_cast; omega)] at this
          rw [show ((0 : Int) + ((lp.H + (t - n).toNat : Nat) : Int) - (lp.H : Int)).toNat = (t - n).toNat by
            omega] at this
          rw [this]
          exact congrArg (e.sig name c) (by omega)
        · rfl
    · cases h; rfl

theorem tProc_other {n : Nat} {e e' : Eng (Tape R) F S A P} (h : cfg.tProc lp n e = .ok e') :
    e'.srcs = e.srcs ∧ e'.filts = e.filts ∧ e'.arr = e.arr := by
  unfold SimCfg.tProc at h
  split at h
  · cases h; exact ⟨rfl, rfl, rfl⟩
  · split at h
    · cases h
    · split at h
      · split at h
        · cases h
        · cases h; exact ⟨rfl, rfl, rfl⟩
      · cases h; exact ⟨rfl, rfl, rfl⟩

/-! ### pairs with a given microphone -/

theorem filter_unique {α : Type} {l : List α} {q : α → Bool} {x : α} (hnd : l.Nodup) (hx : x ∈ l)
    (hq : ∀ y ∈ l, q y = true ↔ y = x) : l.filter q = [x] := by
  induction l with
  | nil => cases hx
  | cons y l ih =>
    rw [List.nodup_cons] at hnd
    rcases List.mem_cons.1 hx with rfl | hx
    · rw [List.filter_cons, if_pos ((hq x (by simp)).2 rfl)]
      congr 1
      rw [List.filter_eq_nil_iff]
      intro z hz hqz
      have := (hq z (by simp [hz])).1 hqz
      exact hnd.1 (this ▸ hz)
    · rw [List.filter_cons, if_neg]
      · exact ih hnd.2 hx fun z hz => hq z (by simp [hz])
      · intro hqy
        have := (hq y (by simp)).1 hqy
        exact hnd.1 (this ▸ hx)

theorem combos_filter {cfg : SimCfg R IR F S A P D O} (hN : Names cfg) {m : ArrInfo} (hm : m ∈ micsOf cfg.arrays) :
    (combosOf cfg.arrays).filter (fun p => p.2.name == m.name) =
      (sourcesOf cfg.arrays).map fun s => (s, m) := by
  have hmn := hN.mics
  unfold combosOf
  rw [List.filter_flatMap]
  have : ∀ s : ArrInfo, ((micsOf cfg.arrays).map fun m => (s, m)).filter (fun p => p.2.name == m.name) = [(s, m)] := by
    intro s
    rw [List.filter_map]
    have : (micsOf cfg.arrays).filter ((fun p : ArrInfo × ArrInfo => p.2.name == m.name) ∘ fun m => (s, m)) = [m] := by
      apply filter_unique hmn hm
      intro y hy
      simp only [Function.comp, beq_iff_eq]
      constructor
      · intro he
        exact hN.inj y (mem_micsOf hy).1 m (mem_micsOf hm).1 he
      · rintro rfl; rfl
    rw [this]; rfl
  simp only [this]
  rw [List.map_eq_flatMap]

/-! ### broadcasting -/

theorem mapM_some_getD {α β : Type} {f : α → Option β} {l : List α} {w : List β}
    (h : l.mapM f = some w) (c : Nat) :
    (l[c]? = none ∧ w[c]? = none) ∨ ∃ a b, l[c]? = some a ∧ w[c]? = some b ∧ f a = some b := by
  induction l generalizing w c with
  | nil => cases h; exact .inl ⟨by simp, by simp⟩
  | cons a l ih =>
    rw [List.mapM_cons] at h
    cases ha : f a with
    | none => rw [ha] at h; cases h
    | some b =>
      rw [ha] at h
      cases hl : l.mapM f with
      | none => rw [hl] at h; cases h
      | some w' =>
        rw [hl] at h
        cases h
        cases c with
        | zero => exact .inr ⟨a, b, by simp, by simp, ha⟩
        | succ c => simpa using ih hl c

theorem broadcast_last [Zero R] {y W w : Mat R} {ch m num : Nat} (h1 : broadcastMat y ch m = some W)
    (h2 : broadcastMat y ch num = some w) (hm : 1 ≤ m) (hn : 1 ≤ num) (c : Nat) :
    matVal W c (m - 1) = matVal w c (num - 1) := by
  unfold broadcastMat at h1 h2
  cases hb : broadcastChan y ch with
  | none => rw [hb] at h1; cases h1
  | some v =>
    rw [hb] at h1 h2
    simp only [Option.bind_some] at h1 h2
    unfold matVal
    rcases mapM_some_getD h1 c with ⟨a1, a2⟩ | ⟨r, a, a1, a2, a3⟩ <;>
      rcases mapM_some_getD h2 c with ⟨b1, b2⟩ | ⟨r', b, b1, b2, b3⟩
    · have eW : W.getD c [] = [] := by simp [List.getD_eq_getElem?_getD, a2]
      have ew : w.getD c [] = [] := by simp [List.getD_eq_getElem?_getD, b2]
      rw [eW, ew]; simp
    · rw [a1] at b1; cases b1
    · rw [a1] at b1; cases b1
    · rw [a1] at b1; cases b1
      have eW : W.getD c [] = a := by simp [List.getD_eq_getElem?_getD, a2]
      have ew : w.getD c [] = b := by simp [List.getD_eq_getElem?_getD, b2]
      rw [eW, ew]
      unfold broadcastRow at a3 b3
      split at a3 <;> split at b3
      · rename_i e1 e2
        cases a3; cases b3
        rw [← e1, ← e2]
      · rename_i e1 e2
        cases a3
        split at b3
        · cases b3
          simp only [List.length_singleton] at e1
          subst e1
          rw [List.getD_eq_getElem _ _ (by simp), List.getD_eq_getElem _ _ (by simp; omega)]
          simp
        · cases b3
      · rename_i e1 e2
        cases b3
        split at a3
        · cases a3
          simp only [List.length_singleton] at e2
          subst e2
          rw [List.getD_eq_getElem _ _ (by simp; omega), List.getD_eq_getElem _ _ (by simp)]
          simp
        · cases a3
      · split at a3
        · cases a3
          cases b3
          rw [List.getD_eq_getElem _ _ (by simp; omega), List.getD_eq_getElem _ _ (by simp; omega)]
          simp
        · cases a3

/-! ### microphone signals -/

theorem micSum_eq [AddMonoid R] {cfg : SimCfg R IR F S A P D O} (hN : Names cfg) {m : ArrInfo}
    (hm : m ∈ micsOf cfg.arrays) (W : String → String → Mat R) (c x : Nat) :
    micSum (combosOf cfg.arrays) W m.name c x =
      ((sourcesOf cfg.arrays).map fun s => matVal (W s.name m.name) c x).sum := by
  unfold micSum
  rw [combos_filter hN hm, List.map_map]
  rfl

theorem mic_ne {cfg : SimCfg R IR F S A P D O} (hN : Names cfg) {m : ArrInfo}
    (hm : m ∈ micsOf cfg.arrays) :
    (cfg.contrib = true → ∀ p ∈ combosOf cfg.arrays, m.name ≠ contribName p.1 p.2) ∧
    ∀ x ∈ freeOf cfg.arrays, m.name ≠ x.name := by
  obtain ⟨h1, h2⟩ := mem_micsOf hm
  refine ⟨fun hc p hp he => hN.conArr hc p hp m h1 he.symm, ?_⟩
  intro x hx he
  obtain ⟨h3, h4⟩ := mem_freeOf hx
  have := hN.inj m h1 x h3 he
  rw [this, h4] at h2
  cases h2

theorem src_ne {cfg : SimCfg R IR F S A P D O} (hN : Names cfg) {s : ArrInfo}
    (hs : s ∈ sourcesOf cfg.arrays) :
    (cfg.contrib = true → ∀ p ∈ combosOf cfg.arrays, s.name ≠ contribName p.1 p.2) ∧
    ∀ p ∈ combosOf cfg.arrays, s.name ≠ p.2.name := by
  obtain ⟨h1, h2⟩ := mem_sourcesOf hs
  refine ⟨fun hc p hp he => hN.conArr hc p hp s h1 he.symm, ?_⟩
  intro p hp he
  obtain ⟨h3, h4⟩ := mem_micsOf (mem_combosOf.1 hp).2
  have := hN.inj s h1 _ h3 he
  rw [this] at h2
  exact h2 h4

/-- Before step `k` the microphone signals are still silent from `k` on. -/
theorem tSteps_mic_zero [AddMonoid R] (hN : Names cfg) (hv : lp.Valid cfg.dims cfg.proc) {m : ArrInfo}
    (hm : m ∈ micsOf cfg.arrays) (hk : ∀ p, cfg.proc = some p → p.Keeps m.name)
    {e0 : Eng (Tape R) F S A P} (h0 : ∀ nm c t, 0 ≤ t → e0.sig nm c t = 0) :
    ∀ k {e}, cfg.tSteps lp k e0 = .ok e → ∀ c t, c < m.num → (k : Int) ≤ t → e.sig m.name c t = 0
  | 0, e, h, c, t, _, ht => by cases h; exact h0 _ _ _ (by simpa using ht)
  | k + 1, e, h, c, t, hc, ht => by
    simp only [SimCfg.tSteps] at h
    split at h
    · cases h
    · rename_i e1 h1
      obtain ⟨arr, e2, e3, e4, W, p1, p2, p3, p4, p5⟩ := tEngine_parts cfg hN h
      obtain ⟨n1, n2⟩ := mic_ne hN hm
      rw [p5.old m.name c t (fun hcon => .inl (n1 hcon)) (.inr (.inl (by omega))), p4.sig,
        p3.sig m.name c t (.inl n2), tProc_keeps cfg hv hk (hN.arr m (mem_micsOf hm).1) p2 hc]
      exact tSteps_mic_zero hN hv hm hk h0 k h1 c t hc (by omega)

/-- The microphone sample generated in a step. -/
theorem step_mic [AddMonoid R] (hN : Names cfg) (hv : lp.Valid cfg.dims cfg.proc) {m : ArrInfo}
    (hm : m ∈ micsOf cfg.arrays) (hk : ∀ p, cfg.proc = some p → p.Keeps m.name) {k : Nat}
    {e e1 e2 e3 e' : Eng (Tape R) F S A P} {arr : A} {W : String → String → Mat R}
    (h0 : ∀ c, c < m.num → e.sig m.name c k = 0)
    (p2 : cfg.tProc lp k { e with arr := arr } = .ok e1)
    (p3 : SrcRel cfg k 1 (freeOf cfg.arrays) e1 e2) (p4 : UpdRel cfg (combosOf cfg.arrays) e2 e3)
    (p5 : PairRel cfg k 1 k 1 (combosOf cfg.arrays) e3 e' W) {c : Nat} (hc : c < m.num) :
    e'.sig m.name c k = ((sourcesOf cfg.arrays).map fun s => matVal (W s.name m.name) c 0).sum := by
  obtain ⟨n1, n2⟩ := mic_ne hN hm
  rw [p5.mic m.name c k n1 (le_refl _) (by omega), p4.sig, p3.sig m.name c k (.inl n2),
    tProc_keeps cfg hv hk (hN.arr m (mem_micsOf hm).1) p2 hc, micSum_eq hN hm]
  rw [h0 c hc, zero_add, Int.sub_self]
  rfl

/-- The microphone history after preparation. -/
theorem prep_mic [AddMonoid R] (hN : Names cfg) {m : ArrInfo} (hm : m ∈ micsOf cfg.arrays)
    {srcs : String → S} {arr : A} {proc : P} {fs : String → String → F} {e1 e0 : Eng (Tape R) F S A P}
    {W : String → String → Mat R}
    (h2 : SrcRel cfg (-(cfg.prepNum : Int)) cfg.prepNum (freeOf cfg.arrays)
        { sig := fun _ _ _ => 0, srcs := srcs, filts := fs, arr := arr, proc := proc } e1)
    (h3 : PairRel cfg (-(cfg.prepNum : Int)) cfg.prepNum (-(cfg.B : Int)) cfg.B (combosOf cfg.arrays) e1 e0 W)
    (c : Nat) {i : Nat} (hi : i < cfg.B) :
    e0.sig m.name c ((i : Int) - cfg.B) =
      ((sourcesOf cfg.arrays).map fun s => matVal (W s.name m.name) c i).sum := by
  obtain ⟨n1, n2⟩ := mic_ne hN hm
  rw [h3.mic m.name c _ n1 (by omega) (by omega), h2.sig m.name c _ (.inl n2), micSum_eq hN hm, zero_add]
  rw [show ((i : Int) - cfg.B - -(cfg.B : Int)).toNat = i by omega]

/-- Source contributions add up to the microphone signal, on the prepared tape. -/
theorem tape_contrib_zero [AddMonoid R] (hN : Names cfg) (hcon : cfg.contrib = true) (hB : 1 ≤ cfg.B) {m : ArrInfo}
    (hm : m ∈ micsOf cfg.arrays) {srcs : String → S} {arr : A} {proc : P} {f0 : F}
    {e0 : Eng (Tape R) F S A P} (hi : cfg.tInit srcs arr proc f0 = .ok e0) (c : Nat) :
    e0.sig m.name c (((0 : Nat) : Int) - 1) =
      ((sourcesOf cfg.arrays).map fun s => e0.sig (contribName s m) c (((0 : Nat) : Int) - 1)).sum := by
  obtain ⟨fs, e1, W, g1, g2, g3⟩ := tInit_parts cfg hN hi
  have hnum : 1 ≤ cfg.prepNum := by unfold SimCfg.prepNum; split <;> omega
  have := prep_mic cfg hN hm g2 g3 c (i := cfg.B - 1) (by omega)
  rw [show (((cfg.B - 1 : Nat) : Int) - cfg.B) = ((0 : Nat) : Int) - 1 by omega] at this
  rw [this]
  congr 1
  refine List.map_congr_left fun s hs => ?_
  obtain ⟨y, q1, q2, q3⟩ := g3.out (s, m) (mem_combosOf.2 ⟨hs, hm⟩)
  obtain ⟨w, q4, q5⟩ := q3 hcon
  rw [q5 c _ (by omega) (by omega), broadcast_last q2 q4 hB hnum]
  congr 1
  omega

/-- Source contributions add up to the microphone signal, on the tape. -/
theorem tape_contrib [AddMonoid R] (hN : Names cfg) (hv : lp.Valid cfg.dims cfg.proc)
    (hcon : cfg.contrib = true) (hB : 1 ≤ cfg.B) {m : ArrInfo}
    (hm : m ∈ micsOf cfg.arrays) (hk : ∀ p, cfg.proc = some p → p.Keeps m.name)
    {srcs : String → S} {arr : A} {proc : P} {f0 : F}
    {e0 : Eng (Tape R) F S A P} (hi : cfg.tInit srcs arr proc f0 = .ok e0) :
    ∀ k {e}, cfg.tSteps lp k e0 = .ok e → ∀ (t : Nat), t ≤ k → ∀ c < m.num,
      e.sig m.name c ((t : Int) - 1) =
        ((sourcesOf cfg.arrays).map fun s => e.sig (contribName s m) c ((t : Int) - 1)).sum
  | 0, e, h, t, ht, c, hc => by
    cases h
    obtain rfl : t = 0 := by omega
    exact tape_contrib_zero cfg hN hcon hB hm hi c
  | k + 1, e, h, t, ht, c, hc => by
    simp only [SimCfg.tSteps] at h
    split at h
    · cases h
    · rename_i e1 h1
      by_cases htk : t ≤ k
      · rw [tEngine_past cfg lp h _ _ _ (by omega)]
        simp only [tEngine_past cfg lp h _ _ ((t : Int) - 1) (by omega)]
        exact tape_contrib hN hv hcon hB hm hk hi k h1 t htk c hc
      · obtain rfl : t = k + 1 := by omega
        obtain ⟨arr, e2, e3, e4, W, p1, p2, p3, p4, p5⟩ := tEngine_parts cfg hN h
        have hz := tSteps_mic_zero cfg hN hv hm hk (tInit_zero cfg hi) k h1
        rw [show (((k + 1 : Nat) : Int) - 1) = (k : Int) by omega,
          step_mic cfg hN hv hm hk (fun c hc => hz c k hc (le_refl _)) p2 p3 p4 p5 hc]
        congr 1
        refine List.map_congr_left fun s hs => ?_
        obtain ⟨y, q1, q2, q3⟩ := p5.out (s, m) (mem_combosOf.2 ⟨hs, hm⟩)
        obtain ⟨w, q4, q5⟩ := q3 hcon
        rw [q5 c _ (by omega) (by omega)]
        rw [q2] at q4
        cases q4
        rw [Int.sub_self]; rfl

end

/-! ### FIR filters -/

section
variable {R S A P D O : Type} [Semiring R]
  (cfg : SimCfg R (IrMat R) (Fir R) S A P D O) {lp : ProcView R P}

/-- Output of the filter in its present state. -/
def Fir.out (f : Fir R) (m : Nat) : R := firOut f.mat f.hist m

theorem fir_process {f f' : Fir R} {ch n : Nat} {g : Nat → Nat → R} {y : Mat R} (hch : 0 < ch)
    (h : f.process (matOf ch n g) = .ok (f', y)) :
    ch = f.mat.numIn ∧ f'.mat = f.mat ∧
    f'.hist = ((List.range n).map fun k => (List.range ch).map fun c => g c k).reverse ++ f.hist ∧
    y = matOf f.mat.numOut n fun m k => firOut f.mat
      (((List.range (k + 1)).map fun k => (List.range ch).map fun c => g c k).reverse ++ f.hist) m := by
  unfold Fir.process at h
  split at h
  · cases h
  · rename_i hlen
    have hl : (matOf ch n g).length = ch := by simp [matOf]
    rw [hl] at hlen
    have hn : numCols (matOf ch n g) = n := by
      obtain ⟨ch', rfl⟩ := Nat.exists_eq_succ_of_ne_zero (by omega : ch ≠ 0)
      unfold matOf
      rw [List.range_succ_eq_map]
      simp [numCols]
    have hcols : colsOf (matOf ch n g) n = (List.range n).map fun k => (List.range ch).map fun c => g c k := by
      unfold colsOf matOf
      refine List.map_congr_left fun k hk => ?_
      rw [List.map_map]
      refine List.map_congr_left fun c hc => ?_
      have hk' : k < n := by simpa using hk
      simp [hk']
    rw [hn, hcols] at h
    simp only [Except.ok.injEq, Prod.mk.injEq] at h
    obtain ⟨h1, h2⟩ := h
    subst h1
    refine ⟨by simpa using hlen, rfl, rfl, ?_⟩
    rw [← h2]
    refine matOf_congr fun m k hm hk => ?_
    congr 2
    rw [← List.map_take]
    congr 2
    rw [List.take_range]
    congr 1
    omega


/-- Column of a source signal. -/
def colAt (T : Tape R) (s : ArrInfo) (t : Int) : List R := (List.range s.num).map fun i => T s.name i t

/-- The past input of a filter. -/
def histAt (T : Tape R) (s : ArrInfo) (num : Nat) (k : Nat) : List (List R) :=
  (List.range (k + num)).map fun d : Nat => colAt T s ((k : Int) - 1 - d)

theorem histAt_congr {T T' : Tape R} {s : ArrInfo} {num k : Nat}
    (h : ∀ i t, t < (k : Int) → T s.name i t = T' s.name i t) : histAt T s num k = histAt T' s num k := by
  unfold histAt colAt
  refine List.map_congr_left fun d _ => List.map_congr_left fun i _ => h i _ (by omega)

/-- State of the path filters after `k` steps. -/
structure FirInv (arr0 : A) (k : Nat) (e : Eng (Tape R) (Fir R) S A P) : Prop where
  arr : cfg.arrAfter arr0 k = .ok e.arr
  mat : ∀ p ∈ combosOf cfg.arrays, cfg.IrAt arr0 p.1 p.2 k (e.filts p.1.name p.2.name).mat
  hist : ∀ p ∈ combosOf cfg.arrays,
    (e.filts p.1.name p.2.name).hist = histAt e.sig p.1 cfg.prepNum k

theorem reverse_map_range {α : Type} (f : Nat → α) (n : Nat) :
    ((List.range n).map f).reverse = (List.range n).map fun d => f (n - 1 - d) := by
  apply List.ext_getElem
  · simp
  · intro i h1 h2
    simp only [List.length_map, List.length_range] at h2
    simp [List.getElem_reverse]

/-- Microphone output of one pass of the filters. -/
theorem fir_out {p : ArrInfo × ArrInfo} (hpos : 0 < p.1.num) {f f' : Fir R} {n : Nat}
    {g : Nat → Nat → R} {y : Mat R} (hn : 1 ≤ n) (hout : f.mat.numOut = p.2.num)
    (h : f.process (matOf p.1.num n g) = .ok (f', y)) :
    y = matOf p.2.num n (fun m k => firOut f'.mat
      (((List.range (k + 1)).map fun k => (List.range p.1.num).map fun c => g c k).reverse ++ f.hist) m) ∧
    ∀ c, c < p.2.num → matVal y c (n - 1) = f'.out c := by
  obtain ⟨h1, h2, h3, h4⟩ := fir_process hpos h
  rw [hout] at h4
  refine ⟨by rw [h4, h2], ?_⟩
  intro c hc
  rw [h4, matVal_matOf _ _ _ hc (by omega)]
  unfold Fir.out
  rw [h2, h3, show n - 1 + 1 = n by omega]

theorem firInv_init (hN : Names cfg) (hfilt : cfg.filt = firOps R)
    (hpos : ∀ a ∈ cfg.arrays, 0 < a.num)
    {srcs : String → S} {arr : A} {proc : P} {f0 : Fir R} {e0 : Eng (Tape R) (Fir R) S A P}
    (hi : cfg.tInit srcs arr proc f0 = .ok e0) : FirInv cfg arr 0 e0 := by
  obtain ⟨fs, e1, W, g1, g2, g3⟩ := tInit_parts cfg hN hi
  have key : ∀ p ∈ combosOf cfg.arrays,
      cfg.IrAt arr p.1 p.2 0 (e0.filts p.1.name p.2.name).mat ∧
      (e0.filts p.1.name p.2.name).hist = histAt e0.sig p.1 cfg.prepNum 0 := by
    intro p hp
    have hs := (mem_combosOf.1 hp).1
    obtain ⟨ir, c1, c2⟩ := createFilters_spec cfg hN g1 p hp
    obtain ⟨y, q1, q2, q3⟩ := g3.out p hp
    rw [g2.filts] at q1
    simp only at q1
    rw [c2, hfilt] at q1
    obtain ⟨a1, a2, a3, a4⟩ := fir_process (hpos _ (mem_sourcesOf hs).1) q1
    obtain ⟨n1, n2⟩ := src_ne hN hs
    refine ⟨?_, ?_⟩
    · rw [a2]; exact c1
    · rw [a3]
      show _ ++ [] = _
      rw [List.append_nil, reverse_map_range]
      unfold histAt colAt
      rw [Nat.zero_add]
      refine List.map_congr_left fun d hd => List.map_congr_left fun i _ => ?_
      have hd' : d < cfg.prepNum := by simpa using hd
      rw [g3.old p.1.name i _ (fun hc => .inl (n1 hc)) (.inr (.inr n2))]
      exact congrArg (e1.sig p.1.name i) (by omega)
  exact ⟨by rw [g3.arr, g2.arr]; rfl, fun p hp => (key p hp).1, fun p hp => (key p hp).2⟩

theorem firInv_step (hN : Names cfg) (hfilt : cfg.filt = firOps R)
    (hpos : ∀ a ∈ cfg.arrays, 0 < a.num) {arr0 : A} {k : Nat}
    {e e' : Eng (Tape R) (Fir R) S A P} (hI : FirInv cfg arr0 k e)
    (h : cfg.tEngine lp k e = .ok e') : FirInv cfg arr0 (k + 1) e' := by
  have hpast := tEngine_past cfg lp h
  obtain ⟨arr, e1, e2, e3, W, p1, p2, p3, p4, p5⟩ := tEngine_parts cfg hN h
  obtain ⟨o1, o2, o3⟩ := tProc_other cfg p2
  have harr : cfg.arrAfter arr0 (k + 1) = .ok arr := by
    simp only [SimCfg.arrAfter, hI.arr]; exact p1
  have key : ∀ p ∈ combosOf cfg.arrays,
      cfg.IrAt arr0 p.1 p.2 (k + 1) (e'.filts p.1.name p.2.name).mat ∧
      (e'.filts p.1.name p.2.name).hist = histAt e'.sig p.1 cfg.prepNum (k + 1) := by
    intro p hp
    have hs := (mem_combosOf.1 hp).1
    obtain ⟨y, q1, q2, q3⟩ := p5.out p hp
    rw [hfilt] at q1
    obtain ⟨a1, a2, a3, a4⟩ := fir_process (hpos _ (mem_sourcesOf hs).1) q1
    obtain ⟨n1, n2⟩ := src_ne hN hs
    have h3 : (e3.filts p.1.name p.2.name).hist = (e.filts p.1.name p.2.name).hist ∧
        cfg.IrAt arr0 p.1 p.2 (k + 1) (e3.filts p.1.name p.2.name).mat := by
      by_cases hd : (p.1.dynamic || p.2.dynamic) = true
      · obtain ⟨ir, u1, u2⟩ := p4.dyn p hp hd
        rw [hfilt] at u2
        change Fir.updateIr _ _ = _ at u2
        unfold Fir.updateIr at u2
        split at u2
        · have := (Except.ok.inj u2).symm
          rw [this, p3.filts, o2]
          refine ⟨rfl, ?_⟩
          show if _ then _ else _
          rw [if_pos (by simpa using hd)]
          refine ⟨arr, harr, ?_⟩
          rw [p3.arr, o3] at u1
          exact u1
        · cases u2
      · have hd' : (p.1.dynamic || p.2.dynamic) = false := by simpa using hd
        rw [p4.stat p hp hd', p3.filts, o2]
        refine ⟨rfl, ?_⟩
        have hm := hI.mat p hp
        show if _ then _ else _
        rw [if_neg (by simpa using hd)]
        cases k with
        | zero => exact hm
        | succ k =>
          change if _ then _ else _ at hm
          rw [if_neg (by simpa using hd)] at hm
          exact hm
    refine ⟨by rw [a2]; exact h3.2, ?_⟩
    rw [a3, h3.1, hI.hist p hp]
    unfold histAt
    rw [show k + 1 + cfg.prepNum = (k + cfg.prepNum) + 1 by omega,
      List.range_succ_eq_map (n := k + cfg.prepNum), List.map_cons, List.map_map]
    simp only [List.range_one, List.map_cons, List.map_nil, List.reverse_cons, List.reverse_nil,
      List.nil_append, List.singleton_append]
    congr 1
    · unfold colAt
      refine List.map_congr_left fun i _ => ?_
      rw [p5.old p.1.name i _ (fun hc => .inl (n1 hc)) (.inr (.inr n2))]
      exact congrArg (e3.sig p.1.name i) (by push_cast; omega)
    · refine List.map_congr_left fun d _ => ?_
      unfold colAt
      refine List.map_congr_left fun i _ => ?_
      rw [hpast _ _ _ (by push_cast; omega)]
      exact congrArg (e.sig p.1.name i) (by push_cast; omega)
  exact ⟨by rw [p5.arr, p4.arr, p3.arr, o3]; exact harr, fun p hp => (key p hp).1,
    fun p hp => (key p hp).2⟩

theorem firInv_steps (hN : Names cfg) (hfilt : cfg.filt = firOps R)
    (hpos : ∀ a ∈ cfg.arrays, 0 < a.num) {arr0 : A} {e0 : Eng (Tape R) (Fir R) S A P}
    (hI : FirInv cfg arr0 0 e0) : ∀ k {e}, cfg.tSteps lp k e0 = .ok e → FirInv cfg arr0 k e
  | 0, e, h => by cases h; exact hI
  | k + 1, e, h => by
    simp only [SimCfg.tSteps] at h
    split at h
    · cases h
    · rename_i e1 h1
      exact firInv_step cfg hN hfilt hpos (firInv_steps hN hfilt hpos hI k h1) h

omit [Semiring R] in
theorem IrAt.shape {cfg : SimCfg R (IrMat R) (Fir R) S A P D O} {arr0 : A} (hsh : cfg.PathShape arr0)
    {s m : ArrInfo} (hs : s ∈ cfg.arrays) (hm : m ∈ cfg.arrays) {t : Nat} {h : IrMat R}
    (hi : cfg.IrAt arr0 s m t h) : h.numOut = m.num := by
  cases t with
  | zero => exact hsh 0 _ rfl _ _ _ hs hm hi
  | succ t =>
    change if _ then _ else _ at hi
    split at hi
    · obtain ⟨a, h1, h2⟩ := hi
      exact hsh _ _ h1 _ _ _ hs hm h2
    · exact hsh 0 _ rfl _ _ _ hs hm hi

/-- The microphone signal is the sum of the filter outputs, on the prepared tape. -/
theorem tape_fir_zero (hN : Names cfg) (hfilt : cfg.filt = firOps R)
    (hpos : ∀ a ∈ cfg.arrays, 0 < a.num) {arr : A} (hsh : cfg.PathShape arr) (hB : 1 ≤ cfg.B) {m : ArrInfo}
    (hm : m ∈ micsOf cfg.arrays) {srcs : String → S} {proc : P} {f0 : Fir R}
    {e0 : Eng (Tape R) (Fir R) S A P} (hi : cfg.tInit srcs arr proc f0 = .ok e0) :
    ∃ h : String → IrMat R,
      (∀ s ∈ sourcesOf cfg.arrays, cfg.IrAt arr s m 0 (h s.name) ∧ (h s.name).numIn = s.num) ∧
      ∀ c < m.num, e0.sig m.name c (((0 : Nat) : Int) - 1) =
        ((sourcesOf cfg.arrays).map fun s => firOut (h s.name) (histAt e0.sig s cfg.prepNum 0) c).sum := by
  have hI := firInv_init cfg hN hfilt hpos hi
  obtain ⟨fs, e1, W, g1, g2, g3⟩ := tInit_parts cfg hN hi
  have hnum : 1 ≤ cfg.prepNum := by unfold SimCfg.prepNum; split <;> omega
  have hall : ∀ s ∈ sourcesOf cfg.arrays, (e0.filts s.name m.name).mat.numIn = s.num ∧
      ∀ c < m.num, matVal (W s.name m.name) c (cfg.B - 1) = (e0.filts s.name m.name).out c := by
    intro s hs
    have hp := (mem_combosOf (p := (s, m))).2 ⟨hs, hm⟩
    obtain ⟨ir, c1, c2⟩ := createFilters_spec cfg hN g1 (s, m) hp
    obtain ⟨y, q1, q2, q3⟩ := g3.out (s, m) hp
    rw [g2.filts] at q1
    simp only at q1 c1 c2
    rw [c2, hfilt] at q1
    have hsp := hpos _ (mem_sourcesOf hs).1
    obtain ⟨a1, a2, _, _⟩ := fir_process hsp q1
    obtain ⟨b1, b2⟩ := fir_out (p := (s, m)) hsp hnum
      (hsh 0 _ rfl _ _ _ (mem_sourcesOf hs).1 (mem_micsOf hm).1 c1) q1
    refine ⟨by rw [a2]; exact a1.symm, ?_⟩
    intro c hc
    rw [← b2 c hc]
    exact broadcast_last q2 (by rw [b1]; exact broadcastMat_self _ _ _) hB hnum c
  refine ⟨fun s => (e0.filts s m.name).mat, fun s hs =>
    ⟨hI.mat (s, m) (mem_combosOf.2 ⟨hs, hm⟩), (hall s hs).1⟩, ?_⟩
  intro c hc
  have := prep_mic cfg hN hm g2 g3 c (i := cfg.B - 1) (by omega)
  rw [show (((cfg.B - 1 : Nat) : Int) - cfg.B) = ((0 : Nat) : Int) - 1 by omega] at this
  rw [this]
  congr 1
  refine List.map_congr_left fun s hs => ?_
  rw [(hall s hs).2 c hc, Fir.out, hI.hist (s, m) (mem_combosOf.2 ⟨hs, hm⟩)]

/-- The microphone signal is the sum of the filter outputs, on the tape. -/
theorem tape_fir (hN : Names cfg) (hv : lp.Valid cfg.dims cfg.proc) (hfilt : cfg.filt = firOps R)
    (hpos : ∀ a ∈ cfg.arrays, 0 < a.num) {arr : A} (hsh : cfg.PathShape arr) (hB : 1 ≤ cfg.B) {m : ArrInfo}
    (hm : m ∈ micsOf cfg.arrays) (hk : ∀ p, cfg.proc = some p → p.Keeps m.name)
    {srcs : String → S} {proc : P} {f0 : Fir R}
    {e0 : Eng (Tape R) (Fir R) S A P} (hi : cfg.tInit srcs arr proc f0 = .ok e0) :
    ∀ k {e}, cfg.tSteps lp k e0 = .ok e → ∀ (t : Nat), t ≤ k → ∃ h : String → IrMat R,
      (∀ s ∈ sourcesOf cfg.arrays, cfg.IrAt arr s m t (h s.name) ∧ (h s.name).numIn = s.num) ∧
      ∀ c < m.num, e.sig m.name c ((t : Int) - 1) =
        ((sourcesOf cfg.arrays).map fun s => firOut (h s.name) (histAt e.sig s cfg.prepNum t) c).sum
  | 0, e, h, t, ht => by
    cases h
    obtain rfl : t = 0 := by omega
    exact tape_fir_zero cfg hN hfilt hpos hsh hB hm hi
  | k + 1, e, h, t, ht => by
    have hstep := h
    simp only [SimCfg.tSteps] at h
    split at h
    · cases h
    · rename_i e1 h1
      by_cases htk : t ≤ k
      · obtain ⟨hh, a1, a2⟩ := tape_fir hN hv hfilt hpos hsh hB hm hk hi k h1 t htk
        refine ⟨hh, a1, ?_⟩
        intro c hc
        rw [tEngine_past cfg lp h _ _ _ (by omega), a2 c hc]
        congr 1
        refine List.map_congr_left fun s _ => ?_
        rw [histAt_congr fun i t' ht' => (tEngine_past cfg lp h s.name i t' (by omega)).symm]
      · obtain rfl : t = k + 1 := by omega
        have hI := firInv_steps (lp := lp) cfg hN hfilt hpos (firInv_init cfg hN hfilt hpos hi) (k + 1) hstep
        obtain ⟨arr', e2, e3, e4, W, p1, p2, p3, p4, p5⟩ := tEngine_parts cfg hN h
        have hz := tSteps_mic_zero cfg hN hv hm hk (tInit_zero cfg hi) k h1
        have hall : ∀ s ∈ sourcesOf cfg.arrays, (e.filts s.name m.name).mat.numIn = s.num ∧
            ∀ c < m.num, matVal (W s.name m.name) c 0 = (e.filts s.name m.name).out c := by
          intro s hs
          have hp := (mem_combosOf (p := (s, m))).2 ⟨hs, hm⟩
          obtain ⟨y, q1, q2, q3⟩ := p5.out (s, m) hp
          rw [hfilt] at q1
          have hsp := hpos _ (mem_sourcesOf hs).1
          obtain ⟨a1, a2, _, _⟩ := fir_process hsp q1
          have hshape := IrAt.shape hsh (mem_sourcesOf hs).1 (mem_micsOf hm).1 (hI.mat (s, m) hp)
          simp only at a2 hshape
          rw [a2] at hshape
          obtain ⟨b1, b2⟩ := fir_out (p := (s, m)) hsp (le_refl 1) hshape q1
          refine ⟨by rw [a2]; exact a1.symm, ?_⟩
          intro c hc
          rw [← b2 c hc]
          rw [b1, broadcastMat_self] at q2
          rw [← Option.some.inj q2, b1]
        refine ⟨fun s => (e.filts s m.name).mat, fun s hs =>
          ⟨hI.mat (s, m) (mem_combosOf.2 ⟨hs, hm⟩), (hall s hs).1⟩, ?_⟩
        intro c hc
        rw [show (((k + 1 : Nat) : Int) - 1) = (k : Int) by omega,
          step_mic cfg hN hv hm hk (fun c hc => hz c k hc (le_refl _)) p2 p3 p4 p5 hc]
        congr 1
        refine List.map_congr_left fun s hs => ?_
        rw [(hall s hs).2 c hc, Fir.out, hI.hist (s, m) (mem_combosOf.2 ⟨hs, hm⟩)]

/-- Filter output in terms of the input samples. -/
theorem firOut_histAt (h : IrMat R) (T : Tape R) (s : ArrInfo) (num t c : Nat) (hin : h.numIn = s.num) :
    firOut h (histAt T s num t) c = ((List.range s.num).map fun i =>
      ((List.range (h.ir i c).length).map fun k => (h.ir i c).getD k 0 *
        (if (k : Int) < t + num then T s.name i ((t : Int) - 1 - k) else 0)).sum).sum := by
  unfold firOut
  rw [hin]
  congr 1
  refine List.map_congr_left fun i hi => ?_
  have hi' : i < s.num := by simpa using hi
  congr 1
  refine List.map_congr_left fun k _ => ?_
  congr 1
  by_cases hk : k < t + num
  · have e1 : (histAt T s num t).getD k [] = colAt T s ((t : Int) - 1 - k) := by
      simp [histAt, List.getD_eq_getElem?_getD, hk]
    rw [if_pos (by omega), e1]
    simp [colAt, hi']
  · have e1 : (histAt T s num t).getD k [] = [] := by
      rw [List.getD_eq_default]; simp [histAt]; omega
    rw [if_neg (by omega), e1]
    simp

end
end Verif

/-
Two configurations with the same arrays whose paths and filters correspond to each other, and
of which the second one may leave out the contribution signals.
-/
import Verif.Lemmas.Hide
import Verif.Lemmas.Engine
import Verif.Lemmas.Run
namespace Verif

section
variable {R IR IR' F F' S A A' P D O : Type}

/-- The same array with another answer to whether it moves. -/
def ArrInfo.withDyn (dyn : String → Bool) (a : ArrInfo) : ArrInfo := { a with dynamic := dyn a.name }

/-- Both arrays of a pair. -/
def pairDyn (dyn : String → Bool) (p : ArrInfo × ArrInfo) : ArrInfo × ArrInfo := (p.1.withDyn dyn, p.2.withDyn dyn)

theorem sourcesOf_withDyn (dyn : String → Bool) (as : List ArrInfo) :
    sourcesOf (as.map (ArrInfo.withDyn dyn)) = (sourcesOf as).map (ArrInfo.withDyn dyn) := by
  unfold sourcesOf
  rw [List.filter_map]
  rfl

theorem micsOf_withDyn (dyn : String → Bool) (as : List ArrInfo) :
    micsOf (as.map (ArrInfo.withDyn dyn)) = (micsOf as).map (ArrInfo.withDyn dyn) := by
  unfold micsOf
  rw [List.filter_map]
  rfl

theorem freeOf_withDyn (dyn : String → Bool) (as : List ArrInfo) :
    freeOf (as.map (ArrInfo.withDyn dyn)) = (freeOf as).map (ArrInfo.withDyn dyn) := by
  unfold freeOf
  rw [List.filter_map]
  rfl

theorem combosOf_withDyn (dyn : String → Bool) (as : List ArrInfo) :
    combosOf (as.map (ArrInfo.withDyn dyn)) = (combosOf as).map (pairDyn dyn) := by
  unfold combosOf
  rw [sourcesOf_withDyn, micsOf_withDyn, List.flatMap_map, List.map_flatMap]
  congr 1
  funext s
  rw [List.map_map, List.map_map]
  rfl

/-- What the update loop does with the filter of a pair. -/
def SimCfg.updFilt (cfg : SimCfg R IR F S A P D O) (a : A) (p : ArrInfo × ArrInfo) (f : F) : Except PyErr F :=
  if p.1.dynamic || p.2.dynamic then
    match cfg.arrPath a p.1.name p.2.name with
    | .error x => .error x
    | .ok ir => cfg.filt.updateIr f ir
  else .ok f

theorem stepUpdate_updFilt {Sg : Type} (cfg : SimCfg R IR F S A P D O) (e : Eng Sg F S A P) (p : ArrInfo × ArrInfo) :
    cfg.stepUpdate e p = match cfg.updFilt e.arr p (e.filts p.1.name p.2.name) with
      | .error x => .error x
      | .ok f' => .ok { e with filts := fun s m => if s = p.1.name ∧ m = p.2.name then f' else e.filts s m } := by
  unfold SimCfg.stepUpdate SimCfg.updFilt
  split
  · cases cfg.arrPath e.arr p.1.name p.2.name <;> rfl
  · have : (fun s m => if s = p.1.name ∧ m = p.2.name then e.filts p.1.name p.2.name else e.filts s m) = e.filts := by
      funext s m
      split
      · rename_i h; rw [h.1, h.2]
      · rfl
    dsimp only
    rw [this]

/-- Two configurations which differ in the paths, the filters, the arrays that count as moving, and the
saving of contributions. -/
structure Alike (hid : String → Bool) (dyn : String → Bool) (cfg : SimCfg R IR F S A P D O)
    (cfg' : SimCfg R IR' F' S A' P D O) (RA : A → A' → Prop) (RF : String → String → F → F' → Prop) : Prop where
  B : cfg'.B = cfg.B
  C : cfg'.C = cfg.C
  tot : cfg'.tot = cfg.tot
  warm : cfg'.warm = cfg.warm
  plotNone : cfg'.plotNone = cfg.plotNone
  srcGet : cfg'.srcGet = cfg.srcGet
  proc : cfg'.proc = cfg.proc
  diag : cfg'.diag = cfg.diag
  arrays : cfg'.arrays = cfg.arrays.map (ArrInfo.withDyn dyn)
  contrib : cfg'.contrib = true → cfg.contrib = true
  hidCon : cfg.contrib = true → ∀ p ∈ combosOf cfg.arrays, hid (contribName p.1 p.2) = !cfg'.contrib
  hidArr : ∀ a ∈ cfg.arrays, hid a.name = false
  extra : ∀ p, cfg.proc = some p → ∀ q ∈ p.extra, hid q.1 = false
  call : ∀ p, cfg.proc = some p → ∀ x S S' i x1 S1, SameOff hid S S' → p.process x S i = .ok (x1, S1) →
    ∃ S1', p.process x S' i = .ok (x1, S1') ∧ SameOff hid S1 S1'
  upd : ∀ a a' a1 n, RA a a' → cfg.arrUpdate a n = .ok a1 → ∃ a1', cfg'.arrUpdate a' n = .ok a1' ∧ RA a1 a1'
  create : ∀ a a', RA a a' → ∀ p ∈ combosOf cfg.arrays, ∀ ir, cfg.arrPath a p.1.name p.2.name = .ok ir →
    ∃ ir', cfg'.arrPath a' p.1.name p.2.name = .ok ir' ∧ RF p.1.name p.2.name
      (cfg.filt.create ir (p.1.dynamic || p.2.dynamic)) (cfg'.filt.create ir' (dyn p.1.name || dyn p.2.name))
  process : ∀ p ∈ combosOf cfg.arrays, ∀ f f' x g y, RF p.1.name p.2.name f f' → cfg.filt.process f x = .ok (g, y) →
    ∃ g', cfg'.filt.process f' x = .ok (g', y) ∧ RF p.1.name p.2.name g g'
  update : ∀ a a', RA a a' → ∀ p ∈ combosOf cfg.arrays, ∀ f f' g, RF p.1.name p.2.name f f' → cfg.updFilt a p f = .ok g →
    ∃ g', cfg'.updFilt a' (pairDyn dyn p) f' = .ok g' ∧ RF p.1.name p.2.name g g'

variable {hid dyn : String → Bool} {cfg : SimCfg R IR F S A P D O} {cfg' : SimCfg R IR' F' S A' P D O} {RA : A → A' → Prop}
  {RF : String → String → F → F' → Prop}

/-- Two engines that correspond to each other. -/
structure EngAlike (hid : String → Bool) (cfg : SimCfg R IR F S A P D O) (RA : A → A' → Prop)
    (RF : String → String → F → F' → Prop) (e : Eng (Sigs R) F S A P) (e' : Eng (Sigs R) F' S A' P) : Prop where
  sig : SameOff hid e.sig e'.sig
  srcs : e.srcs = e'.srcs
  filts : ∀ p ∈ combosOf cfg.arrays, RF p.1.name p.2.name (e.filts p.1.name p.2.name) (e'.filts p.1.name p.2.name)
  arr : RA e.arr e'.arr
  proc : e.proc = e'.proc

theorem foldlM_alike {ε α β γ : Type} {f : α → γ → Except ε α} {f' : β → γ → Except ε β} (Rel : α → β → Prop)
    {l : List γ} {a a1 : α} {b : β} (hr : Rel a b)
    (hk : ∀ x ∈ l, ∀ a b a1, Rel a b → f a x = .ok a1 → ∃ b1, f' b x = .ok b1 ∧ Rel a1 b1)
    (h : l.foldlM f a = .ok a1) : ∃ b1, l.foldlM f' b = .ok b1 ∧ Rel a1 b1 := by
  have := foldlM_hide (f' := f') Rel (fun _ => true) l hr (fun x hx _ => hk x hx) (fun _ _ hc => by cases hc) h
  rwa [List.filter_eq_self.2 fun _ _ => rfl] at this

theorem Alike.signalList (H : Alike hid dyn cfg cfg' RA RF) : cfg'.signalList = cfg.signalList.filter fun q => !hid q.1 := by
  obtain ⟨base, hb⟩ : ∃ base : List (String × Nat), base = cfg.arrays.map (fun a => (a.name, a.num)) ++
    (if cfg.contrib then (combosOf cfg.arrays).map fun p => (contribName p.1 p.2, p.2.num) else []) := ⟨_, rfl⟩
  have hbase : cfg'.arrays.map (fun a => (a.name, a.num)) ++
      (if cfg'.contrib then (combosOf cfg'.arrays).map fun p => (contribName p.1 p.2, p.2.num) else []) =
      base.filter fun q => !hid q.1 := by
    rw [hb, List.filter_append]
    congr 1
    · rw [List.filter_eq_self.2, H.arrays, List.map_map]
      · rfl
      · intro q hq
        obtain ⟨a, ha, rfl⟩ := List.mem_map.1 hq
        rw [H.hidArr a ha]
        rfl
    · rw [H.arrays, combosOf_withDyn, List.map_map]
      cases hc : cfg.contrib with
      | false =>
        have : cfg'.contrib = false := by
          cases hc' : cfg'.contrib with
          | false => rfl
          | true => rw [H.contrib hc'] at hc; cases hc
        rw [this]
        rfl
      | true =>
        cases hc' : cfg'.contrib with
        | false =>
          simp only [if_true]
          rw [List.filter_eq_nil_iff.2]
          · rfl
          · intro q hq
            obtain ⟨p, hp, rfl⟩ := List.mem_map.1 hq
            rw [H.hidCon hc p hp, hc']
            simp
        | true =>
          simp only [if_true]
          rw [List.filter_eq_self.2]
          · rfl
          · intro q hq
            obtain ⟨p, hp, rfl⟩ := List.mem_map.1 hq
            rw [H.hidCon hc p hp, hc']
            rfl
  have el : cfg'.signalList = match cfg.proc with
      | none => base.filter fun q => !hid q.1
      | some p => base.filter (fun q => !hid q.1) ++
        p.extra.filter fun q => !(base.filter fun q => !hid q.1).any fun b => b.1 == q.1 := by
    rw [← hbase, ← H.proc]; rfl
  have er : cfg.signalList = match cfg.proc with
      | none => base
      | some p => base ++ p.extra.filter fun q => !base.any fun b => b.1 == q.1 := by
    rw [hb]; rfl
  rw [el, er]
  cases hp : cfg.proc with
  | none => rfl
  | some p =>
    dsimp only
    rw [List.filter_append]
    congr 1
    rw [List.filter_filter]
    refine List.filter_congr fun q hq => ?_
    have hh := H.extra p hp q hq
    rw [hh, Bool.not_false, Bool.true_and]
    congr 1
    rw [Bool.eq_iff_iff, List.any_eq_true, List.any_eq_true]
    constructor
    · rintro ⟨b, hb1, hb2⟩
      exact ⟨b, (List.mem_filter.1 hb1).1, hb2⟩
    · rintro ⟨b, hb1, hb2⟩
      refine ⟨b, List.mem_filter.2 ⟨hb1, ?_⟩, hb2⟩
      have : b.1 = q.1 := by simpa using hb2
      rw [this, hh]
      rfl

theorem Alike.createSignals [Zero R] (H : Alike hid dyn cfg cfg' RA RF) {sig : Sigs R} (hs : cfg.createSignals = .ok sig) :
    ∃ sig', cfg'.createSignals = .ok sig' ∧ SameOff hid sig sig' := by
  unfold SimCfg.createSignals at hs ⊢
  rw [H.signalList, H.B, H.C]
  refine foldlM_hide (SameOff hid) (fun q : String × Nat => !hid q.1) cfg.signalList (fun k _ => rfl) ?_ ?_ hs
  · intro x _ hk a b a1 hr hx
    exact (createSignal_hide hr hx).1 (by simpa using hk)
  · intro x _ hk a b a1 hr hx
    exact (createSignal_hide hr hx).2 (by simpa using hk)

theorem createFilters_ok (cfg : SimCfg R IR F S A P D O) {arr : A}
    (h : ∀ p ∈ combosOf cfg.arrays, ∃ ir, cfg.arrPath arr p.1.name p.2.name = .ok ir) (f0 : String → String → F) :
    ∃ fs, cfg.createFilters arr f0 = .ok fs := by
  unfold SimCfg.createFilters
  have aux : ∀ (l : List (ArrInfo × ArrInfo)) (g : String → String → F),
      (∀ p ∈ l, ∃ ir, cfg.arrPath arr p.1.name p.2.name = .ok ir) → ∃ fs, l.foldlM (fun fs p =>
        match cfg.arrPath arr p.1.name p.2.name with
        | .error e => .error e
        | .ok ir => .ok fun s m =>
          if s = p.1.name ∧ m = p.2.name then cfg.filt.create ir (p.1.dynamic || p.2.dynamic)
          else fs s m) g = Except.ok (ε := PyErr) fs := by
    intro l
    induction l with
    | nil => intro g _; exact ⟨g, rfl⟩
    | cons x l ih =>
      intro g hl
      obtain ⟨ir, hir⟩ := hl x (by simp)
      rw [List.foldlM_cons, hir]
      exact ih _ fun p hp => hl p (by simp [hp])
  exact aux _ _ h

theorem Alike.createFilters (H : Alike hid dyn cfg cfg' RA RF) (hN : Names cfg) (hN' : Names cfg') {arr : A} {arr' : A'}
    (ha : RA arr arr') {f0 fs : String → String → F} {f0' : String → String → F'} (hs : cfg.createFilters arr f0 = .ok fs) :
    ∃ fs' : String → String → F', cfg'.createFilters arr' f0' = .ok fs' ∧
      ∀ p ∈ combosOf cfg.arrays, RF p.1.name p.2.name (fs p.1.name p.2.name) (fs' p.1.name p.2.name) := by
  have h1 := createFilters_spec cfg hN hs
  obtain ⟨fs', h2⟩ := createFilters_ok cfg' (arr := arr') (by
    rw [H.arrays, combosOf_withDyn]
    intro q hq
    obtain ⟨p, hp, rfl⟩ := List.mem_map.1 hq
    obtain ⟨ir, h2, -⟩ := h1 p hp
    obtain ⟨ir', h3, -⟩ := H.create arr arr' ha p hp ir h2
    exact ⟨ir', h3⟩) f0'
  refine ⟨fs', h2, fun p hp => ?_⟩
  have h3 := createFilters_spec cfg' hN' h2
  rw [H.arrays, combosOf_withDyn] at h3
  obtain ⟨ir, a1, a2⟩ := h1 p hp
  obtain ⟨ir', b1, b2⟩ := h3 (pairDyn dyn p) (List.mem_map.2 ⟨p, hp, rfl⟩)
  obtain ⟨ir2, c1, c2⟩ := H.create arr arr' ha p hp ir a1
  have b1 : cfg'.arrPath arr' p.1.name p.2.name = .ok ir' := b1
  have b2 : fs' p.1.name p.2.name = cfg'.filt.create ir' (dyn p.1.name || dyn p.2.name) := b2
  rw [c1] at b1
  cases b1
  rw [a2, b2]
  exact c2

theorem Alike.free (H : Alike hid dyn cfg cfg' RA RF) {a : ArrInfo} (ha : a ∈ freeOf cfg.arrays) : hid a.name = false :=
  H.hidArr a (List.mem_filter.1 ha).1

theorem Alike.prepSource (H : Alike hid dyn cfg cfg' RA RF) {num : Nat} {a : ArrInfo} (ha : hid a.name = false)
    {e e1 : Eng (Sigs R) F S A P} {e' : Eng (Sigs R) F' S A' P} (hr : EngAlike hid cfg RA RF e e')
    (hx : cfg.prepSource num e a = .ok e1) :
    ∃ e1', cfg'.prepSource num e' (a.withDyn dyn) = .ok e1' ∧ EngAlike hid cfg RA RF e1 e1' := by
  unfold SimCfg.prepSource at hx ⊢
  rw [H.srcGet, H.B, ← hr.srcs]
  have en : (a.withDyn dyn).name = a.name := rfl
  rw [en]
  split at hx
  · cases hx
  · rename_i s' v hs
    split at hx
    · cases hx
    · rename_i sig hsig
      obtain ⟨sig', h1, h2⟩ := (sigAssign_hide hr.sig hsig).1 ha
      rw [h1]
      cases hx
      exact ⟨_, rfl, ⟨h2, by simp only [hr.srcs], hr.filts, hr.arr, hr.proc⟩⟩

theorem Alike.stepSource (H : Alike hid dyn cfg cfg' RA RF) {i : Int} {a : ArrInfo} (ha : hid a.name = false)
    {e e1 : Eng (Sigs R) F S A P} {e' : Eng (Sigs R) F' S A' P} (hr : EngAlike hid cfg RA RF e e')
    (hx : cfg.stepSource i e a = .ok e1) :
    ∃ e1', cfg'.stepSource i e' (a.withDyn dyn) = .ok e1' ∧ EngAlike hid cfg RA RF e1 e1' := by
  unfold SimCfg.stepSource at hx ⊢
  rw [H.srcGet, ← hr.srcs]
  have en : (a.withDyn dyn).name = a.name := rfl
  rw [en]
  split at hx
  · cases hx
  · rename_i s' v hs
    split at hx
    · cases hx
    · rename_i sig hsig
      obtain ⟨sig', h1, h2⟩ := (sigAssign_hide hr.sig hsig).1 ha
      rw [h1]
      cases hx
      exact ⟨_, rfl, ⟨h2, by simp only [hr.srcs], hr.filts, hr.arr, hr.proc⟩⟩

/-- Replacing the filter of one pair on both sides. -/
theorem Alike.filts_set {fs : String → String → F} {fs' : String → String → F'}
    (h : ∀ p ∈ combosOf cfg.arrays, RF p.1.name p.2.name (fs p.1.name p.2.name) (fs' p.1.name p.2.name))
    {p : ArrInfo × ArrInfo} {g : F} {g' : F'} (hg : RF p.1.name p.2.name g g') :
    ∀ q ∈ combosOf cfg.arrays, RF q.1.name q.2.name
      ((fun s m => if s = p.1.name ∧ m = p.2.name then g else fs s m) q.1.name q.2.name)
      ((fun s m => if s = p.1.name ∧ m = p.2.name then g' else fs' s m) q.1.name q.2.name) := by
  intro q hq
  dsimp only
  split
  · rename_i he
    rw [he.1, he.2]
    exact hg
  · exact h q hq

theorem Alike.pairWith [Add R] (H : Alike hid dyn cfg cfg' RA RF) {i j i' : Int} {p : ArrInfo × ArrInfo}
    (hp : p ∈ combosOf cfg.arrays) {e e1 : Eng (Sigs R) F S A P} {e' : Eng (Sigs R) F' S A' P}
    (hr : EngAlike hid cfg RA RF e e') (hx : Verif.pairWith cfg i j i' e p = .ok e1) :
    ∃ e1', Verif.pairWith cfg' i j i' e' (pairDyn dyn p) = .ok e1' ∧ EngAlike hid cfg RA RF e1 e1' := by
  have hm := mem_combos_src hp
  have hsrc := H.hidArr _ hm.1
  have hmic := H.hidArr _ hm.2.2
  unfold Verif.pairWith at hx ⊢
  have en1 : (pairDyn dyn p).1.name = p.1.name := rfl
  have en2 : (pairDyn dyn p).2.name = p.2.name := rfl
  have en3 : contribName (pairDyn dyn p).1 (pairDyn dyn p).2 = contribName p.1 p.2 := rfl
  rw [en1, en2, en3]
  cases hg : sigGet e.sig p.1.name i j with
  | error x => rw [hg] at hx; cases hx
  | ok x =>
    rw [hg] at hx
    have hg' : sigGet e'.sig p.1.name i j = .ok x := by
      unfold sigGet at hg ⊢
      rw [← hr.sig _ hsrc]; exact hg
    rw [hg']
    dsimp only at hx ⊢
    cases hf : cfg.filt.process (e.filts p.1.name p.2.name) x with
    | error x => rw [hf] at hx; cases hx
    | ok q =>
      obtain ⟨g, y⟩ := q
      rw [hf] at hx
      obtain ⟨g', hf', hrg⟩ := H.process p hp _ _ _ _ _ (hr.filts p hp) hf
      rw [hf']
      dsimp only at hx ⊢
      cases ha : sigAdd e.sig p.2.name i' j y with
      | error x => rw [ha] at hx; cases hx
      | ok sig =>
        rw [ha] at hx
        obtain ⟨sig', h1, h2⟩ := (sigAdd_hide hr.sig ha).1 hmic
        rw [h1]
        dsimp only at hx ⊢
        cases hw : (if cfg.contrib then sigAssign sig (contribName p.1 p.2) i j y else .ok sig) with
        | error x => rw [hw] at hx; cases hx
        | ok sig2 =>
          rw [hw] at hx
          cases hx
          obtain ⟨sig2', h3, h4⟩ : ∃ sig2', (if cfg'.contrib then
              sigAssign sig' (contribName p.1 p.2) i j y else .ok sig') = .ok sig2' ∧ SameOff hid sig2 sig2' := by
            cases hc : cfg.contrib with
            | false =>
              have hc' : cfg'.contrib = false := by
                cases hc' : cfg'.contrib with
                | false => rfl
                | true => rw [H.contrib hc'] at hc; cases hc
              rw [hc] at hw
              rw [hc']
              cases hw
              exact ⟨sig', rfl, h2⟩
            | true =>
              rw [hc] at hw
              have hh := H.hidCon hc p hp
              cases hc' : cfg'.contrib with
              | false =>
                rw [hc'] at hh
                exact ⟨sig', rfl, (sigAssign_hide h2 hw).2 (by rw [hh]; rfl)⟩
              | true =>
                rw [hc'] at hh
                exact (sigAssign_hide h2 hw).1 (by rw [hh]; rfl)
          rw [h3]
          exact ⟨_, rfl, ⟨h4, hr.srcs, Alike.filts_set hr.filts hrg, hr.arr, hr.proc⟩⟩

theorem Alike.stepUpdate (H : Alike hid dyn cfg cfg' RA RF) {p : ArrInfo × ArrInfo}
    (hp : p ∈ combosOf cfg.arrays) {e e1 : Eng (Sigs R) F S A P} {e' : Eng (Sigs R) F' S A' P}
    (hr : EngAlike hid cfg RA RF e e') (hx : cfg.stepUpdate e p = .ok e1) :
    ∃ e1', cfg'.stepUpdate e' (pairDyn dyn p) = .ok e1' ∧ EngAlike hid cfg RA RF e1 e1' := by
  rw [stepUpdate_updFilt] at hx ⊢
  have en1 : (pairDyn dyn p).1.name = p.1.name := rfl
  have en2 : (pairDyn dyn p).2.name = p.2.name := rfl
  rw [en1, en2]
  split at hx
  · cases hx
  · rename_i g hg
    cases hx
    obtain ⟨g', h1, h2⟩ := H.update _ _ hr.arr p hp _ _ _ (hr.filts p hp) hg
    rw [h1]
    exact ⟨_, rfl, ⟨hr.sig, hr.srcs, Alike.filts_set hr.filts h2, hr.arr, hr.proc⟩⟩

theorem Alike.prepNum (H : Alike hid dyn cfg cfg' RA RF) : cfg'.prepNum = cfg.prepNum := by
  unfold SimCfg.prepNum
  rw [H.warm, H.B]

theorem Alike.prepare [Add R] (H : Alike hid dyn cfg cfg' RA RF) {e e1 : Eng (Sigs R) F S A P}
    {e' : Eng (Sigs R) F' S A' P} (hr : EngAlike hid cfg RA RF e e') (hx : cfg.prepare e = .ok e1) :
    ∃ e1', cfg'.prepare e' = .ok e1' ∧ EngAlike hid cfg RA RF e1 e1' := by
  unfold SimCfg.prepare at hx ⊢
  rw [H.arrays, H.prepNum, freeOf_withDyn, combosOf_withDyn, List.foldlM_map]
  cases h1 : (freeOf cfg.arrays).foldlM (cfg.prepSource cfg.prepNum) e with
  | error x => rw [h1] at hx; cases hx
  | ok e2 =>
    rw [h1] at hx
    obtain ⟨e2', h2, hr2⟩ := foldlM_alike (f' := fun b a => cfg'.prepSource cfg.prepNum b (a.withDyn dyn)) (EngAlike hid cfg RA RF) hr
      (fun a ha b b' b1 hb hb1 => H.prepSource (H.free ha) hb hb1) h1
    rw [h2]
    dsimp only at hx ⊢
    rw [List.foldlM_map]
    refine foldlM_alike (EngAlike hid cfg RA RF) hr2 ?_ hx
    intro p hp a b a1 hab ha1
    have := H.pairWith hp hab (i := (cfg.B : Int) - cfg.prepNum) (j := cfg.B) (i' := 0) ha1
    rw [← H.B] at this
    exact this

theorem Alike.propagate [Add R] (H : Alike hid dyn cfg cfg' RA RF) {i : Int}
    {e e1 : Eng (Sigs R) F S A P} {e' : Eng (Sigs R) F' S A' P}
    (hr : EngAlike hid cfg RA RF e e') (hx : cfg.propagate i e = .ok e1) :
    ∃ e1', cfg'.propagate i e' = .ok e1' ∧ EngAlike hid cfg RA RF e1 e1' := by
  unfold SimCfg.propagate at hx ⊢
  rw [H.arrays, freeOf_withDyn, combosOf_withDyn, List.foldlM_map]
  cases h1 : (freeOf cfg.arrays).foldlM (cfg.stepSource i) e with
  | error x => rw [h1] at hx; cases hx
  | ok e2 =>
    rw [h1] at hx
    obtain ⟨e2', h2, hr2⟩ := foldlM_alike (f' := fun b a => cfg'.stepSource i b (a.withDyn dyn)) (EngAlike hid cfg RA RF) hr
      (fun a ha b b' b1 hb hb1 => H.stepSource (H.free ha) hb hb1) h1
    rw [h2]
    dsimp only at hx ⊢
    rw [List.foldlM_map]
    cases h3 : (combosOf cfg.arrays).foldlM cfg.stepUpdate e2 with
    | error x => rw [h3] at hx; cases hx
    | ok e3 =>
      rw [h3] at hx
      obtain ⟨e3', h4, hr3⟩ := foldlM_alike (f' := fun b p => cfg'.stepUpdate b (pairDyn dyn p)) (EngAlike hid cfg RA RF) hr2
        (fun p hp a b a1 hab ha1 => H.stepUpdate hp hab ha1) h3
      rw [h4]
      dsimp only at hx ⊢
      rw [List.foldlM_map]
      refine foldlM_alike (EngAlike hid cfg RA RF) hr3 ?_ hx
      intro p hp a b a1 hab ha1
      exact H.pairWith hp hab (i := i) (j := i + 1) (i' := i) ha1

theorem Alike.engine [Add R] (H : Alike hid dyn cfg cfg' RA RF) {n : Nat} {i : Int}
    {e e1 : Eng (Sigs R) F S A P} {e' : Eng (Sigs R) F' S A' P}
    (hr : EngAlike hid cfg RA RF e e') (hx : cfg.engine n i e = .ok e1) :
    ∃ e1', cfg'.engine n i e' = .ok e1' ∧ EngAlike hid cfg RA RF e1 e1' := by
  unfold SimCfg.engine at hx ⊢
  cases h1 : cfg.arrUpdate e.arr n with
  | error x => rw [h1] at hx; cases hx
  | ok arr =>
    rw [h1] at hx
    obtain ⟨arr', h2, hra⟩ := H.upd _ _ _ _ hr.arr h1
    rw [h2]
    dsimp only at hx ⊢
    cases h3 : cfg.callProc n i { e with arr := arr } with
    | error x => rw [h3] at hx; cases hx
    | ok e2 =>
      rw [h3] at hx
      dsimp only at hx
      have hcall : ∃ e2', cfg'.callProc n i { e' with arr := arr' } = .ok e2' ∧ EngAlike hid cfg RA RF e2 e2' := by
        unfold SimCfg.callProc at h3 ⊢
        rw [H.proc]
        cases hp : cfg.proc with
        | none =>
          rw [hp] at h3
          cases h3
          exact ⟨_, rfl, ⟨hr.sig, hr.srcs, hr.filts, hra, hr.proc⟩⟩
        | some p =>
          rw [hp] at h3
          dsimp only at h3 ⊢
          split at h3
          · cases h3
          · rename_i hb
            rw [if_neg hb]
            split at h3
            · rename_i hn
              rw [if_pos hn]
              split at h3
              · cases h3
              · rename_i x1 S1 hpr
                obtain ⟨S1', h4, h5⟩ := H.call p hp _ _ _ _ _ _ hr.sig hpr
                rw [← hr.proc, h4]
                cases h3
                exact ⟨_, rfl, ⟨h5, hr.srcs, hr.filts, hra, rfl⟩⟩
            · rename_i hn
              rw [if_neg hn]
              cases h3
              exact ⟨_, rfl, ⟨hr.sig, hr.srcs, hr.filts, hra, hr.proc⟩⟩
      obtain ⟨e2', h4, hr2⟩ := hcall
      rw [h4]
      exact H.propagate hr2 hx

/-- Two states that correspond to each other. -/
structure StAlike (hid : String → Bool) (cfg : SimCfg R IR F S A P D O) (RA : A → A' → Prop)
    (RF : String → String → F → F' → Prop) (Pd : D → Prop) (st : SimSt R F S A P D O)
    (st' : SimSt R F' S A' P D O) : Prop where
  eng : EngAlike hid cfg RA RF st.eng st'.eng
  idx : st.idx = st'.idx
  n : st.n = st'.n
  diags : st.diags = st'.diags
  log : st.log = st'.log
  data : ∀ d ∈ st.diags, Pd d.data

theorem Alike.mbs (H : Alike hid dyn cfg cfg' RA RF) : cfg'.mbs = cfg.mbs := by
  unfold SimCfg.mbs
  rw [H.proc, H.B]

theorem Alike.step [Zero R] [Add R] (H : Alike hid dyn cfg cfg' RA RF) {Pd : D → Prop}
    (hb : Blind hid cfg.diag Pd) {st st1 : SimSt R F S A P D O} {st' : SimSt R F' S A' P D O}
    (hr : StAlike hid cfg RA RF Pd st st') (hx : cfg.step st = .ok st1) :
    ∃ st1', cfg'.step st' = .ok st1' ∧ StAlike hid cfg RA RF Pd st1 st1' := by
  unfold SimCfg.step at hx ⊢
  rw [← hr.n, ← hr.idx, ← hr.diags, ← hr.log]
  cases h1 : cfg.engine st.n st.idx st.eng with
  | error x => rw [h1] at hx; cases hx
  | ok e =>
    rw [h1] at hx
    obtain ⟨e', h2, hr2⟩ := H.engine hr.eng h1
    rw [h2]
    dsimp only at hx ⊢
    have e1 : cfg'.lastBlock st.idx = cfg.lastBlock st.idx := by
      unfold SimCfg.lastBlock
      rw [H.mbs, H.B, H.C]
    rw [e1, H.proc, H.diag, H.plotNone, H.B, H.C, ← hr2.proc]
    cases h3 : saveData cfg.diag (if cfg.proc.isSome then some e.proc else none) e.sig st.idx st.n (cfg.lastBlock st.idx) st.diags with
    | error x => rw [h3] at hx; cases hx
    | ok ds =>
      rw [h3] at hx
      obtain ⟨h4, h5⟩ := saveData_hide hb hr2.sig hr.data h3
      rw [h4]
      dsimp only at hx ⊢
      cases h6 : dispatch cfg.diag cfg.plotNone ds st.log with
      | error x => rw [h6] at hx; cases hx
      | ok r =>
        obtain ⟨ds', log⟩ := r
        rw [h6] at hx
        cases hx
        refine ⟨_, rfl, ⟨?_, rfl, rfl, rfl, rfl, dispatch_data h5 h6⟩⟩
        dsimp only
        split
        · exact ⟨resetSigs_hide hr2.sig _ _, hr2.srcs, hr2.filts, hr2.arr, rfl⟩
        · exact hr2

theorem Alike.steps [Zero R] [Add R] (H : Alike hid dyn cfg cfg' RA RF) {Pd : D → Prop}
    (hb : Blind hid cfg.diag Pd) : ∀ (k : Nat) {st st1 : SimSt R F S A P D O} {st' : SimSt R F' S A' P D O},
    StAlike hid cfg RA RF Pd st st' → cfg.steps k st = .ok st1 →
    ∃ st1', cfg'.steps k st' = .ok st1' ∧ StAlike hid cfg RA RF Pd st1 st1'
  | 0, st, st1, st', hr, hx => by cases hx; exact ⟨_, rfl, hr⟩
  | k + 1, st, st1, st', hr, hx => by
    unfold SimCfg.steps at hx ⊢
    cases h1 : cfg.steps k st with
    | error x => rw [h1] at hx; cases hx
    | ok s =>
      rw [h1] at hx
      obtain ⟨s', h2, hr2⟩ := H.steps hb k hr h1
      rw [h2]
      exact H.step hb hr2 hx

theorem Alike.init [Zero R] [Add R] (H : Alike hid dyn cfg cfg' RA RF) {Pd : D → Prop} {srcs : String → S} {arr : A} {arr' : A'}
    (ha : RA arr arr') {proc : P} {f0 : F} {f0' : F'} {ds : List (Diag D)} (hd : ∀ d ∈ ds, Pd d.data)
    {st : SimSt R F S A P D O} (h1 : cfg.init srcs arr proc f0 ds = .ok st) :
    ∃ st', cfg'.init srcs arr' proc f0' ds = .ok st' ∧ StAlike hid cfg RA RF Pd st st' := by
  have hN : Names cfg := names_of cfg (init_nodup cfg h1)
  unfold SimCfg.init at h1 ⊢
  cases h2 : cfg.createSignals with
  | error x => rw [h2] at h1; cases h1
  | ok sig =>
    rw [h2] at h1
    obtain ⟨sig', h3, h4⟩ := H.createSignals h2
    have hN' : Names cfg' := names_of cfg' (createSignals_nodup cfg' h3)
    rw [h3]
    dsimp only at h1 ⊢
    cases h5 : cfg.createFilters arr (fun _ _ => f0) with
    | error x => rw [h5] at h1; cases h1
    | ok fs =>
      rw [h5] at h1
      obtain ⟨fs', h6, h7⟩ := H.createFilters hN hN' ha (f0' := fun _ _ => f0') h5
      rw [h6]
      dsimp only at h1 ⊢
      cases h8 : cfg.prepare { sig := sig, srcs := srcs, filts := fs, arr := arr, proc := proc } with
      | error x => rw [h8] at h1; cases h1
      | ok e =>
        rw [h8] at h1
        obtain ⟨e', h9, h10⟩ := H.prepare
          (e' := { sig := sig', srcs := srcs, filts := fs', arr := arr', proc := proc })
          ⟨h4, rfl, h7, ha, rfl⟩ h8
        rw [h9]
        cases h1
        exact ⟨_, rfl, ⟨h10, by rw [H.B], rfl, rfl, rfl, hd⟩⟩

theorem Alike.run [Zero R] [Add R] (H : Alike hid dyn cfg cfg' RA RF) {Pd : D → Prop}
    (hb : Blind hid cfg.diag Pd) {srcs : String → S} {arr : A} {arr' : A'} (ha : RA arr arr') {proc : P} {f0 : F} {f0' : F'}
    {ds : List (Diag D)} (hd : ∀ d ∈ ds, Pd d.data) {fin : SimSt R F S A P D O}
    (hx : cfg.run srcs arr proc f0 ds = .ok fin) :
    ∃ fin', cfg'.run srcs arr' proc f0' ds = .ok fin' ∧ StAlike hid cfg RA RF Pd fin fin' := by
  unfold SimCfg.run at hx ⊢
  cases h1 : cfg.init srcs arr proc f0 ds with
  | error x => rw [h1] at hx; cases hx
  | ok st =>
    rw [h1] at hx
    have hN : Names cfg := names_of cfg (init_nodup cfg h1)
    obtain ⟨st', h2, hr⟩ := H.init ha (f0' := f0') hd h1
    rw [h2]
    dsimp only at hx ⊢
    rw [H.mbs, H.tot, H.diag, H.plotNone]
    cases h3 : cfg.steps (cfg.tot + cfg.mbs) st with
    | error x => rw [h3] at hx; cases hx
    | ok s =>
      rw [h3] at hx
      obtain ⟨s', h4, hr2⟩ := H.steps hb _ hr h3
      rw [h4]
      dsimp only at hx ⊢
      rw [← hr2.diags, ← hr2.log]
      cases h6 : dispatch cfg.diag cfg.plotNone s.diags s.log with
      | error x => rw [h6] at hx; cases hx
      | ok r =>
        obtain ⟨ds', log⟩ := r
        rw [h6] at hx
        cases hx
        exact ⟨_, rfl, ⟨hr2.eng, hr2.idx, hr2.n, rfl, rfl, dispatch_data hr2.data h6⟩⟩

end
end Verif

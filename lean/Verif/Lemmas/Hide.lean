/-
Taking microphone arrays away from a run.
-/
import Verif.Lemmas.Loop
namespace Verif

theorem foldlM_hide {ε α β γ : Type} {f : α → γ → Except ε α} {f' : β → γ → Except ε β} (Rel : α → β → Prop)
    (keep : γ → Bool) : ∀ (l : List γ) {a a1 : α} {b : β}, Rel a b →
    (∀ x ∈ l, keep x = true → ∀ a b a1, Rel a b → f a x = .ok a1 → ∃ b1, f' b x = .ok b1 ∧ Rel a1 b1) →
    (∀ x ∈ l, keep x = false → ∀ a b a1, Rel a b → f a x = .ok a1 → Rel a1 b) →
    l.foldlM f a = .ok a1 → ∃ b1, (l.filter keep).foldlM f' b = .ok b1 ∧ Rel a1 b1
  | [], a, a1, b, hr, _, _, h => by
    cases h
    exact ⟨b, rfl, hr⟩
  | x :: l, a, a1, b, hr, hk, hn, h => by
    rw [List.foldlM_cons] at h
    cases hx : f a x with
    | error e => rw [hx] at h; cases h
    | ok a2 =>
      rw [hx] at h
      rw [List.filter_cons]
      have hk' : ∀ y ∈ l, keep y = true → ∀ a b a1, Rel a b → f a y = .ok a1 → ∃ b1, f' b y = .ok b1 ∧ Rel a1 b1 :=
        fun y hy => hk y (by simp [hy])
      have hn' : ∀ y ∈ l, keep y = false → ∀ a b a1, Rel a b → f a y = .ok a1 → Rel a1 b := fun y hy => hn y (by simp [hy])
      cases hkx : keep x with
      | true =>
        obtain ⟨b2, h2, hr2⟩ := hk x (by simp) hkx a b a2 hr hx
        obtain ⟨b1, h3, hr3⟩ := foldlM_hide Rel keep l hr2 hk' hn' h
        refine ⟨b1, ?_, hr3⟩
        simp only [if_true]
        rw [List.foldlM_cons, h2]
        exact h3
      | false =>
        obtain ⟨b1, h3, hr3⟩ := foldlM_hide Rel keep l (hn x (by simp) hkx a b a2 hr hx) hk' hn' h
        exact ⟨b1, by simpa using h3, hr3⟩

section
variable {R IR F S A A' P D O : Type}

/-- The arrays that are kept. -/
def keptArrays (hid : String → Bool) (as : List ArrInfo) : List ArrInfo := as.filter fun a => !hid a.name

/-- The configuration without the hidden arrays. -/
def SimCfg.without (hid : String → Bool) (cfg : SimCfg R IR F S A P D O) (upd : A' → Nat → Except PyErr A')
    (path : A' → String → String → Except PyErr IR) : SimCfg R IR F S A' P D O where
  B := cfg.B
  C := cfg.C
  tot := cfg.tot
  warm := cfg.warm
  contrib := cfg.contrib
  plotNone := cfg.plotNone
  arrays := keptArrays hid cfg.arrays
  srcGet := cfg.srcGet
  filt := cfg.filt
  arrUpdate := upd
  arrPath := path
  proc := cfg.proc
  diag := cfg.diag

/-- Two signal stores that agree outside the hidden names. -/
def SameOff (hid : String → Bool) (S S' : Sigs R) : Prop := ∀ k, hid k = false → S k = S' k

/-- Two engines that agree outside the hidden names. -/
structure EngRel (hid : String → Bool) (RA : A → A' → Prop) (e : Eng (Sigs R) F S A P) (e' : Eng (Sigs R) F S A' P) : Prop where
  sig : SameOff hid e.sig e'.sig
  srcs : e.srcs = e'.srcs
  filts : ∀ s m, hid m = false → e.filts s m = e'.filts s m
  arr : RA e.arr e'.arr
  proc : e.proc = e'.proc

/-- What is hidden: microphone arrays and, if contributions are saved, their contribution
signals.  The processor neither creates nor uses the hidden signals. -/
structure Hidden (hid : String → Bool) (cfg : SimCfg R IR F S A P D O) : Prop where
  mic : ∀ a ∈ cfg.arrays, hid a.name = true → a.kind = .mic
  contrib : cfg.contrib = true → ∀ p ∈ combosOf cfg.arrays, hid (contribName p.1 p.2) = hid p.2.name
  extra : ∀ p, cfg.proc = some p → ∀ q ∈ p.extra, hid q.1 = false
  proc : ∀ p, cfg.proc = some p → ∀ x S S' i x1 S1, SameOff hid S S' → p.process x S i = .ok (x1, S1) →
    ∃ S1', p.process x S' i = .ok (x1, S1') ∧ SameOff hid S1 S1'

theorem SameOff.set {hid : String → Bool} {S S' : Sigs R} (h : SameOff hid S S') (k : String) (m : Mat R) :
    SameOff hid (S.set k m) (S'.set k m) := by
  intro k' hk'
  unfold Sigs.set
  split
  · rfl
  · exact h k' hk'

theorem SameOff.set_left {hid : String → Bool} {S S' : Sigs R} (h : SameOff hid S S') {k : String} (hk : hid k = true) (m : Mat R) :
    SameOff hid (S.set k m) S' := by
  intro k' hk'
  unfold Sigs.set
  split
  · rename_i e; rw [e, hk] at hk'; cases hk'
  · exact h k' hk'

theorem sigAssign_hide {hid : String → Bool} {S S' S1 : Sigs R} (h : SameOff hid S S') {k : String} {i j : Int} {v : Mat R}
    (hs : sigAssign S k i j v = .ok S1) :
    (hid k = false → ∃ S1', sigAssign S' k i j v = .ok S1' ∧ SameOff hid S1 S1') ∧ (hid k = true → SameOff hid S1 S') := by
  unfold sigAssign at hs
  split at hs
  · cases hs
  · rename_i m hm
    split at hs
    · cases hs
    · rename_i m' hm'
      cases hs
      refine ⟨fun hk => ⟨S'.set k m', ?_, h.set k m'⟩, fun hk => h.set_left hk m'⟩
      unfold sigAssign
      rw [← h k hk, hm]
      dsimp only
      rw [hm']

theorem sigAdd_hide [Add R] {hid : String → Bool} {S S' S1 : Sigs R} (h : SameOff hid S S') {k : String} {i j : Int} {v : Mat R}
    (hs : sigAdd S k i j v = .ok S1) :
    (hid k = false → ∃ S1', sigAdd S' k i j v = .ok S1' ∧ SameOff hid S1 S1') ∧ (hid k = true → SameOff hid S1 S') := by
  unfold sigAdd at hs
  split at hs
  · cases hs
  · rename_i m hm
    split at hs
    · cases hs
    · rename_i m' hm'
      cases hs
      refine ⟨fun hk => ⟨S'.set k m', ?_, h.set k m'⟩, fun hk => h.set_left hk m'⟩
      unfold sigAdd
      rw [← h k hk, hm]
      dsimp only
      rw [hm']

theorem createSignal_hide [Zero R] {hid : String → Bool} {S S' S1 : Sigs R} (h : SameOff hid S S') {n : Nat} {q : String × Nat}
    (hs : createSignal n S q = .ok S1) :
    (hid q.1 = false → ∃ S1', createSignal n S' q = .ok S1' ∧ SameOff hid S1 S1') ∧ (hid q.1 = true → SameOff hid S1 S') := by
  unfold createSignal at hs
  split at hs
  · cases hs
  · rename_i hm
    cases hs
    refine ⟨fun hk => ⟨S'.set q.1 _, ?_, h.set q.1 _⟩, fun hk => h.set_left hk _⟩
    unfold createSignal
    rw [← h q.1 hk, hm]

theorem resetSigs_hide [Zero R] {hid : String → Bool} {S S' : Sigs R} (h : SameOff hid S S') (B C : Nat) :
    SameOff hid (resetSigs B C S) (resetSigs B C S') := by
  intro k hk
  unfold resetSigs
  rw [h k hk]

variable {hid : String → Bool} {cfg : SimCfg R IR F S A P D O} {upd : A' → Nat → Except PyErr A'}
  {path : A' → String → String → Except PyErr IR} {RA : A → A' → Prop}

theorem sourcesOf_kept (h : Hidden hid cfg) : sourcesOf (keptArrays hid cfg.arrays) = sourcesOf cfg.arrays := by
  unfold sourcesOf keptArrays
  rw [List.filter_filter]
  refine List.filter_congr fun a ha => ?_
  cases hh : hid a.name with
  | false => simp
  | true => rw [h.mic a ha hh]; rfl

theorem freeOf_kept (h : Hidden hid cfg) : freeOf (keptArrays hid cfg.arrays) = freeOf cfg.arrays := by
  unfold freeOf keptArrays
  rw [List.filter_filter]
  refine List.filter_congr fun a ha => ?_
  cases hh : hid a.name with
  | false => simp
  | true => rw [h.mic a ha hh]; rfl

theorem micsOf_kept : micsOf (keptArrays hid cfg.arrays) = (micsOf cfg.arrays).filter fun a => !hid a.name := by
  unfold micsOf keptArrays
  rw [List.filter_filter, List.filter_filter]
  exact List.filter_congr fun a _ => Bool.and_comm _ _

theorem combosOf_kept (h : Hidden hid cfg) :
    combosOf (keptArrays hid cfg.arrays) = (combosOf cfg.arrays).filter fun p => !hid p.2.name := by
  unfold combosOf
  rw [sourcesOf_kept h, micsOf_kept, List.filter_flatMap]
  congr 1
  funext s
  rw [List.filter_map]
  rfl

theorem mem_combos_src {p : ArrInfo × ArrInfo} {as : List ArrInfo} (h : p ∈ combosOf as) : p.1 ∈ as ∧ p.1.kind ≠ .mic ∧ p.2 ∈ as := by
  unfold combosOf sourcesOf micsOf at h
  simp only [List.mem_flatMap, List.mem_map, List.mem_filter] at h
  obtain ⟨s, ⟨hs, hk⟩, m, ⟨hm, _⟩, rfl⟩ := h
  exact ⟨hs, by simpa using hk, hm⟩

theorem Hidden.src (h : Hidden hid cfg) {p : ArrInfo × ArrInfo} (hp : p ∈ combosOf cfg.arrays) : hid p.1.name = false := by
  obtain ⟨h1, h2, -⟩ := mem_combos_src hp
  cases hh : hid p.1.name with
  | false => rfl
  | true => exact absurd (h.mic _ h1 hh) h2

theorem Hidden.free (h : Hidden hid cfg) {a : ArrInfo} (ha : a ∈ freeOf cfg.arrays) : hid a.name = false := by
  unfold freeOf at ha
  obtain ⟨h1, h2⟩ := List.mem_filter.1 ha
  cases hh : hid a.name with
  | false => rfl
  | true => rw [h.mic _ h1 hh] at h2; cases h2

theorem signalList_kept (h : Hidden hid cfg) : (cfg.without hid upd path).signalList = cfg.signalList.filter fun q => !hid q.1 := by
  obtain ⟨base, hb⟩ : ∃ base : List (String × Nat), base = cfg.arrays.map (fun a => (a.name, a.num)) ++
    (if cfg.contrib then (combosOf cfg.arrays).map fun p => (contribName p.1 p.2, p.2.num) else []) := ⟨_, rfl⟩
  have hbase : (keptArrays hid cfg.arrays).map (fun a => (a.name, a.num)) ++
      (if cfg.contrib then (combosOf (keptArrays hid cfg.arrays)).map fun p => (contribName p.1 p.2, p.2.num) else []) =
      base.filter fun q => !hid q.1 := by
    rw [hb, List.filter_append]
    congr 1
    · unfold keptArrays
      rw [List.filter_map]
      rfl
    · split
      · rename_i hc
        rw [combosOf_kept h, List.filter_map]
        congr 1
        refine List.filter_congr fun p hp => ?_
        simp only [Function.comp]
        rw [h.contrib hc p hp]
      · rfl
  have el : (cfg.without hid upd path).signalList = match cfg.proc with
      | none => base.filter fun q => !hid q.1
      | some p => base.filter (fun q => !hid q.1) ++
        p.extra.filter fun q => !(base.filter fun q => !hid q.1).any fun b => b.1 == q.1 := by
    rw [← hbase]; rfl
  have er : cfg.signalList = match cfg.proc with
      | none => base
      | some p => base ++ p.extra.filter fun q => !base.any fun b => b.1 == q.1 := by
    rw [hb]; rfl
  rw [el, er]
  cases hp : cfg.proc with
  | none => rfl
  | some p =>
    dsimp only
    rw [List.filter_append]
    congr 1
    rw [List.filter_filter]
    refine List.filter_congr fun q hq => ?_
    have hh := h.extra p hp q hq
    rw [hh, Bool.not_false, Bool.true_and]
    congr 1
    rw [Bool.eq_iff_iff, List.any_eq_true, List.any_eq_true]
    constructor
    · rintro ⟨b, hb1, hb2⟩
      exact ⟨b, (List.mem_filter.1 hb1).1, hb2⟩
    · rintro ⟨b, hb1, hb2⟩
      refine ⟨b, List.mem_filter.2 ⟨hb1, ?_⟩, hb2⟩
      have : b.1 = q.1 := by simpa using hb2
      rw [this, hh]
      rfl

theorem createSignals_hide [Zero R] (h : Hidden hid cfg) {sig : Sigs R} (hs : cfg.createSignals = .ok sig) :
    ∃ sig', (cfg.without hid upd path).createSignals = .ok sig' ∧ SameOff hid sig sig' := by
  unfold SimCfg.createSignals at hs ⊢
  rw [signalList_kept h]
  refine foldlM_hide (SameOff hid) (fun q : String × Nat => !hid q.1) cfg.signalList (fun k _ => rfl) ?_ ?_ hs
  · intro x _ hk a b a1 hr hx
    exact (createSignal_hide hr hx).1 (by simpa using hk)
  · intro x _ hk a b a1 hr hx
    exact (createSignal_hide hr hx).2 (by simpa using hk)

/-- What is needed of the array collections: the hidden microphones are the only difference. -/
structure CollRel (hid : String → Bool) (cfg : SimCfg R IR F S A P D O) (upd : A' → Nat → Except PyErr A')
    (path : A' → String → String → Except PyErr IR) (RA : A → A' → Prop) : Prop where
  upd : ∀ a a' a1 n, RA a a' → cfg.arrUpdate a n = .ok a1 → ∃ a1', upd a' n = .ok a1' ∧ RA a1 a1'
  path : ∀ a a' s m h, RA a a' → hid m = false → cfg.arrPath a s m = .ok h → path a' s m = .ok h

theorem createFilters_hide (h : Hidden hid cfg) (hc : CollRel hid cfg upd path RA) {arr : A} {arr' : A'} (ha : RA arr arr')
    {f0 fs : String → String → F} (hs : cfg.createFilters arr f0 = .ok fs) :
    ∃ fs' : String → String → F, (cfg.without hid upd path).createFilters arr' f0 = .ok fs' ∧ ∀ s m, hid m = false → fs s m = fs' s m := by
  unfold SimCfg.createFilters at hs ⊢
  have e : (cfg.without hid upd path).arrays = keptArrays hid cfg.arrays := rfl
  rw [e, combosOf_kept h]
  refine foldlM_hide (fun fs fs' : String → String → F => ∀ s m, hid m = false → fs s m = fs' s m) (fun p : ArrInfo × ArrInfo => !hid p.2.name)
    (combosOf cfg.arrays) (fun _ _ _ => rfl) ?_ ?_ hs
  · intro p _ hk a b a1 hr hx
    have hk : hid p.2.name = false := by simpa using hk
    split at hx
    · cases hx
    · rename_i ir hir
      cases hx
      have hp : (cfg.without hid upd path).arrPath arr' p.1.name p.2.name = .ok ir := hc.path _ _ _ _ _ ha hk hir
      rw [hp]
      refine ⟨_, rfl, fun s m hm => ?_⟩
      have e2 : (cfg.without hid upd path).filt = cfg.filt := rfl
      rw [e2]
      dsimp only
      rw [hr s m hm]
  · intro p _ hk a b a1 hr hx
    have hk : hid p.2.name = true := by simpa using hk
    split at hx
    · cases hx
    · cases hx
      intro s m hm
      dsimp only
      rw [if_neg]
      · exact hr s m hm
      · rintro ⟨-, rfl⟩
        rw [hk] at hm; cases hm

theorem prepSource_hide {num : Nat} {a : ArrInfo} (ha : hid a.name = false) {e e1 : Eng (Sigs R) F S A P}
    {e' : Eng (Sigs R) F S A' P} (hr : EngRel hid RA e e') (hx : cfg.prepSource num e a = .ok e1) :
    ∃ e1', (cfg.without hid upd path).prepSource num e' a = .ok e1' ∧ EngRel hid RA e1 e1' := by
  unfold SimCfg.prepSource at hx ⊢
  have e0 : (cfg.without hid upd path).srcGet = cfg.srcGet := rfl
  have e2 : (cfg.without hid upd path).B = cfg.B := rfl
  rw [e0, e2, ← hr.srcs]
  split at hx
  · cases hx
  · rename_i s' v hs
    split at hx
    · cases hx
    · rename_i sig hsig
      obtain ⟨sig', h1, h2⟩ := (sigAssign_hide hr.sig hsig).1 ha
      rw [h1]
      cases hx
      exact ⟨_, rfl, ⟨h2, by simp only [hr.srcs], hr.filts, hr.arr, hr.proc⟩⟩

theorem stepSource_hide {i : Int} {a : ArrInfo} (ha : hid a.name = false) {e e1 : Eng (Sigs R) F S A P}
    {e' : Eng (Sigs R) F S A' P} (hr : EngRel hid RA e e') (hx : cfg.stepSource i e a = .ok e1) :
    ∃ e1', (cfg.without hid upd path).stepSource i e' a = .ok e1' ∧ EngRel hid RA e1 e1' := by
  unfold SimCfg.stepSource at hx ⊢
  have e0 : (cfg.without hid upd path).srcGet = cfg.srcGet := rfl
  rw [e0, ← hr.srcs]
  split at hx
  · cases hx
  · rename_i s' v hs
    split at hx
    · cases hx
    · rename_i sig hsig
      obtain ⟨sig', h1, h2⟩ := (sigAssign_hide hr.sig hsig).1 ha
      rw [h1]
      cases hx
      exact ⟨_, rfl, ⟨h2, by simp only [hr.srcs], hr.filts, hr.arr, hr.proc⟩⟩

/-- The common part of `prepPair` and `stepPair`. -/
def pairWith [Add R] (cfg : SimCfg R IR F S A P D O) (i j i' : Int) (e : Eng (Sigs R) F S A P) (p : ArrInfo × ArrInfo) :
    Except PyErr (Eng (Sigs R) F S A P) :=
  match sigGet e.sig p.1.name i j with
  | .error x => .error x
  | .ok x =>
    match cfg.filt.process (e.filts p.1.name p.2.name) x with
    | .error x => .error x
    | .ok (f', y) =>
      match sigAdd e.sig p.2.name i' j y with
      | .error x => .error x
      | .ok sig =>
        match (if cfg.contrib then
            sigAssign sig (contribName p.1 p.2) i j y else .ok sig) with
        | .error x => .error x
        | .ok sig => .ok { e with
            sig := sig
            filts := fun s m => if s = p.1.name ∧ m = p.2.name then f' else e.filts s m }

theorem pairWith_hide [Add R] (h : Hidden hid cfg) {i j i' : Int} {p : ArrInfo × ArrInfo} (hp : p ∈ combosOf cfg.arrays)
    {e e1 : Eng (Sigs R) F S A P} {e' : Eng (Sigs R) F S A' P} (hr : EngRel hid RA e e')
    (hx : pairWith cfg i j i' e p = .ok e1) :
    (hid p.2.name = false → ∃ e1', pairWith (cfg.without hid upd path) i j i' e' p = .ok e1' ∧ EngRel hid RA e1 e1') ∧
    (hid p.2.name = true → EngRel hid RA e1 e') := by
  have hsrc := h.src hp
  unfold pairWith at hx
  cases hg : sigGet e.sig p.1.name i j with
  | error x => rw [hg] at hx; cases hx
  | ok x =>
    rw [hg] at hx
    have hg' : sigGet e'.sig p.1.name i j = .ok x := by
      unfold sigGet at hg ⊢
      rw [← hr.sig _ hsrc]; exact hg
    dsimp only at hx
    cases hf : cfg.filt.process (e.filts p.1.name p.2.name) x with
    | error x => rw [hf] at hx; cases hx
    | ok q =>
      obtain ⟨f', y⟩ := q
      rw [hf] at hx
      dsimp only at hx
      cases ha : sigAdd e.sig p.2.name i' j y with
      | error x => rw [ha] at hx; cases hx
      | ok sig =>
        rw [ha] at hx
        dsimp only at hx
        cases hw : (if cfg.contrib then sigAssign sig (contribName p.1 p.2) i j y else .ok sig) with
        | error x => rw [hw] at hx; cases hx
        | ok sig2 =>
          rw [hw] at hx
          cases hx
          constructor
          · intro hk
            unfold pairWith
            rw [hg']
            dsimp only
            have e0 : (cfg.without hid upd path).filt = cfg.filt := rfl
            have e2 : (if (cfg.without hid upd path).contrib then
              (fun sig => sigAssign sig (contribName p.1 p.2) i j y) else fun sig => (.ok sig : Except PyErr (Sigs R))) =
              if cfg.contrib then (fun sig => sigAssign sig (contribName p.1 p.2) i j y) else fun sig => .ok sig := rfl
            rw [e0, ← hr.filts _ _ hk, hf]
            dsimp only
            obtain ⟨sig', h1, h2⟩ := (sigAdd_hide hr.sig ha).1 hk
            rw [h1]
            dsimp only
            obtain ⟨sig2', h3, h4⟩ : ∃ sig2', (if (cfg.without hid upd path).contrib then
                sigAssign sig' (contribName p.1 p.2) i j y else .ok sig') = .ok sig2' ∧ SameOff hid sig2 sig2' := by
              cases hc : cfg.contrib with
              | false =>
                have hc' : (cfg.without hid upd path).contrib = false := hc
                rw [hc] at hw
                rw [hc']
                cases hw
                exact ⟨sig', rfl, h2⟩
              | true =>
                have hc' : (cfg.without hid upd path).contrib = true := hc
                rw [hc] at hw
                rw [hc']
                exact (sigAssign_hide h2 hw).1 (by rw [h.contrib hc p hp]; exact hk)
            rw [h3]
            refine ⟨_, rfl, ⟨h4, hr.srcs, fun s m hm => ?_, hr.arr, hr.proc⟩⟩
            dsimp only
            rw [hr.filts s m hm]
          · intro hk
            refine ⟨?_, hr.srcs, fun s m hm => ?_, hr.arr, hr.proc⟩
            · have h2 := (sigAdd_hide hr.sig ha).2 hk
              cases hc : cfg.contrib with
              | false => rw [hc] at hw; cases hw; exact h2
              | true =>
                rw [hc] at hw
                exact (sigAssign_hide h2 hw).2 (by rw [h.contrib hc p hp]; exact hk)
            · dsimp only
              rw [if_neg]
              · exact hr.filts s m hm
              · rintro ⟨-, rfl⟩
                rw [hk] at hm; cases hm

theorem stepUpdate_hide (hc : CollRel hid cfg upd path RA) {p : ArrInfo × ArrInfo}
    {e e1 : Eng (Sigs R) F S A P} {e' : Eng (Sigs R) F S A' P} (hr : EngRel hid RA e e')
    (hx : cfg.stepUpdate e p = .ok e1) :
    (hid p.2.name = false → ∃ e1', (cfg.without hid upd path).stepUpdate e' p = .ok e1' ∧ EngRel hid RA e1 e1') ∧
    (hid p.2.name = true → EngRel hid RA e1 e') := by
  unfold SimCfg.stepUpdate at hx ⊢
  split at hx
  · rename_i hd
    rw [if_pos hd]
    split at hx
    · cases hx
    · rename_i ir hir
      split at hx
      · cases hx
      · rename_i f' hf
        cases hx
        constructor
        · intro hk
          have hp : (cfg.without hid upd path).arrPath e'.arr p.1.name p.2.name = .ok ir := hc.path _ _ _ _ _ hr.arr hk hir
          have e0 : (cfg.without hid upd path).filt = cfg.filt := rfl
          rw [hp, e0]
          dsimp only
          rw [← hr.filts _ _ hk, hf]
          refine ⟨_, rfl, ⟨hr.sig, hr.srcs, fun s m hm => ?_, hr.arr, hr.proc⟩⟩
          dsimp only
          rw [hr.filts s m hm]
        · intro hk
          refine ⟨hr.sig, hr.srcs, fun s m hm => ?_, hr.arr, hr.proc⟩
          dsimp only
          rw [if_neg]
          · exact hr.filts s m hm
          · rintro ⟨-, rfl⟩
            rw [hk] at hm; cases hm
  · rename_i hd
    rw [if_neg hd]
    cases hx
    exact ⟨fun _ => ⟨_, rfl, hr⟩, fun _ => hr⟩

theorem prepare_hide [Add R] (h : Hidden hid cfg) {e e1 : Eng (Sigs R) F S A P} {e' : Eng (Sigs R) F S A' P}
    (hr : EngRel hid RA e e') (hx : cfg.prepare e = .ok e1) :
    ∃ e1', (cfg.without hid upd path).prepare e' = .ok e1' ∧ EngRel hid RA e1 e1' := by
  unfold SimCfg.prepare at hx ⊢
  have ea : (cfg.without hid upd path).arrays = keptArrays hid cfg.arrays := rfl
  have en : (cfg.without hid upd path).prepNum = cfg.prepNum := rfl
  rw [ea, en, freeOf_kept h, combosOf_kept h]
  cases h1 : (freeOf cfg.arrays).foldlM (cfg.prepSource cfg.prepNum) e with
  | error x => rw [h1] at hx; cases hx
  | ok e2 =>
    rw [h1] at hx
    obtain ⟨e2', h2, hr2⟩ := foldlM_hide (f' := (cfg.without hid upd path).prepSource cfg.prepNum) (EngRel hid RA)
      (fun _ : ArrInfo => true) (freeOf cfg.arrays) hr
      (fun a ha _ b b' b1 hb hb1 => prepSource_hide (h.free ha) hb hb1) (fun _ _ hk => by cases hk) h1
    rw [List.filter_eq_self.2 fun _ _ => rfl] at h2
    rw [h2]
    dsimp only at hx ⊢
    refine foldlM_hide (EngRel hid RA) (fun p : ArrInfo × ArrInfo => !hid p.2.name) (combosOf cfg.arrays) hr2 ?_ ?_ hx
    · intro p hp hk a b a1 hab ha1
      exact (pairWith_hide h hp hab (i := (cfg.B : Int) - cfg.prepNum) (j := cfg.B) (i' := 0) ha1).1 (by simpa using hk)
    · intro p hp hk a b a1 hab ha1
      exact (pairWith_hide (upd := upd) (path := path) h hp hab (i := (cfg.B : Int) - cfg.prepNum) (j := cfg.B) (i' := 0) ha1).2
        (by simpa using hk)

theorem propagate_hide [Add R] (h : Hidden hid cfg) (hc : CollRel hid cfg upd path RA) {i : Int}
    {e e1 : Eng (Sigs R) F S A P} {e' : Eng (Sigs R) F S A' P}
    (hr : EngRel hid RA e e') (hx : cfg.propagate i e = .ok e1) :
    ∃ e1', (cfg.without hid upd path).propagate i e' = .ok e1' ∧ EngRel hid RA e1 e1' := by
  unfold SimCfg.propagate at hx ⊢
  have ea : (cfg.without hid upd path).arrays = keptArrays hid cfg.arrays := rfl
  rw [ea, freeOf_kept h, combosOf_kept h]
  cases h1 : (freeOf cfg.arrays).foldlM (cfg.stepSource i) e with
  | error x => rw [h1] at hx; cases hx
  | ok e2 =>
    rw [h1] at hx
    obtain ⟨e2', h2, hr2⟩ := foldlM_hide (f' := (cfg.without hid upd path).stepSource i) (EngRel hid RA)
      (fun _ : ArrInfo => true) (freeOf cfg.arrays) hr
      (fun a ha _ b b' b1 hb hb1 => stepSource_hide (h.free ha) hb hb1) (fun _ _ hk => by cases hk) h1
    rw [List.filter_eq_self.2 fun _ _ => rfl] at h2
    rw [h2]
    dsimp only at hx ⊢
    cases h3 : (combosOf cfg.arrays).foldlM cfg.stepUpdate e2 with
    | error x => rw [h3] at hx; cases hx
    | ok e3 =>
      rw [h3] at hx
      obtain ⟨e3', h4, hr3⟩ := foldlM_hide (f' := (cfg.without hid upd path).stepUpdate) (EngRel hid RA)
        (fun p : ArrInfo × ArrInfo => !hid p.2.name) (combosOf cfg.arrays) hr2
        (fun p _ hk a b a1 hab ha1 => (stepUpdate_hide hc hab ha1).1 (by simpa using hk))
        (fun p _ hk a b a1 hab ha1 => (stepUpdate_hide hc hab ha1).2 (by simpa using hk)) h3
      rw [h4]
      dsimp only at hx ⊢
      refine foldlM_hide (EngRel hid RA) (fun p : ArrInfo × ArrInfo => !hid p.2.name) (combosOf cfg.arrays) hr3 ?_ ?_ hx
      · intro p hp hk a b a1 hab ha1
        exact (pairWith_hide h hp hab (i := i) (j := i + 1) (i' := i) ha1).1 (by simpa using hk)
      · intro p hp hk a b a1 hab ha1
        exact (pairWith_hide (upd := upd) (path := path) h hp hab (i := i) (j := i + 1) (i' := i) ha1).2 (by simpa using hk)

theorem engine_hide [Add R] (h : Hidden hid cfg) (hc : CollRel hid cfg upd path RA) {n : Nat} {i : Int}
    {e e1 : Eng (Sigs R) F S A P} {e' : Eng (Sigs R) F S A' P}
    (hr : EngRel hid RA e e') (hx : cfg.engine n i e = .ok e1) :
    ∃ e1', (cfg.without hid upd path).engine n i e' = .ok e1' ∧ EngRel hid RA e1 e1' := by
  unfold SimCfg.engine at hx ⊢
  have eu : (cfg.without hid upd path).arrUpdate = upd := rfl
  rw [eu]
  cases h1 : cfg.arrUpdate e.arr n with
  | error x => rw [h1] at hx; cases hx
  | ok arr =>
    rw [h1] at hx
    obtain ⟨arr', h2, hra⟩ := hc.upd _ _ _ _ hr.arr h1
    rw [h2]
    dsimp only at hx ⊢
    cases h3 : cfg.callProc n i { e with arr := arr } with
    | error x => rw [h3] at hx; cases hx
    | ok e2 =>
      rw [h3] at hx
      dsimp only at hx
      have hcall : ∃ e2', (cfg.without hid upd path).callProc n i { e' with arr := arr' } = .ok e2' ∧ EngRel hid RA e2 e2' := by
        unfold SimCfg.callProc at h3 ⊢
        have ep : (cfg.without hid upd path).proc = cfg.proc := rfl
        rw [ep]
        cases hp : cfg.proc with
        | none =>
          rw [hp] at h3
          cases h3
          exact ⟨_, rfl, ⟨hr.sig, hr.srcs, hr.filts, hra, hr.proc⟩⟩
        | some p =>
          rw [hp] at h3
          dsimp only at h3 ⊢
          split at h3
          · cases h3
          · rename_i hb
            rw [if_neg hb]
            split at h3
            · rename_i hn
              rw [if_pos hn]
              split at h3
              · cases h3
              · rename_i x1 S1 hpr
                obtain ⟨S1', h4, h5⟩ := h.proc p hp _ _ _ _ _ _ hr.sig hpr
                rw [← hr.proc, h4]
                cases h3
                exact ⟨_, rfl, ⟨h5, hr.srcs, hr.filts, hra, rfl⟩⟩
            · rename_i hn
              rw [if_neg hn]
              cases h3
              exact ⟨_, rfl, ⟨hr.sig, hr.srcs, hr.filts, hra, hr.proc⟩⟩
      obtain ⟨e2', h4, hr2⟩ := hcall
      rw [h4]
      exact propagate_hide h hc hr2 hx

/-- The diagnostics do not use the hidden signals. -/
def Blind (hid : String → Bool) (ops : DiagOps R P D O) (Pd : D → Prop) : Prop :=
  ∀ d p S S' iv gv d1, Pd d → SameOff hid S S' → ops.save d p S iv gv = .ok d1 → ops.save d p S' iv gv = .ok d1 ∧ Pd d1

theorem saveOne_hide {ops : DiagOps R P D O} {Pd : D → Prop} (hb : Blind hid ops Pd) {p : Option P} {S S' : Sigs R}
    (hS : SameOff hid S S') {idx glob : Int} {last : Bool} {d d1 : Diag D} (hd : Pd d.data)
    (h : saveOne ops p S idx glob last d = .ok d1) : saveOne ops p S' idx glob last d = .ok d1 ∧ Pd d1.data := by
  have aux : ∀ (iv gv : Int × Int) (y : Except PyErr IvCounter), (match ops.save d.data p S iv gv with
      | .error x => .error x
      | .ok data =>
        match y with
        | .error x => .error x
        | .ok c => .ok { d with data := data, saveAt := c } : Except PyErr (Diag D)) = .ok d1 →
      (match ops.save d.data p S' iv gv with
      | .error x => .error x
      | .ok data =>
        match y with
        | .error x => .error x
        | .ok c => .ok { d with data := data, saveAt := c } : Except PyErr (Diag D)) = .ok d1 ∧ Pd d1.data := by
    intro iv gv y hy
    cases hs : ops.save d.data p S iv gv with
    | error x => rw [hs] at hy; cases hy
    | ok data =>
      rw [hs] at hy
      obtain ⟨h1, h2⟩ := hb _ _ _ _ _ _ _ hd hS hs
      rw [h1]
      dsimp only at hy ⊢
      cases y with
      | error x => cases hy
      | ok c => cases hy; exact ⟨rfl, h2⟩
  unfold saveOne at h ⊢
  cases hs : d.saveAt.start with
  | none =>
    rw [hs] at h
    cases h
    exact ⟨rfl, hd⟩
  | some s =>
    cases he : d.saveAt.stop with
    | none =>
      rw [hs, he] at h
      dsimp only at h ⊢
      split at h
      · rename_i hc
        rw [if_pos hc]
        exact aux _ _ _ h
      · rename_i hc
        rw [if_neg hc]
        cases h
        exact ⟨rfl, hd⟩
    | some e =>
      rw [hs, he] at h
      dsimp only at h ⊢
      split at h
      · rename_i hc
        rw [if_pos hc]
        exact aux _ _ _ h
      · rename_i hc
        rw [if_neg hc]
        split at h
        · rename_i hc2
          rw [if_pos hc2]
          exact aux _ _ _ h
        · rename_i hc2
          rw [if_neg hc2]
          cases h
          exact ⟨rfl, hd⟩

theorem saveData_hide {ops : DiagOps R P D O} {Pd : D → Prop} (hb : Blind hid ops Pd) {p : Option P} {S S' : Sigs R}
    (hS : SameOff hid S S') {idx glob : Int} {last : Bool} : ∀ {ds ds1 : List (Diag D)}, (∀ d ∈ ds, Pd d.data) →
    saveData ops p S idx glob last ds = .ok ds1 → saveData ops p S' idx glob last ds = .ok ds1 ∧ ∀ d ∈ ds1, Pd d.data
  | [], ds1, _, h => by
    simp only [saveData, List.mapM_nil] at h
    cases h
    exact ⟨rfl, by simp⟩
  | d :: ds, ds1, hd, h => by
    simp only [saveData, List.mapM_cons] at h
    cases h1 : saveOne ops p S idx glob last d with
    | error x => rw [h1] at h; cases h
    | ok d1 =>
      rw [h1] at h
      cases h2 : ds.mapM (saveOne ops p S idx glob last) with
      | error x => rw [h2] at h; cases h
      | ok ds2 =>
        rw [h2] at h
        cases h
        obtain ⟨a1, a2⟩ := saveOne_hide hb hS (hd d (by simp)) h1
        obtain ⟨b1, b2⟩ := saveData_hide hb hS (ds := ds) (ds1 := ds2) (fun x hx => hd x (by simp [hx])) h2
        constructor
        · simp only [saveData, List.mapM_cons] at b1 ⊢
          rw [a1, b1]; rfl
        · intro x hx
          rcases List.mem_cons.1 hx with rfl | hx
          · exact a2
          · exact b2 x hx

theorem exportRound_data {ops : DiagOps R P D O} {Pd : D → Prop} : ∀ {ds ds1 : List (Diag D)} {ev : List (Event O)},
    (∀ d ∈ ds, Pd d.data) → exportRound ops ds = .ok (ds1, ev) → ∀ d ∈ ds1, Pd d.data
  | [], ds1, ev, _, h => by
    simp only [exportRound] at h
    cases h
    simp
  | d :: ds, ds1, ev, hd, h => by
    simp only [exportRound] at h
    split at h
    · cases h
    · rename_i d1 ev1 h1
      split at h
      · cases h
      · rename_i ds2 evs1 h2
        cases h
        intro x hx
        rcases List.mem_cons.1 hx with rfl | hx
        · have : x.data = d.data := by
            unfold exportOne at h1
            split at h1
            · split at h1
              · cases h1
              · split at h1
                · cases h1
                · cases h1; rfl
            · cases h1; rfl
          rw [this]
          exact hd d (by simp)
        · exact exportRound_data (fun x hx => hd x (by simp [hx])) h2 x hx

theorem dispatchLoop_data {ops : DiagOps R P D O} {Pd : D → Prop} : ∀ (fuel : Nat) {ds ds1 : List (Diag D)}
    {log log1 : List (Event O)}, (∀ d ∈ ds, Pd d.data) → dispatchLoop ops fuel ds log = .ok (ds1, log1) → ∀ d ∈ ds1, Pd d.data
  | 0, ds, ds1, log, log1, hd, h => by
    simp only [dispatchLoop] at h
    split at h
    · cases h
    · cases h; exact hd
  | fuel + 1, ds, ds1, log, log1, hd, h => by
    simp only [dispatchLoop] at h
    split at h
    · split at h
      · cases h
      · rename_i ds2 ev h2
        exact dispatchLoop_data fuel (exportRound_data hd h2) h
    · cases h; exact hd

theorem dispatch_data {ops : DiagOps R P D O} {Pd : D → Prop} {pn : Bool} {ds ds1 : List (Diag D)}
    {log log1 : List (Event O)} (hd : ∀ d ∈ ds, Pd d.data) (h : dispatch ops pn ds log = .ok (ds1, log1)) :
    ∀ d ∈ ds1, Pd d.data := by
  unfold dispatch at h
  split at h
  · cases h; exact hd
  · exact dispatchLoop_data _ hd h

/-- Two states that agree outside the hidden names. -/
structure StRel (hid : String → Bool) (RA : A → A' → Prop) (Pd : D → Prop) (st : SimSt R F S A P D O)
    (st' : SimSt R F S A' P D O) : Prop where
  eng : EngRel hid RA st.eng st'.eng
  idx : st.idx = st'.idx
  n : st.n = st'.n
  diags : st.diags = st'.diags
  log : st.log = st'.log
  data : ∀ d ∈ st.diags, Pd d.data

theorem step_hide [Zero R] [Add R] (h : Hidden hid cfg) (hc : CollRel hid cfg upd path RA) {Pd : D → Prop}
    (hb : Blind hid cfg.diag Pd) {st st1 : SimSt R F S A P D O} {st' : SimSt R F S A' P D O} (hr : StRel hid RA Pd st st')
    (hx : cfg.step st = .ok st1) : ∃ st1', (cfg.without hid upd path).step st' = .ok st1' ∧ StRel hid RA Pd st1 st1' := by
  unfold SimCfg.step at hx ⊢
  rw [← hr.n, ← hr.idx, ← hr.diags, ← hr.log]
  cases h1 : cfg.engine st.n st.idx st.eng with
  | error x => rw [h1] at hx; cases hx
  | ok e =>
    rw [h1] at hx
    obtain ⟨e', h2, hr2⟩ := engine_hide (upd := upd) (path := path) h hc hr.eng h1
    rw [h2]
    dsimp only at hx ⊢
    have e1 : (cfg.without hid upd path).lastBlock st.idx = cfg.lastBlock st.idx := rfl
    have e2 : (if (cfg.without hid upd path).proc.isSome then some e'.proc else none) =
      if cfg.proc.isSome then some e'.proc else none := rfl
    have e3 : (cfg.without hid upd path).diag = cfg.diag := rfl
    have e4 : (cfg.without hid upd path).plotNone = cfg.plotNone := rfl
    have e5 : (cfg.without hid upd path).B = cfg.B := rfl
    have e6 : (cfg.without hid upd path).C = cfg.C := rfl
    rw [e1, e2, e3, e4, e5, e6, ← hr2.proc]
    cases h3 : saveData cfg.diag (if cfg.proc.isSome then some e.proc else none) e.sig st.idx st.n (cfg.lastBlock st.idx) st.diags with
    | error x => rw [h3] at hx; cases hx
    | ok ds =>
      rw [h3] at hx
      obtain ⟨h4, h5⟩ := saveData_hide hb hr2.sig hr.data h3
      rw [h4]
      dsimp only at hx ⊢
      cases h6 : dispatch cfg.diag cfg.plotNone ds st.log with
      | error x => rw [h6] at hx; cases hx
      | ok r =>
        obtain ⟨ds', log⟩ := r
        rw [h6] at hx
        cases hx
        refine ⟨_, rfl, ⟨?_, rfl, rfl, rfl, rfl, dispatch_data h5 h6⟩⟩
        dsimp only
        split
        · exact ⟨resetSigs_hide hr2.sig _ _, hr2.srcs, hr2.filts, hr2.arr, rfl⟩
        · exact hr2

theorem steps_hide [Zero R] [Add R] (h : Hidden hid cfg) (hc : CollRel hid cfg upd path RA) {Pd : D → Prop}
    (hb : Blind hid cfg.diag Pd) : ∀ (k : Nat) {st st1 : SimSt R F S A P D O} {st' : SimSt R F S A' P D O},
    StRel hid RA Pd st st' → cfg.steps k st = .ok st1 →
    ∃ st1', (cfg.without hid upd path).steps k st' = .ok st1' ∧ StRel hid RA Pd st1 st1'
  | 0, st, st1, st', hr, hx => by cases hx; exact ⟨_, rfl, hr⟩
  | k + 1, st, st1, st', hr, hx => by
    unfold SimCfg.steps at hx ⊢
    cases h1 : cfg.steps k st with
    | error x => rw [h1] at hx; cases hx
    | ok s =>
      rw [h1] at hx
      obtain ⟨s', h2, hr2⟩ := steps_hide h hc hb k hr h1
      rw [h2]
      exact step_hide h hc hb hr2 hx

theorem run_hide [Zero R] [Add R] (h : Hidden hid cfg) (hc : CollRel hid cfg upd path RA) {Pd : D → Prop}
    (hb : Blind hid cfg.diag Pd) {srcs : String → S} {arr : A} {arr' : A'} (ha : RA arr arr') {proc : P} {f0 : F}
    {ds : List (Diag D)} (hd : ∀ d ∈ ds, Pd d.data) {fin : SimSt R F S A P D O}
    (hx : cfg.run srcs arr proc f0 ds = .ok fin) :
    ∃ fin', (cfg.without hid upd path).run srcs arr' proc f0 ds = .ok fin' ∧ StRel hid RA Pd fin fin' := by
  unfold SimCfg.run at hx ⊢
  cases h1 : cfg.init srcs arr proc f0 ds with
  | error x => rw [h1] at hx; cases hx
  | ok st =>
    rw [h1] at hx
    have hinit : ∃ st', (cfg.without hid upd path).init srcs arr' proc f0 ds = .ok st' ∧ StRel hid RA Pd st st' := by
      unfold SimCfg.init at h1 ⊢
      cases h2 : cfg.createSignals with
      | error x => rw [h2] at h1; cases h1
      | ok sig =>
        rw [h2] at h1
        obtain ⟨sig', h3, h4⟩ := createSignals_hide (upd := upd) (path := path) h h2
        rw [h3]
        dsimp only at h1 ⊢
        cases h5 : cfg.createFilters arr (fun _ _ => f0) with
        | error x => rw [h5] at h1; cases h1
        | ok fs =>
          rw [h5] at h1
          obtain ⟨fs', h6, h7⟩ := createFilters_hide h hc ha h5
          rw [h6]
          dsimp only at h1 ⊢
          cases h8 : cfg.prepare { sig := sig, srcs := srcs, filts := fs, arr := arr, proc := proc } with
          | error x => rw [h8] at h1; cases h1
          | ok e =>
            rw [h8] at h1
            obtain ⟨e', h9, h10⟩ := prepare_hide (upd := upd) (path := path) h
              (e' := { sig := sig', srcs := srcs, filts := fs', arr := arr', proc := proc }) (RA := RA)
              ⟨h4, rfl, h7, ha, rfl⟩ h8
            rw [h9]
            cases h1
            exact ⟨_, rfl, ⟨h10, rfl, rfl, rfl, rfl, hd⟩⟩
    obtain ⟨st', h2, hr⟩ := hinit
    rw [h2]
    dsimp only at hx ⊢
    have e1 : (cfg.without hid upd path).tot + (cfg.without hid upd path).mbs = cfg.tot + cfg.mbs := rfl
    have e3 : (cfg.without hid upd path).diag = cfg.diag := rfl
    have e4 : (cfg.without hid upd path).plotNone = cfg.plotNone := rfl
    rw [e1, e3, e4]
    cases h3 : cfg.steps (cfg.tot + cfg.mbs) st with
    | error x => rw [h3] at hx; cases hx
    | ok s =>
      rw [h3] at hx
      obtain ⟨s', h4, hr2⟩ := steps_hide (upd := upd) (path := path) h hc hb _ hr h3
      rw [h4]
      dsimp only at hx ⊢
      rw [← hr2.diags, ← hr2.log]
      cases h6 : dispatch cfg.diag cfg.plotNone s.diags s.log with
      | error x => rw [h6] at hx; cases hx
      | ok r =>
        obtain ⟨ds', log⟩ := r
        rw [h6] at hx
        cases hx
        exact ⟨_, rfl, ⟨hr2.eng, hr2.idx, hr2.n, rfl, rfl, dispatch_data hr2.data h6⟩⟩

end
end Verif

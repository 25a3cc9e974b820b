/-
Taking silent source arrays away from a run.
-/
import Verif.Lemmas.Hide
import Verif.Lemmas.Engine
import Verif.Model.Fir
import Verif.Spec.Mute
namespace Verif

section
variable {R : Type}

theorem pyClamp_le (n : Nat) (i : Int) : pyClamp n i ≤ n := by
  unfold pyClamp
  split
  · omega
  · exact Nat.min_le_right _ _

theorem broadcastRow_spec {v w : List R} {n : Nat} (h : broadcastRow v n = some w) : w.length = n ∧ ∀ x ∈ w, x ∈ v := by
  unfold broadcastRow at h
  split at h
  · rename_i e
    cases h
    exact ⟨e, fun _ hx => hx⟩
  · split at h
    · cases h
      exact ⟨by simp, fun x hx => by simp [(List.mem_replicate.1 hx).2]⟩
    · cases h

theorem broadcastChan_spec {v w : Mat R} {n : Nat} (h : broadcastChan v n = some w) : w.length = n ∧ ∀ x ∈ w, x ∈ v := by
  unfold broadcastChan at h
  split at h
  · rename_i e
    cases h
    exact ⟨e, fun _ hx => hx⟩
  · split at h
    · cases h
      exact ⟨by simp, fun x hx => by simp [(List.mem_replicate.1 hx).2]⟩
    · cases h

theorem zipAdd_zero [AddMonoid R] : ∀ (l w : List R), l.length = w.length → (∀ x ∈ w, x = 0) → List.zipWith (· + ·) l w = l
  | [], [], _, _ => rfl
  | [], _ :: _, h, _ => by simp at h
  | _ :: _, [], h, _ => by simp at h
  | a :: l, b :: w, h, hz => by
    rw [List.zipWith_cons_cons, zipAdd_zero l w (by simpa using h) (fun x hx => hz x (by simp [hx])), hz b (by simp), add_zero]

theorem pyAddAssign_zero [AddMonoid R] {r r' v : List R} {i j : Int} (hv : ∀ x ∈ v, x = 0) (h : pyAddAssign r i j v = some r') :
    r' = r := by
  unfold pyAddAssign at h
  dsimp only at h
  have ha := pyClamp_le r.length i
  have hb : max (pyClamp r.length i) (pyClamp r.length j) ≤ r.length := Nat.max_le.2 ⟨ha, pyClamp_le _ _⟩
  have hab : pyClamp r.length i ≤ max (pyClamp r.length i) (pyClamp r.length j) := Nat.le_max_left _ _
  generalize pyClamp r.length i = a at *
  generalize max a (pyClamp r.length j) = b at *
  cases hw : broadcastRow v (b - a) with
  | none => rw [hw] at h; cases h
  | some w =>
    rw [hw] at h
    obtain ⟨h1, h2⟩ := broadcastRow_spec hw
    have h := Option.some.inj h
    dsimp only at h
    rw [zipAdd_zero _ _ (by rw [List.length_drop, List.length_take]; omega) (fun x hx => hv x (h2 x hx))] at h
    rw [← h]
    have e : List.take a r = List.take a (List.take b r) := by rw [List.take_take, Nat.min_eq_left hab]
    rw [e, List.take_append_drop, List.take_append_drop]

theorem mapM_fst {f : List R → List R → Option (List R)} : ∀ (m w m' : Mat R), w.length = m.length →
    (∀ r, ∀ v ∈ w, ∀ r', f r v = some r' → r' = r) → ((List.zip m w).mapM fun p => f p.1 p.2) = some m' → m' = m
  | [], _, m', _, _, h => by
    simp at h
    exact h
  | _ :: _, [], _, hl, _, _ => by simp at hl
  | r :: m, v :: w, m', hl, hf, h => by
    rw [List.zip_cons_cons, List.mapM_cons] at h
    cases h1 : f r v with
    | none => rw [h1] at h; cases h
    | some r1 =>
      rw [h1] at h
      cases h2 : ((List.zip m w).mapM fun p => f p.1 p.2) with
      | none => rw [h2] at h; cases h
      | some m1 =>
        rw [h2] at h
        cases h
        rw [hf r v (by simp) r1 h1, mapM_fst m w m1 (by simpa using hl) (fun r x hx => hf r x (by simp [hx])) h2]

theorem sigAdd_zero [AddMonoid R] {S S1 : Sigs R} {k : String} {i j : Int} {v : Mat R} (hv : Zeros v)
    (h : sigAdd S k i j v = .ok S1) : S1 = S := by
  unfold sigAdd at h
  split at h
  · cases h
  · rename_i m hm
    split at h
    · cases h
    · rename_i m' hm'
      cases h
      have : m' = m := by
        unfold pyAddAssign2 pyRows at hm'
        cases hw : broadcastChan v m.length with
        | none => rw [hw] at hm'; cases hm'
        | some w =>
          rw [hw] at hm'
          obtain ⟨h1, h2⟩ := broadcastChan_spec hw
          exact mapM_fst m w m' h1 (fun r x hx r' hr => pyAddAssign_zero (fun y hy => hv x (h2 x hx) y hy) hr) hm'
      subst this
      funext k'
      unfold Sigs.set
      split
      · rename_i e; rw [e, hm]
      · rfl

theorem mapM_zeros [Zero R] {f : List R → List R → Option (List R)} : ∀ (m w m' : Mat R), Zeros m → Zeros w →
    (∀ r v r', (∀ x ∈ r, x = 0) → (∀ x ∈ v, x = 0) → f r v = some r' → ∀ x ∈ r', x = 0) →
    ((List.zip m w).mapM fun p => f p.1 p.2) = some m' → Zeros m'
  | [], _, m', _, _, _, h => by
    simp at h
    subst h
    intro r hr
    cases hr
  | _ :: _, [], m', _, _, _, h => by
    simp at h
    subst h
    intro r hr
    cases hr
  | r :: m, v :: w, m', hm, hw, hf, h => by
    rw [List.zip_cons_cons, List.mapM_cons] at h
    cases h1 : f r v with
    | none => rw [h1] at h; cases h
    | some r1 =>
      rw [h1] at h
      cases h2 : ((List.zip m w).mapM fun p => f p.1 p.2) with
      | none => rw [h2] at h; cases h
      | some m1 =>
        rw [h2] at h
        cases h
        intro q hq
        rcases List.mem_cons.1 hq with rfl | hq
        · exact hf r v _ (hm r (by simp)) (hw v (by simp)) h1
        · exact mapM_zeros m w m1 (fun x hx => hm x (by simp [hx])) (fun x hx => hw x (by simp [hx])) hf h2 q hq

theorem pyAssign_zeros [Zero R] {r r' v : List R} {i j : Int} (hr : ∀ x ∈ r, x = 0) (hv : ∀ x ∈ v, x = 0)
    (h : pyAssign r i j v = some r') : ∀ x ∈ r', x = 0 := by
  unfold pyAssign at h
  dsimp only at h
  generalize max (pyClamp r.length i) (pyClamp r.length j) = b at *
  cases hw : broadcastRow v (b - pyClamp r.length i) with
  | none => rw [hw] at h; cases h
  | some w =>
    rw [hw] at h
    obtain ⟨h1, h2⟩ := broadcastRow_spec hw
    have h := Option.some.inj h
    rw [← h]
    intro x hx
    rw [List.mem_append, List.mem_append] at hx
    rcases hx with (hx | hx) | hx
    · exact hr x (List.mem_of_mem_take hx)
    · exact hv x (h2 x hx)
    · exact hr x (List.mem_of_mem_drop hx)

theorem pyAssign2_zeros [Zero R] {m m' v : Mat R} {i j : Int} (hm : Zeros m) (hv : Zeros v)
    (h : pyAssign2 m i j v = some m') : Zeros m' := by
  unfold pyAssign2 pyRows at h
  cases hw : broadcastChan v m.length with
  | none => rw [hw] at h; cases h
  | some w =>
    rw [hw] at h
    obtain ⟨h1, h2⟩ := broadcastChan_spec hw
    exact mapM_zeros m w m' hm (fun r hr => hv r (h2 r hr)) (fun r v r' h1 h2 h3 => pyAssign_zeros h1 h2 h3) h

/-- All hidden signals are zero. -/
def QuietSig [Zero R] (hid : String → Bool) (S : Sigs R) : Prop := ∀ k m, hid k = true → S k = some m → Zeros m

theorem QuietSig.set [Zero R] {hid : String → Bool} {S : Sigs R} (h : QuietSig hid S) {k : String} {v : Mat R}
    (hv : hid k = true → Zeros v) : QuietSig hid (S.set k v) := by
  intro k' m hk hm
  unfold Sigs.set at hm
  split at hm
  · rename_i e
    cases hm
    exact hv (by rw [← e]; exact hk)
  · exact h k' m hk hm

theorem sigAssign_quiet [Zero R] {hid : String → Bool} {S S1 : Sigs R} (h : QuietSig hid S) {k : String} {i j : Int} {v : Mat R}
    (hv : hid k = true → Zeros v) (hs : sigAssign S k i j v = .ok S1) : QuietSig hid S1 := by
  unfold sigAssign at hs
  split at hs
  · cases hs
  · rename_i m hm
    split at hs
    · cases hs
    · rename_i m' hm'
      cases hs
      exact h.set fun hk => pyAssign2_zeros (h k m hk hm) (hv hk) hm'

theorem sigAdd_quiet [Zero R] [Add R] {hid : String → Bool} {S S1 : Sigs R} (h : QuietSig hid S) {k : String} {i j : Int} {v : Mat R}
    (hk : hid k = false) (hs : sigAdd S k i j v = .ok S1) : QuietSig hid S1 := by
  unfold sigAdd at hs
  split at hs
  · cases hs
  · split at hs
    · cases hs
    · cases hs
      exact h.set fun hk' => by rw [hk] at hk'; cases hk'

theorem sigGet_quiet [Zero R] {hid : String → Bool} {S : Sigs R} (h : QuietSig hid S) {k : String} {i j : Int} {v : Mat R}
    (hk : hid k = true) (hs : sigGet S k i j = .ok v) : Zeros v := by
  unfold sigGet at hs
  split at hs
  · cases hs
  · rename_i m hm
    cases hs
    intro r hr x hx
    unfold pySlice2 at hr
    obtain ⟨r0, hr0, rfl⟩ := List.mem_map.1 hr
    unfold pySlice at hx
    exact h k m hk hm r0 hr0 x (List.mem_of_mem_take (List.mem_of_mem_drop hx))

theorem resetSigs_quiet [Zero R] {hid : String → Bool} {S : Sigs R} (h : QuietSig hid S) (B C : Nat) :
    QuietSig hid (resetSigs B C S) := by
  intro k m hk hm
  unfold resetSigs at hm
  cases hS : S k with
  | none => rw [hS] at hm; cases hm
  | some m0 =>
    rw [hS] at hm
    cases hm
    intro r hr x hx
    obtain ⟨r0, hr0, rfl⟩ := List.mem_map.1 hr
    rw [List.mem_append] at hx
    rcases hx with hx | hx
    · unfold pySliceFrom at hx
      exact h k m0 hk hS r0 hr0 x (List.mem_of_mem_drop hx)
    · exact (List.mem_replicate.1 hx).2

theorem createSignals_quiet [Zero R] {hid : String → Bool} {n : Nat} : ∀ (l : List (String × Nat)) {S S1 : Sigs R}, QuietSig hid S →
    l.foldlM (createSignal n) S = .ok S1 → QuietSig hid S1
  | [], S, S1, h, hx => by cases hx; exact h
  | q :: l, S, S1, h, hx => by
    rw [List.foldlM_cons] at hx
    cases h1 : createSignal n S q with
    | error x => rw [h1] at hx; cases hx
    | ok S2 =>
      rw [h1] at hx
      refine createSignals_quiet l ?_ hx
      unfold createSignal at h1
      split at h1
      · cases h1
      · cases h1
        refine h.set fun _ r hr x hx => ?_
        rw [(List.mem_replicate.1 hr).2] at hx
        exact (List.mem_replicate.1 hx).2

variable [NonUnitalNonAssocSemiring R]

/-- A filter whose past input is zero. -/
def Fir.Idle (f : Fir R) : Prop := Zeros f.hist

theorem getD_zeros {l : Mat R} (h : Zeros l) (k s : Nat) : (l.getD k []).getD s 0 = 0 := by
  rw [List.getD_eq_getElem?_getD, List.getD_eq_getElem?_getD]
  cases h1 : l[k]? with
  | none => simp
  | some r =>
    simp only [Option.getD_some]
    cases h2 : r[s]? with
    | none => rfl
    | some x => exact h r (List.mem_of_getElem? h1) x (List.mem_of_getElem? h2)

theorem firOut_zeros {h : IrMat R} {hist : List (List R)} (hz : Zeros hist) (m : Nat) : firOut h hist m = 0 := by
  unfold firOut
  refine List.sum_eq_zero fun x hx => ?_
  obtain ⟨s, -, rfl⟩ := List.mem_map.1 hx
  refine List.sum_eq_zero fun y hy => ?_
  obtain ⟨k, -, rfl⟩ := List.mem_map.1 hy
  rw [getD_zeros hz, mul_zero]

theorem colsOf_zeros {x : Mat R} (hx : Zeros x) (n : Nat) : Zeros (colsOf x n) := by
  intro r hr y hy
  unfold colsOf at hr
  obtain ⟨k, -, rfl⟩ := List.mem_map.1 hr
  obtain ⟨q, hq, rfl⟩ := List.mem_map.1 hy
  rw [List.getD_eq_getElem?_getD]
  cases h2 : q[k]? with
  | none => rfl
  | some z => exact hx q hq z (List.mem_of_getElem? h2)

theorem Fir.process_idle {f f' : Fir R} {x y : Mat R} (hf : f.Idle) (hx : Zeros x) (h : f.process x = .ok (f', y)) :
    f'.Idle ∧ Zeros y := by
  unfold Fir.process at h
  split at h
  · cases h
  · cases h
    have hc := colsOf_zeros hx (numCols x)
    constructor
    · intro r hr
      dsimp only at hr
      rw [List.mem_append, List.mem_reverse] at hr
      rcases hr with hr | hr
      · exact hc r hr
      · exact hf r hr
    · intro r hr z hz
      unfold matOf at hr
      obtain ⟨m, -, rfl⟩ := List.mem_map.1 hr
      obtain ⟨k, -, rfl⟩ := List.mem_map.1 hz
      refine firOut_zeros (fun r hr => ?_) m
      rw [List.mem_append, List.mem_reverse] at hr
      rcases hr with hr | hr
      · exact hc r (List.mem_of_mem_take hr)
      · exact hf r hr

end

section
variable {R S A A' P D O : Type} [NonUnitalNonAssocSemiring R]

/-- What is hidden: silent source arrays and, if contributions are saved, their contribution signals.  The processor
does not create or use the hidden signals and keeps them zero. -/
structure Muted (hid : String → Bool) (I : S → Prop) (cfg : SimCfg R (IrMat R) (Fir R) S A P D O) : Prop where
  src : ∀ a ∈ cfg.arrays, hid a.name = true → a.kind ≠ .mic
  contrib : cfg.contrib = true → ∀ p ∈ combosOf cfg.arrays, hid (contribName p.1 p.2) = hid p.1.name
  extra : ∀ p, cfg.proc = some p → ∀ q ∈ p.extra, hid q.1 = false
  proc : ∀ p, cfg.proc = some p → ∀ x S S' i x1 S1, SameOff hid S S' → p.process x S i = .ok (x1, S1) →
    ∃ S1', p.process x S' i = .ok (x1, S1') ∧ SameOff hid S1 S1'
  mutes : ∀ p, cfg.proc = some p → p.Mutes hid
  filt : cfg.filt = firOps R
  get : ∀ s n s' v, I s → cfg.srcGet s n = .ok (s', v) → I s' ∧ Zeros v

/-- Two engines that agree apart from the hidden sources, which are silent in the first. -/
structure MuteRel (hid : String → Bool) (I : S → Prop) (as : List ArrInfo) (RA : A → A' → Prop)
    (e : Eng (Sigs R) (Fir R) S A P) (e' : Eng (Sigs R) (Fir R) S A' P) : Prop where
  sig : SameOff hid e.sig e'.sig
  quiet : QuietSig hid e.sig
  srcs : ∀ s, hid s = false → e.srcs s = e'.srcs s
  silent : ∀ a ∈ freeOf as, hid a.name = true → I (e.srcs a.name)
  filts : ∀ s m, hid s = false → e.filts s m = e'.filts s m
  idle : ∀ p ∈ combosOf as, hid p.1.name = true → (e.filts p.1.name p.2.name).Idle
  arr : RA e.arr e'.arr
  proc : e.proc = e'.proc

variable {hid : String → Bool} {I : S → Prop} {cfg : SimCfg R (IrMat R) (Fir R) S A P D O} {upd : A' → Nat → Except PyErr A'}
  {path : A' → String → String → Except PyErr (IrMat R)} {RA : A → A' → Prop}

omit [NonUnitalNonAssocSemiring R] in
theorem freeOf_kept_src (as : List ArrInfo) : freeOf (keptArrays hid as) = (freeOf as).filter fun a => !hid a.name := by
  unfold freeOf keptArrays
  rw [List.filter_filter, List.filter_filter]
  exact List.filter_congr fun a _ => Bool.and_comm _ _

theorem combosOf_kept_src (as : List ArrInfo) (h : ∀ a ∈ as, hid a.name = true → a.kind ≠ .mic) :
    combosOf (keptArrays hid as) = (combosOf as).filter fun p => !hid p.1.name := by
  have h1 : micsOf (keptArrays hid as) = micsOf as := by
    unfold micsOf keptArrays
    rw [List.filter_filter]
    refine List.filter_congr fun a ha => ?_
    cases hh : hid a.name with
    | false => simp
    | true => simpa using h a ha hh
  have h2 : sourcesOf (keptArrays hid as) = (sourcesOf as).filter fun a => !hid a.name := by
    unfold sourcesOf keptArrays
    rw [List.filter_filter, List.filter_filter]
    exact List.filter_congr fun a _ => Bool.and_comm _ _
  unfold combosOf
  rw [h1, h2, List.filter_flatMap]
  induction sourcesOf as with
  | nil => rfl
  | cons s l ih =>
    rw [List.flatMap_cons, List.filter_cons, List.filter_map]
    cases hs : hid s.name with
    | true => simpa [Function.comp_def, hs] using ih
    | false => simpa [Function.comp_def, hs] using ih

theorem mem_combos_mic {p : ArrInfo × ArrInfo} {as : List ArrInfo} (h : p ∈ combosOf as) : p.2.kind = .mic := by
  unfold combosOf sourcesOf micsOf at h
  simp only [List.mem_flatMap, List.mem_map, List.mem_filter] at h
  obtain ⟨s, ⟨hs, hk⟩, m, ⟨hm, hm2⟩, rfl⟩ := h
  simpa using hm2

theorem Muted.mic (h : Muted hid I cfg) {p : ArrInfo × ArrInfo} (hp : p ∈ combosOf cfg.arrays) : hid p.2.name = false := by
  cases hh : hid p.2.name with
  | false => rfl
  | true => exact absurd (mem_combos_mic hp) (h.src _ (mem_combos_src hp).2.2 hh)

theorem signalList_kept_src (h : Muted hid I cfg) : (cfg.without hid upd path).signalList = cfg.signalList.filter fun q => !hid q.1 := by
  obtain ⟨base, hb⟩ : ∃ base : List (String × Nat), base = cfg.arrays.map (fun a => (a.name, a.num)) ++
    (if cfg.contrib then (combosOf cfg.arrays).map fun p => (contribName p.1 p.2, p.2.num) else []) := ⟨_, rfl⟩
  have hbase : (keptArrays hid cfg.arrays).map (fun a => (a.name, a.num)) ++
      (if cfg.contrib then (combosOf (keptArrays hid cfg.arrays)).map fun p => (contribName p.1 p.2, p.2.num) else []) =
      base.filter fun q => !hid q.1 := by
    rw [hb, List.filter_append]
    congr 1
    · unfold keptArrays
      rw [List.filter_map]
      rfl
    · split
      · rename_i hc
        rw [combosOf_kept_src _ h.src, List.filter_map]
        congr 1
        refine List.filter_congr fun p hp => ?_
        simp only [Function.comp]
        rw [h.contrib hc p hp]
      · rfl
  have el : (cfg.without hid upd path).signalList = match cfg.proc with
      | none => base.filter fun q => !hid q.1
      | some p => base.filter (fun q => !hid q.1) ++
        p.extra.filter fun q => !(base.filter fun q => !hid q.1).any fun b => b.1 == q.1 := by
    rw [← hbase]; rfl
  have er : cfg.signalList = match cfg.proc with
      | none => base
      | some p => base ++ p.extra.filter fun q => !base.any fun b => b.1 == q.1 := by
    rw [hb]; rfl
  rw [el, er]
  cases hp : cfg.proc with
  | none => rfl
  | some p =>
    dsimp only
    rw [List.filter_append]
    congr 1
    rw [List.filter_filter]
    refine List.filter_congr fun q hq => ?_
    have hh := h.extra p hp q hq
    rw [hh, Bool.not_false, Bool.true_and]
    congr 1
    rw [Bool.eq_iff_iff, List.any_eq_true, List.any_eq_true]
    constructor
    · rintro ⟨b, hb1, hb2⟩
      exact ⟨b, (List.mem_filter.1 hb1).1, hb2⟩
    · rintro ⟨b, hb1, hb2⟩
      refine ⟨b, List.mem_filter.2 ⟨hb1, ?_⟩, hb2⟩
      have : b.1 = q.1 := by simpa using hb2
      rw [this, hh]
      rfl

theorem createSignals_mute (h : Muted hid I cfg) {sig : Sigs R} (hs : cfg.createSignals = .ok sig) :
    ∃ sig', (cfg.without hid upd path).createSignals = .ok sig' ∧ SameOff hid sig sig' := by
  unfold SimCfg.createSignals at hs ⊢
  rw [signalList_kept_src h]
  refine foldlM_hide (SameOff hid) (fun q : String × Nat => !hid q.1) cfg.signalList (fun k _ => rfl) ?_ ?_ hs
  · intro x _ hk a b a1 hr hx
    exact (createSignal_hide hr hx).1 (by simpa using hk)
  · intro x _ hk a b a1 hr hx
    exact (createSignal_hide hr hx).2 (by simpa using hk)

/-- What is needed of the array collections: the hidden sources are the only difference. -/
structure CollRelS (hid : String → Bool) (cfg : SimCfg R (IrMat R) (Fir R) S A P D O) (upd : A' → Nat → Except PyErr A')
    (path : A' → String → String → Except PyErr (IrMat R)) (RA : A → A' → Prop) : Prop where
  upd : ∀ a a' a1 n, RA a a' → cfg.arrUpdate a n = .ok a1 → ∃ a1', upd a' n = .ok a1' ∧ RA a1 a1'
  path : ∀ a a' s m h, RA a a' → hid s = false → cfg.arrPath a s m = .ok h → path a' s m = .ok h

theorem createFilters_mute (h : Muted hid I cfg) (hc : CollRelS hid cfg upd path RA) {arr : A} {arr' : A'} (ha : RA arr arr')
    {f0 fs : String → String → Fir R} (hs : cfg.createFilters arr f0 = .ok fs) :
    ∃ fs' : String → String → Fir R, (cfg.without hid upd path).createFilters arr' f0 = .ok fs' ∧ ∀ s m, hid s = false → fs s m = fs' s m := by
  unfold SimCfg.createFilters at hs ⊢
  have e : (cfg.without hid upd path).arrays = keptArrays hid cfg.arrays := rfl
  rw [e, combosOf_kept_src _ h.src]
  refine foldlM_hide (fun fs fs' : String → String → Fir R => ∀ s m, hid s = false → fs s m = fs' s m)
    (fun p : ArrInfo × ArrInfo => !hid p.1.name) (combosOf cfg.arrays) (fun _ _ _ => rfl) ?_ ?_ hs
  · intro p _ hk a b a1 hr hx
    have hk : hid p.1.name = false := by simpa using hk
    split at hx
    · cases hx
    · rename_i ir hir
      cases hx
      have hp : (cfg.without hid upd path).arrPath arr' p.1.name p.2.name = .ok ir := hc.path _ _ _ _ _ ha hk hir
      rw [hp]
      refine ⟨_, rfl, fun s m hm => ?_⟩
      have e2 : (cfg.without hid upd path).filt = cfg.filt := rfl
      rw [e2]
      dsimp only
      rw [hr s m hm]
  · intro p _ hk a b a1 hr hx
    have hk : hid p.1.name = true := by simpa using hk
    split at hx
    · cases hx
    · cases hx
      intro s m hm
      dsimp only
      rw [if_neg]
      · exact hr s m hm
      · rintro ⟨rfl, -⟩
        rw [hk] at hm; cases hm

/-- The common part of `prepSource` and `stepSource`. -/
def srcWith (cfg : SimCfg R (IrMat R) (Fir R) S A P D O) (n : Nat) (i j : Int) (e : Eng (Sigs R) (Fir R) S A P)
    (a : ArrInfo) : Except PyErr (Eng (Sigs R) (Fir R) S A P) :=
  match cfg.srcGet (e.srcs a.name) n with
  | .error x => .error x
  | .ok (s', v) =>
    match sigAssign e.sig a.name i j v with
    | .error x => .error x
    | .ok sig => .ok { e with sig := sig, srcs := fun k => if k = a.name then s' else e.srcs k }

theorem srcWith_mute (h : Muted hid I cfg) {n : Nat} {i j : Int} {a : ArrInfo} (ha : a ∈ freeOf cfg.arrays)
    {e e1 : Eng (Sigs R) (Fir R) S A P} {e' : Eng (Sigs R) (Fir R) S A' P} (hr : MuteRel hid I cfg.arrays RA e e')
    (hx : srcWith cfg n i j e a = .ok e1) :
    (hid a.name = false → ∃ e1', srcWith (cfg.without hid upd path) n i j e' a = .ok e1' ∧ MuteRel hid I cfg.arrays RA e1 e1') ∧
    (hid a.name = true → MuteRel hid I cfg.arrays RA e1 e') := by
  unfold srcWith at hx
  cases hs : cfg.srcGet (e.srcs a.name) n with
  | error x => rw [hs] at hx; cases hx
  | ok q =>
    obtain ⟨s', v⟩ := q
    rw [hs] at hx
    dsimp only at hx
    cases hsig : sigAssign e.sig a.name i j v with
    | error x => rw [hsig] at hx; cases hx
    | ok sig =>
      rw [hsig] at hx
      cases hx
      constructor
      · intro hk
        obtain ⟨sig', h1, h2⟩ := (sigAssign_hide hr.sig hsig).1 hk
        unfold srcWith
        have e0 : (cfg.without hid upd path).srcGet = cfg.srcGet := rfl
        rw [e0, ← hr.srcs _ hk, hs]
        dsimp only
        rw [h1]
        refine ⟨_, rfl, ⟨h2, sigAssign_quiet hr.quiet (fun hk' => by rw [hk] at hk'; cases hk') hsig, ?_, ?_, hr.filts, hr.idle, hr.arr, hr.proc⟩⟩
        · intro s hs'
          dsimp only
          rw [hr.srcs s hs']
        · intro b hb hbh
          dsimp only
          rw [if_neg]
          · exact hr.silent b hb hbh
          · intro e; rw [e, hk] at hbh; cases hbh
      · intro hk
        obtain ⟨g1, g2⟩ := h.get _ _ _ _ (hr.silent a ha hk) hs
        refine ⟨(sigAssign_hide hr.sig hsig).2 hk, sigAssign_quiet hr.quiet (fun _ => g2) hsig, ?_, ?_, hr.filts, hr.idle, hr.arr, hr.proc⟩
        · intro s hs'
          dsimp only
          rw [if_neg]
          · exact hr.srcs s hs'
          · rintro rfl; rw [hk] at hs'; cases hs'
        · intro b hb hbh
          dsimp only
          split
          · exact g1
          · exact hr.silent b hb hbh

theorem pairWith_mute (h : Muted hid I cfg) {i j i' : Int} {p : ArrInfo × ArrInfo} (hp : p ∈ combosOf cfg.arrays)
    {e e1 : Eng (Sigs R) (Fir R) S A P} {e' : Eng (Sigs R) (Fir R) S A' P} (hr : MuteRel hid I cfg.arrays RA e e')
    (hx : pairWith cfg i j i' e p = .ok e1) :
    (hid p.1.name = false → ∃ e1', pairWith (cfg.without hid upd path) i j i' e' p = .ok e1' ∧ MuteRel hid I cfg.arrays RA e1 e1') ∧
    (hid p.1.name = true → MuteRel hid I cfg.arrays RA e1 e') := by
  have hmic := h.mic hp
  unfold pairWith at hx
  cases hg : sigGet e.sig p.1.name i j with
  | error x => rw [hg] at hx; cases hx
  | ok x =>
    rw [hg] at hx
    dsimp only at hx
    cases hf : cfg.filt.process (e.filts p.1.name p.2.name) x with
    | error x => rw [hf] at hx; cases hx
    | ok q =>
      obtain ⟨f', y⟩ := q
      rw [hf] at hx
      dsimp only at hx
      cases ha : sigAdd e.sig p.2.name i' j y with
      | error x => rw [ha] at hx; cases hx
      | ok sig =>
        rw [ha] at hx
        dsimp only at hx
        cases hw : (if cfg.contrib then sigAssign sig (contribName p.1 p.2) i j y else .ok sig) with
        | error x => rw [hw] at hx; cases hx
        | ok sig2 =>
          rw [hw] at hx
          cases hx
          constructor
          · intro hk
            have hg' : sigGet e'.sig p.1.name i j = .ok x := by
              unfold sigGet at hg ⊢
              rw [← hr.sig _ hk]; exact hg
            unfold pairWith
            rw [hg']
            dsimp only
            have e0 : (cfg.without hid upd path).filt = cfg.filt := rfl
            rw [e0, ← hr.filts _ _ hk, hf]
            dsimp only
            obtain ⟨sig', h1, h2⟩ := (sigAdd_hide hr.sig ha).1 hmic
            have hq := sigAdd_quiet hr.quiet hmic ha
            rw [h1]
            dsimp only
            obtain ⟨sig2', h3, h4, h5⟩ : ∃ sig2', (if (cfg.without hid upd path).contrib then
                sigAssign sig' (contribName p.1 p.2) i j y else .ok sig') = .ok sig2' ∧ SameOff hid sig2 sig2' ∧ QuietSig hid sig2 := by
              cases hc : cfg.contrib with
              | false =>
                have hc' : (cfg.without hid upd path).contrib = false := hc
                rw [hc] at hw
                rw [hc']
                cases hw
                exact ⟨sig', rfl, h2, hq⟩
              | true =>
                have hc' : (cfg.without hid upd path).contrib = true := hc
                rw [hc] at hw
                rw [hc']
                have hcn : hid (contribName p.1 p.2) = false := by rw [h.contrib hc p hp]; exact hk
                obtain ⟨w, w1, w2⟩ := (sigAssign_hide h2 hw).1 hcn
                exact ⟨w, w1, w2, sigAssign_quiet hq (fun hk' => by rw [hcn] at hk'; cases hk') hw⟩
            rw [h3]
            refine ⟨_, rfl, ⟨h4, h5, hr.srcs, hr.silent, fun s m hm => ?_, fun q hq hqh => ?_, hr.arr, hr.proc⟩⟩
            · dsimp only
              rw [hr.filts s m hm]
            · dsimp only
              rw [if_neg]
              · exact hr.idle q hq hqh
              · rintro ⟨e, -⟩; rw [e, hk] at hqh; cases hqh
          · intro hk
            have hf' : (e.filts p.1.name p.2.name).process x = .ok (f', y) := by
              rw [h.filt] at hf; exact hf
            obtain ⟨z1, z2⟩ := Fir.process_idle (hr.idle p hp hk) (sigGet_quiet hr.quiet hk hg) hf'
            have es := sigAdd_zero z2 ha
            subst es
            have hs2 : SameOff hid sig2 e'.sig ∧ QuietSig hid sig2 := by
              cases hc : cfg.contrib with
              | false => rw [hc] at hw; cases hw; exact ⟨hr.sig, hr.quiet⟩
              | true =>
                rw [hc] at hw
                exact ⟨(sigAssign_hide hr.sig hw).2 (by rw [h.contrib hc p hp]; exact hk),
                  sigAssign_quiet hr.quiet (fun _ => z2) hw⟩
            refine ⟨hs2.1, hs2.2, hr.srcs, hr.silent, fun s m hm => ?_, fun q hq hqh => ?_, hr.arr, hr.proc⟩
            · dsimp only
              rw [if_neg]
              · exact hr.filts s m hm
              · rintro ⟨rfl, -⟩
                rw [hk] at hm; cases hm
            · dsimp only
              split
              · exact z1
              · exact hr.idle q hq hqh

theorem stepUpdate_mute (h : Muted hid I cfg) (hc : CollRelS hid cfg upd path RA) {p : ArrInfo × ArrInfo} (hp : p ∈ combosOf cfg.arrays)
    {e e1 : Eng (Sigs R) (Fir R) S A P} {e' : Eng (Sigs R) (Fir R) S A' P} (hr : MuteRel hid I cfg.arrays RA e e')
    (hx : cfg.stepUpdate e p = .ok e1) :
    (hid p.1.name = false → ∃ e1', (cfg.without hid upd path).stepUpdate e' p = .ok e1' ∧ MuteRel hid I cfg.arrays RA e1 e1') ∧
    (hid p.1.name = true → MuteRel hid I cfg.arrays RA e1 e') := by
  unfold SimCfg.stepUpdate at hx ⊢
  split at hx
  · rename_i hd
    rw [if_pos hd]
    split at hx
    · cases hx
    · rename_i ir hir
      split at hx
      · cases hx
      · rename_i f' hf
        cases hx
        constructor
        · intro hk
          have hp : (cfg.without hid upd path).arrPath e'.arr p.1.name p.2.name = .ok ir := hc.path _ _ _ _ _ hr.arr hk hir
          have e0 : (cfg.without hid upd path).filt = cfg.filt := rfl
          rw [hp, e0]
          dsimp only
          rw [← hr.filts _ _ hk, hf]
          refine ⟨_, rfl, ⟨hr.sig, hr.quiet, hr.srcs, hr.silent, fun s m hm => ?_, fun q hq hqh => ?_, hr.arr, hr.proc⟩⟩
          · dsimp only
            rw [hr.filts s m hm]
          · dsimp only
            rw [if_neg]
            · exact hr.idle q hq hqh
            · rintro ⟨e, -⟩; rw [e, hk] at hqh; cases hqh
        · intro hk
          refine ⟨hr.sig, hr.quiet, hr.srcs, hr.silent, fun s m hm => ?_, fun q hq hqh => ?_, hr.arr, hr.proc⟩
          · dsimp only
            rw [if_neg]
            · exact hr.filts s m hm
            · rintro ⟨rfl, -⟩
              rw [hk] at hm; cases hm
          · dsimp only
            split
            · have hid0 := hr.idle p hp hk
              rw [h.filt] at hf
              have hf : (e.filts p.1.name p.2.name).updateIr ir = .ok f' := hf
              unfold Fir.updateIr at hf
              split at hf
              · cases hf; exact hid0
              · cases hf
            · exact hr.idle q hq hqh
  · rename_i hd
    rw [if_neg hd]
    cases hx
    exact ⟨fun _ => ⟨_, rfl, hr⟩, fun _ => hr⟩

theorem prepare_mute (h : Muted hid I cfg) {e e1 : Eng (Sigs R) (Fir R) S A P} {e' : Eng (Sigs R) (Fir R) S A' P}
    (hr : MuteRel hid I cfg.arrays RA e e') (hx : cfg.prepare e = .ok e1) :
    ∃ e1', (cfg.without hid upd path).prepare e' = .ok e1' ∧ MuteRel hid I cfg.arrays RA e1 e1' := by
  unfold SimCfg.prepare at hx ⊢
  have ea : (cfg.without hid upd path).arrays = keptArrays hid cfg.arrays := rfl
  have en : (cfg.without hid upd path).prepNum = cfg.prepNum := rfl
  rw [ea, en, freeOf_kept_src, combosOf_kept_src _ h.src]
  cases h1 : (freeOf cfg.arrays).foldlM (cfg.prepSource cfg.prepNum) e with
  | error x => rw [h1] at hx; cases hx
  | ok e2 =>
    rw [h1] at hx
    obtain ⟨e2', h2, hr2⟩ := foldlM_hide (f' := (cfg.without hid upd path).prepSource cfg.prepNum) (MuteRel hid I cfg.arrays RA)
      (fun a : ArrInfo => !hid a.name) (freeOf cfg.arrays) hr
      (fun a ha hk b b' b1 hb hb1 => (srcWith_mute h ha hb (i := (cfg.B : Int) - cfg.prepNum) (j := cfg.B) hb1).1 (by simpa using hk))
      (fun a ha hk b b' b1 hb hb1 => (srcWith_mute (upd := upd) (path := path) h ha hb (i := (cfg.B : Int) - cfg.prepNum)
        (j := cfg.B) hb1).2 (by simpa using hk)) h1
    rw [h2]
    dsimp only at hx ⊢
    refine foldlM_hide (MuteRel hid I cfg.arrays RA) (fun p : ArrInfo × ArrInfo => !hid p.1.name) (combosOf cfg.arrays) hr2 ?_ ?_ hx
    · intro p hp hk a b a1 hab ha1
      exact (pairWith_mute h hp hab (i := (cfg.B : Int) - cfg.prepNum) (j := cfg.B) (i' := 0) ha1).1 (by simpa using hk)
    · intro p hp hk a b a1 hab ha1
      exact (pairWith_mute (upd := upd) (path := path) h hp hab (i := (cfg.B : Int) - cfg.prepNum) (j := cfg.B) (i' := 0) ha1).2
        (by simpa using hk)

theorem propagate_mute (h : Muted hid I cfg) (hc : CollRelS hid cfg upd path RA) {i : Int}
    {e e1 : Eng (Sigs R) (Fir R) S A P} {e' : Eng (Sigs R) (Fir R) S A' P}
    (hr : MuteRel hid I cfg.arrays RA e e') (hx : cfg.propagate i e = .ok e1) :
    ∃ e1', (cfg.without hid upd path).propagate i e' = .ok e1' ∧ MuteRel hid I cfg.arrays RA e1 e1' := by
  unfold SimCfg.propagate at hx ⊢
  have ea : (cfg.without hid upd path).arrays = keptArrays hid cfg.arrays := rfl
  rw [ea, freeOf_kept_src, combosOf_kept_src _ h.src]
  cases h1 : (freeOf cfg.arrays).foldlM (cfg.stepSource i) e with
  | error x => rw [h1] at hx; cases hx
  | ok e2 =>
    rw [h1] at hx
    obtain ⟨e2', h2, hr2⟩ := foldlM_hide (f' := (cfg.without hid upd path).stepSource i) (MuteRel hid I cfg.arrays RA)
      (fun a : ArrInfo => !hid a.name) (freeOf cfg.arrays) hr
      (fun a ha hk b b' b1 hb hb1 => (srcWith_mute h ha hb (i := i) (j := i + 1) hb1).1 (by simpa using hk))
      (fun a ha hk b b' b1 hb hb1 => (srcWith_mute (upd := upd) (path := path) h ha hb (i := i) (j := i + 1) hb1).2
        (by simpa using hk)) h1
    rw [h2]
    dsimp only at hx ⊢
    cases h3 : (combosOf cfg.arrays).foldlM cfg.stepUpdate e2 with
    | error x => rw [h3] at hx; cases hx
    | ok e3 =>
      rw [h3] at hx
      obtain ⟨e3', h4, hr3⟩ := foldlM_hide (f' := (cfg.without hid upd path).stepUpdate) (MuteRel hid I cfg.arrays RA)
        (fun p : ArrInfo × ArrInfo => !hid p.1.name) (combosOf cfg.arrays) hr2
        (fun p hp hk a b a1 hab ha1 => (stepUpdate_mute h hc hp hab ha1).1 (by simpa using hk))
        (fun p hp hk a b a1 hab ha1 => (stepUpdate_mute h hc hp hab ha1).2 (by simpa using hk)) h3
      rw [h4]
      dsimp only at hx ⊢
      refine foldlM_hide (MuteRel hid I cfg.arrays RA) (fun p : ArrInfo × ArrInfo => !hid p.1.name) (combosOf cfg.arrays) hr3 ?_ ?_ hx
      · intro p hp hk a b a1 hab ha1
        exact (pairWith_mute h hp hab (i := i) (j := i + 1) (i' := i) ha1).1 (by simpa using hk)
      · intro p hp hk a b a1 hab ha1
        exact (pairWith_mute (upd := upd) (path := path) h hp hab (i := i) (j := i + 1) (i' := i) ha1).2 (by simpa using hk)

theorem engine_mute (h : Muted hid I cfg) (hc : CollRelS hid cfg upd path RA) {n : Nat} {i : Int}
    {e e1 : Eng (Sigs R) (Fir R) S A P} {e' : Eng (Sigs R) (Fir R) S A' P}
    (hr : MuteRel hid I cfg.arrays RA e e') (hx : cfg.engine n i e = .ok e1) :
    ∃ e1', (cfg.without hid upd path).engine n i e' = .ok e1' ∧ MuteRel hid I cfg.arrays RA e1 e1' := by
  unfold SimCfg.engine at hx ⊢
  have eu : (cfg.without hid upd path).arrUpdate = upd := rfl
  rw [eu]
  cases h1 : cfg.arrUpdate e.arr n with
  | error x => rw [h1] at hx; cases hx
  | ok arr =>
    rw [h1] at hx
    obtain ⟨arr', h2, hra⟩ := hc.upd _ _ _ _ hr.arr h1
    rw [h2]
    dsimp only at hx ⊢
    cases h3 : cfg.callProc n i { e with arr := arr } with
    | error x => rw [h3] at hx; cases hx
    | ok e2 =>
      rw [h3] at hx
      dsimp only at hx
      have hcall : ∃ e2', (cfg.without hid upd path).callProc n i { e' with arr := arr' } = .ok e2' ∧ MuteRel hid I cfg.arrays RA e2 e2' := by
        unfold SimCfg.callProc at h3 ⊢
        have ep : (cfg.without hid upd path).proc = cfg.proc := rfl
        rw [ep]
        cases hp : cfg.proc with
        | none =>
          rw [hp] at h3
          cases h3
          exact ⟨_, rfl, ⟨hr.sig, hr.quiet, hr.srcs, hr.silent, hr.filts, hr.idle, hra, hr.proc⟩⟩
        | some p =>
          rw [hp] at h3
          dsimp only at h3 ⊢
          split at h3
          · cases h3
          · rename_i hb
            rw [if_neg hb]
            split at h3
            · rename_i hn
              rw [if_pos hn]
              split at h3
              · cases h3
              · rename_i x1 S1 hpr
                obtain ⟨S1', h4, h5⟩ := h.proc p hp _ _ _ _ _ _ hr.sig hpr
                rw [← hr.proc, h4]
                cases h3
                exact ⟨_, rfl, ⟨h5, h.mutes p hp _ _ _ _ _ hr.quiet hpr, hr.srcs, hr.silent, hr.filts, hr.idle, hra, rfl⟩⟩
            · rename_i hn
              rw [if_neg hn]
              cases h3
              exact ⟨_, rfl, ⟨hr.sig, hr.quiet, hr.srcs, hr.silent, hr.filts, hr.idle, hra, hr.proc⟩⟩
      obtain ⟨e2', h4, hr2⟩ := hcall
      rw [h4]
      exact propagate_mute h hc hr2 hx

/-- Two states that agree apart from the hidden sources. -/
structure StRelS (hid : String → Bool) (I : S → Prop) (as : List ArrInfo) (RA : A → A' → Prop) (Pd : D → Prop)
    (st : SimSt R (Fir R) S A P D O) (st' : SimSt R (Fir R) S A' P D O) : Prop where
  eng : MuteRel hid I as RA st.eng st'.eng
  idx : st.idx = st'.idx
  n : st.n = st'.n
  diags : st.diags = st'.diags
  log : st.log = st'.log
  data : ∀ d ∈ st.diags, Pd d.data

theorem step_mute (h : Muted hid I cfg) (hc : CollRelS hid cfg upd path RA) {Pd : D → Prop}
    (hb : Blind hid cfg.diag Pd) {st st1 : SimSt R (Fir R) S A P D O} {st' : SimSt R (Fir R) S A' P D O}
    (hr : StRelS hid I cfg.arrays RA Pd st st')
    (hx : cfg.step st = .ok st1) : ∃ st1', (cfg.without hid upd path).step st' = .ok st1' ∧ StRelS hid I cfg.arrays RA Pd st1 st1' := by
  unfold SimCfg.step at hx ⊢
  rw [← hr.n, ← hr.idx, ← hr.diags, ← hr.log]
  cases h1 : cfg.engine st.n st.idx st.eng with
  | error x => rw [h1] at hx; cases hx
  | ok e =>
    rw [h1] at hx
    obtain ⟨e', h2, hr2⟩ := engine_mute (upd := upd) (path := path) h hc hr.eng h1
    rw [h2]
    dsimp only at hx ⊢
    have e1 : (cfg.without hid upd path).lastBlock st.idx = cfg.lastBlock st.idx := rfl
    have e2 : (if (cfg.without hid upd path).proc.isSome then some e'.proc else none) =
      if cfg.proc.isSome then some e'.proc else none := rfl
    have e3 : (cfg.without hid upd path).diag = cfg.diag := rfl
    have e4 : (cfg.without hid upd path).plotNone = cfg.plotNone := rfl
    have e5 : (cfg.without hid upd path).B = cfg.B := rfl
    have e6 : (cfg.without hid upd path).C = cfg.C := rfl
    rw [e1, e2, e3, e4, e5, e6, ← hr2.proc]
    cases h3 : saveData cfg.diag (if cfg.proc.isSome then some e.proc else none) e.sig st.idx st.n (cfg.lastBlock st.idx) st.diags with
    | error x => rw [h3] at hx; cases hx
    | ok ds =>
      rw [h3] at hx
      obtain ⟨h4, h5⟩ := saveData_hide hb hr2.sig hr.data h3
      rw [h4]
      dsimp only at hx ⊢
      cases h6 : dispatch cfg.diag cfg.plotNone ds st.log with
      | error x => rw [h6] at hx; cases hx
      | ok r =>
        obtain ⟨ds', log⟩ := r
        rw [h6] at hx
        cases hx
        refine ⟨_, rfl, ⟨?_, rfl, rfl, rfl, rfl, dispatch_data h5 h6⟩⟩
        dsimp only
        split
        · exact ⟨resetSigs_hide hr2.sig _ _, resetSigs_quiet hr2.quiet _ _, hr2.srcs, hr2.silent, hr2.filts, hr2.idle, hr2.arr, rfl⟩
        · exact hr2

theorem steps_mute (h : Muted hid I cfg) (hc : CollRelS hid cfg upd path RA) {Pd : D → Prop}
    (hb : Blind hid cfg.diag Pd) : ∀ (k : Nat) {st st1 : SimSt R (Fir R) S A P D O} {st' : SimSt R (Fir R) S A' P D O},
    StRelS hid I cfg.arrays RA Pd st st' → cfg.steps k st = .ok st1 →
    ∃ st1', (cfg.without hid upd path).steps k st' = .ok st1' ∧ StRelS hid I cfg.arrays RA Pd st1 st1'
  | 0, st, st1, st', hr, hx => by cases hx; exact ⟨_, rfl, hr⟩
  | k + 1, st, st1, st', hr, hx => by
    unfold SimCfg.steps at hx ⊢
    cases h1 : cfg.steps k st with
    | error x => rw [h1] at hx; cases hx
    | ok s =>
      rw [h1] at hx
      obtain ⟨s', h2, hr2⟩ := steps_mute h hc hb k hr h1
      rw [h2]
      exact step_mute h hc hb hr2 hx

theorem run_mute (h : Muted hid I cfg) (hc : CollRelS hid cfg upd path RA) {Pd : D → Prop}
    (hb : Blind hid cfg.diag Pd) (hN : Names cfg) {srcs : String → S} (hsil : ∀ a ∈ freeOf cfg.arrays, hid a.name = true → I (srcs a.name))
    {arr : A} {arr' : A'} {proc : P} {f0 : Fir R}
    (ha : (∀ p ∈ combosOf cfg.arrays, ∃ ir, cfg.arrPath arr p.1.name p.2.name = .ok ir) → RA arr arr')
    {ds : List (Diag D)} (hd : ∀ d ∈ ds, Pd d.data) {fin : SimSt R (Fir R) S A P D O}
    (hx : cfg.run srcs arr proc f0 ds = .ok fin) :
    ∃ fin', (cfg.without hid upd path).run srcs arr' proc f0 ds = .ok fin' ∧ StRelS hid I cfg.arrays RA Pd fin fin' := by
  unfold SimCfg.run at hx ⊢
  cases h1 : cfg.init srcs arr proc f0 ds with
  | error x => rw [h1] at hx; cases hx
  | ok st =>
    rw [h1] at hx
    have hinit : ∃ st', (cfg.without hid upd path).init srcs arr' proc f0 ds = .ok st' ∧ StRelS hid I cfg.arrays RA Pd st st' := by
      unfold SimCfg.init at h1 ⊢
      cases h2 : cfg.createSignals with
      | error x => rw [h2] at h1; cases h1
      | ok sig =>
        rw [h2] at h1
        obtain ⟨sig', h3, h4⟩ := createSignals_mute (upd := upd) (path := path) h h2
        rw [h3]
        dsimp only at h1 ⊢
        cases h5 : cfg.createFilters arr (fun _ _ => f0) with
        | error x => rw [h5] at h1; cases h1
        | ok fs =>
          rw [h5] at h1
          have hspec := createFilters_spec cfg hN h5
          have hRA := ha fun p hp => by
            obtain ⟨ir, q, -⟩ := hspec p hp
            exact ⟨ir, q⟩
          obtain ⟨fs', h6, h7⟩ := createFilters_mute h hc hRA h5
          rw [h6]
          dsimp only at h1 ⊢
          cases h8 : cfg.prepare { sig := sig, srcs := srcs, filts := fs, arr := arr, proc := proc } with
          | error x => rw [h8] at h1; cases h1
          | ok e =>
            rw [h8] at h1
            have hq : QuietSig hid sig := by
              unfold SimCfg.createSignals at h2
              refine createSignals_quiet _ (S := fun _ => none) ?_ h2
              intro k m _ hm
              cases hm
            have hidle : ∀ p ∈ combosOf cfg.arrays, hid p.1.name = true → (fs p.1.name p.2.name).Idle := by
              intro p hp _
              obtain ⟨ir, -, q⟩ := hspec p hp
              rw [q, h.filt]
              intro r hr
              exact absurd hr (List.not_mem_nil)
            obtain ⟨e', h9, h10⟩ := prepare_mute (upd := upd) (path := path) h
              (e' := { sig := sig', srcs := srcs, filts := fs', arr := arr', proc := proc }) (RA := RA)
              ⟨h4, hq, fun _ _ => rfl, hsil, h7, hidle, hRA, rfl⟩ h8
            rw [h9]
            cases h1
            exact ⟨_, rfl, ⟨h10, rfl, rfl, rfl, rfl, hd⟩⟩
    obtain ⟨st', h2, hr⟩ := hinit
    rw [h2]
    dsimp only at hx ⊢
    have e1 : (cfg.without hid upd path).tot + (cfg.without hid upd path).mbs = cfg.tot + cfg.mbs := rfl
    have e3 : (cfg.without hid upd path).diag = cfg.diag := rfl
    have e4 : (cfg.without hid upd path).plotNone = cfg.plotNone := rfl
    rw [e1, e3, e4]
    cases h3 : cfg.steps (cfg.tot + cfg.mbs) st with
    | error x => rw [h3] at hx; cases hx
    | ok s =>
      rw [h3] at hx
      obtain ⟨s', h4, hr2⟩ := steps_mute (upd := upd) (path := path) h hc hb _ hr h3
      rw [h4]
      dsimp only at hx ⊢
      rw [← hr2.diags, ← hr2.log]
      cases h6 : dispatch cfg.diag cfg.plotNone s.diags s.log with
      | error x => rw [h6] at hx; cases hx
      | ok r =>
        obtain ⟨ds', log⟩ := r
        rw [h6] at hx
        cases hx
        exact ⟨_, rfl, ⟨hr2.eng, hr2.idx, hr2.n, rfl, rfl, dispatch_data hr2.data h6⟩⟩

end
end Verif

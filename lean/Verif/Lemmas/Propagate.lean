import Verif.Lemmas.Produced
import Mathlib.Algebra.BigOperators.Group.List.Basic
import Mathlib.Data.List.Nodup

namespace Verif

/-! ### names -/

theorem find?_of_nodup {l : List (String × Nat)} (h : (l.map (·.1)).Nodup) {q : String × Nat}
    (hq : q ∈ l) : l.find? (fun x => x.1 == q.1) = some q := by
  induction l with
  | nil => cases hq
  | cons x l ih =>
    simp only [List.map_cons, List.nodup_cons] at h
    rw [List.find?_cons]
    rcases List.mem_cons.1 hq with rfl | hq
    · simp
    · have : (x.1 == q.1) = false := by
        rw [beq_eq_false_iff_ne]
        intro he
        apply h.1
        rw [he]
        exact List.mem_map_of_mem hq
      rw [this]
      exact ih h.2 hq

theorem nodup_map_inj {α β : Type} {f : α → β} {l : List α} (h : (l.map f).Nodup) {a b : α}
    (ha : a ∈ l) (hb : b ∈ l) (hf : f a = f b) : a = b := by
  induction l with
  | nil => cases ha
  | cons x l ih =>
    simp only [List.map_cons, List.nodup_cons] at h
    rcases List.mem_cons.1 ha with rfl | ha' <;> rcases List.mem_cons.1 hb with rfl | hb'
    · rfl
    · exact absurd (by rw [hf]; exact List.mem_map_of_mem hb') h.1
    · exact absurd (by rw [← hf]; exact List.mem_map_of_mem ha') h.1
    · exact ih h.2 ha' hb'

section
variable {R IR F S A P D O : Type} (cfg : SimCfg R IR F S A P D O)

theorem mem_sourcesOf {as : List ArrInfo} {a : ArrInfo} (h : a ∈ sourcesOf as) :
    a ∈ as ∧ a.kind ≠ .mic := by
  unfold sourcesOf at h
  rw [List.mem_filter] at h
  exact ⟨h.1, by simpa using h.2⟩

theorem mem_micsOf {as : List ArrInfo} {a : ArrInfo} (h : a ∈ micsOf as) :
    a ∈ as ∧ a.kind = .mic := by
  unfold micsOf at h
  rw [List.mem_filter] at h
  exact ⟨h.1, by simpa using h.2⟩

theorem mem_freeOf {as : List ArrInfo} {a : ArrInfo} (h : a ∈ freeOf as) :
    a ∈ as ∧ a.kind = .free := by
  unfold freeOf at h
  rw [List.mem_filter] at h
  exact ⟨h.1, by simpa using h.2⟩

theorem mem_combosOf {as : List ArrInfo} {p : ArrInfo × ArrInfo} :
    p ∈ combosOf as ↔ p.1 ∈ sourcesOf as ∧ p.2 ∈ micsOf as := by
  unfold combosOf
  obtain ⟨s, m⟩ := p
  simp only [List.mem_flatMap, List.mem_map, Prod.mk.injEq]
  constructor
  · rintro ⟨a, ha, b, hb, rfl, rfl⟩; exact ⟨ha, hb⟩
  · rintro ⟨ha, hb⟩; exact ⟨s, ha, m, hb, rfl, rfl⟩

/-- Consequences of all signal names being different. -/
structure Names : Prop where
  arr : ∀ a ∈ cfg.arrays, cfg.dims a.name = some a.num
  inj : ∀ a ∈ cfg.arrays, ∀ b ∈ cfg.arrays, a.name = b.name → a = b
  con : cfg.contrib = true → ∀ p ∈ combosOf cfg.arrays, cfg.dims (contribName p.1 p.2) = some p.2.num
  conArr : cfg.contrib = true → ∀ p ∈ combosOf cfg.arrays, ∀ a ∈ cfg.arrays,
    contribName p.1 p.2 ≠ a.name
  conInj : cfg.contrib = true → ∀ p ∈ combosOf cfg.arrays, ∀ q ∈ combosOf cfg.arrays,
    contribName p.1 p.2 = contribName q.1 q.2 → p = q
  free : (freeOf cfg.arrays).Nodup
  pairs : (combosOf cfg.arrays).Nodup
  mics : (micsOf cfg.arrays).Nodup

theorem nodup_map_of {α β : Type} {f : α → β} {l : List α} (h : (l.map f).Nodup) : l.Nodup :=
  List.Nodup.of_map f h

theorem names_of (h : (cfg.signalList.map (·.1)).Nodup) : Names cfg := by
  have hbase : ∃ ex, cfg.signalList = cfg.arrays.map (fun a => (a.name, a.num)) ++
      ((if cfg.contrib then (combosOf cfg.arrays).map fun p => (contribName p.1 p.2, p.2.num) else []) ++
        ex) := by
    unfold SimCfg.signalList
    cases cfg.proc with
    | none => exact ⟨[], by simp⟩
    | some p => exact ⟨_, by rw [← List.append_assoc]⟩
  obtain ⟨ex, hex⟩ := hbase
  have h' := h
  rw [hex, List.map_append, List.nodup_append] at h
  obtain ⟨ha, hc, hd⟩ := h
  rw [List.map_map] at ha
  have ha' : (cfg.arrays.map ArrInfo.name).Nodup := ha
  rw [List.map_append, List.nodup_append] at hc
  obtain ⟨hc, _, _⟩ := hc
  have hfind : ∀ q ∈ cfg.signalList, cfg.dims q.1 = some q.2 := by
    intro q hq
    unfold SimCfg.dims
    rw [find?_of_nodup h' hq]; rfl
  have hpairs : (combosOf cfg.arrays).Nodup := by
    unfold combosOf
    rw [List.nodup_flatMap]
    have hs : (sourcesOf cfg.arrays).Nodup := (nodup_map_of ha').filter _
    have hm : (micsOf cfg.arrays).Nodup := (nodup_map_of ha').filter _
    refine ⟨fun s _ => hm.map fun a b hab => (Prod.mk.inj hab).2, ?_⟩
    refine List.Pairwise.imp ?_ hs
    intro a b hab
    simp only [Function.onFun, List.Disjoint, List.mem_map]
    rintro _ ⟨x, _, rfl⟩ ⟨y, _, hy⟩
    exact hab (Prod.mk.inj hy).1.symm
  refine ⟨?_, ?_, ?_, ?_, ?_, (nodup_map_of ha').filter _, hpairs,
    (nodup_map_of ha').filter _⟩
  · intro a ham
    exact hfind (a.name, a.num) (by
      rw [hex]; exact List.mem_append_left _ (List.mem_map.2 ⟨a, ham, rfl⟩))
  · intro a ham b hbm hn
    exact nodup_map_inj ha' ham hbm hn
  · intro hcon p hp
    exact hfind (contribName p.1 p.2, p.2.num) (by
      rw [hex, if_pos hcon]
      exact List.mem_append_right _ (List.mem_append_left _ (List.mem_map.2 ⟨p, hp, rfl⟩)))
  · intro hcon p hp a ham hn
    rw [if_pos hcon] at hd
    refine hd a.name (List.mem_map.2 ⟨(a.name, a.num), List.mem_map.2 ⟨a, ham, rfl⟩, rfl⟩)
      (contribName p.1 p.2) ?_ hn.symm
    rw [List.map_append]
    exact List.mem_append_left _ (List.mem_map.2 ⟨(contribName p.1 p.2, p.2.num),
      List.mem_map.2 ⟨p, hp, rfl⟩, rfl⟩)
  · intro hcon p hp q hq hn
    rw [if_pos hcon, List.map_map] at hc
    exact nodup_map_inj hc hp hq hn

/-! ### one propagation, general form -/

/-- A source delivering `num` samples for the steps from `a` on. -/
def SimCfg.gSource [Zero R] (cfg : SimCfg R IR F S A P D O) (a : Int) (num : Nat)
    (e : Eng (Tape R) F S A P) (x : ArrInfo) : Except PyErr (Eng (Tape R) F S A P) :=
  match cfg.srcGet (e.srcs x.name) num with
  | .error x => .error x
  | .ok (s', v) =>
    match tAssign cfg.dims e.sig x.name a num v with
    | .error x => .error x
    | .ok sig => .ok { e with sig := sig, srcs := fun k => if k = x.name then s' else e.srcs k }

/-- Filtering the steps `a, ..., a+num-1` of a source, adding to the steps
`b, ..., b+m-1` of the microphone. -/
def SimCfg.gPair [Zero R] [Add R] (cfg : SimCfg R IR F S A P D O) (a : Int) (num : Nat) (b : Int)
    (m : Nat) (e : Eng (Tape R) F S A P) (p : ArrInfo × ArrInfo) :
    Except PyErr (Eng (Tape R) F S A P) :=
  match tGet cfg.dims e.sig p.1.name a num with
  | .error x => .error x
  | .ok x =>
    match cfg.filt.process (e.filts p.1.name p.2.name) x with
    | .error x => .error x
    | .ok (f', y) =>
      match tAdd cfg.dims e.sig p.2.name b m y with
      | .error x => .error x
      | .ok sig =>
        match (if cfg.contrib then
            tAssign cfg.dims sig (contribName p.1 p.2) a num y else .ok sig) with
        | .error x => .error x
        | .ok sig => .ok { e with
            sig := sig
            filts := fun s m => if s = p.1.name ∧ m = p.2.name then f' else e.filts s m }

theorem tSource_eq [Zero R] (n : Nat) : cfg.tSource n = cfg.gSource n 1 := rfl
theorem tPair_eq [Zero R] [Add R] (n : Nat) : cfg.tPair n = cfg.gPair n 1 n 1 := rfl
theorem tPrepSource_eq [Zero R] (num : Nat) : cfg.tPrepSource num = cfg.gSource (-(num : Int)) num := rfl
theorem tPrepPair_eq [Zero R] [Add R] (num : Nat) :
    cfg.tPrepPair num = cfg.gPair (-(num : Int)) num (-(cfg.B : Int)) cfg.B := rfl

/-- Effect of the source loop over `l`. -/
structure SrcRel [Zero R] (a : Int) (num : Nat) (l : List ArrInfo) (e e' : Eng (Tape R) F S A P) :
    Prop where
  filts : e'.filts = e.filts
  arr : e'.arr = e.arr
  proc : e'.proc = e.proc
  new : ∀ x ∈ l, ∃ v w, cfg.srcGet (e.srcs x.name) num = .ok (e'.srcs x.name, v) ∧
    broadcastMat v x.num num = some w ∧
    ∀ c t, a ≤ t → t < a + num → e'.sig x.name c t = matVal w c (t - a).toNat
  srcs : ∀ k, (∀ x ∈ l, k ≠ x.name) → e'.srcs k = e.srcs k
  sig : ∀ k c t, ((∀ x ∈ l, k ≠ x.name) ∨ t < a ∨ a + num ≤ t) → e'.sig k c t = e.sig k c t

theorem gSource_ok [Zero R] {a : Int} {num : Nat} {e e' : Eng (Tape R) F S A P} {x : ArrInfo}
    (hd : cfg.dims x.name = some x.num) (h : cfg.gSource a num e x = .ok e') :
    SrcRel cfg a num [x] e e' := by
  unfold SimCfg.gSource at h
  split at h
  · cases h
  · rename_i s' v hs
    unfold tAssign at h
    rw [hd] at h
    simp only at h
    cases hb : broadcastMat v x.num num with
    | none => rw [hb] at h; cases h
    | some w =>
      rw [hb] at h
      cases h
      refine ⟨rfl, rfl, rfl, ?_, ?_, ?_⟩
      · intro y hy
        rw [List.mem_singleton] at hy
        subst hy
        refine ⟨v, w, by simpa using hs, hb, ?_⟩
        intro c t h1 h2
        simp only [Tape.write]
        rw [if_pos (by exact ⟨trivial, h1, h2⟩)]
      · intro k hk
        have := hk x (by simp)
        simp [this]
      · intro k c t hk
        simp only [Tape.write]
        rw [if_neg]
        rintro ⟨h1, h2, h3⟩
        rcases hk with hk | hk
        · exact hk x (by simp) h1
        · omega

theorem gSource_fold [Zero R] {a : Int} {num : Nat} :
    ∀ {l : List ArrInfo} {e e' : Eng (Tape R) F S A P}, (∀ x ∈ l, cfg.dims x.name = some x.num) →
      (l.map ArrInfo.name).Nodup → l.foldlM (cfg.gSource a num) e = .ok e' → SrcRel cfg a num l e e'
  | [], e, e', _, _, h => by
    cases h
    exact ⟨rfl, rfl, rfl, by simp, fun _ _ => rfl, fun _ _ _ _ => rfl⟩
  | x :: l, e, e', hd, hnd, h => by
    simp only [List.foldlM_cons] at h
    cases hx : cfg.gSource a num e x with
    | error y => rw [hx] at h; cases h
    | ok e1 =>
      rw [hx] at h
      simp only [List.map_cons, List.nodup_cons] at hnd
      have h1 := gSource_ok cfg (hd x (by simp)) hx
      have h2 := gSource_fold (fun y hy => hd y (by simp [hy])) hnd.2 h
      have hne : ∀ y ∈ l, x.name ≠ y.name := by
        intro y hy he
        apply hnd.1
        rw [he]
        exact List.mem_map_of_mem hy
      refine ⟨h2.filts.trans h1.filts, h2.arr.trans h1.arr, h2.proc.trans h1.proc, ?_, ?_, ?_⟩
      · intro y hy
        rcases List.mem_cons.1 hy with rfl | hy
        · obtain ⟨v, w, g1, g2, g3⟩ := h1.new y (by simp)
          refine ⟨v, w, ?_, g2, ?_⟩
          · rw [h2.srcs y.name hne]; exact g1
          · intro c t ht1 ht2
            rw [h2.sig y.name c t (.inl hne)]
            exact g3 c t ht1 ht2
        · obtain ⟨v, w, g1, g2, g3⟩ := h2.new y hy
          refine ⟨v, w, ?_, g2, g3⟩
          rw [h1.srcs y.name (by
            intro z hz
            rw [List.mem_singleton] at hz
            rw [hz]
            exact (hne y hy).symm)] at g1
          exact g1
      · intro k hk
        rw [h2.srcs k fun y hy => hk y (by simp [hy]), h1.srcs k fun y hy => hk y (by
          rw [List.mem_singleton] at hy; simp [hy])]
      · intro k c t hk
        rw [h2.sig k c t, h1.sig k c t]
        · rcases hk with hk | hk
          · left; intro y hy; rw [List.mem_singleton] at hy; exact hk y (by simp [hy])
          · exact .inr hk
        · rcases hk with hk | hk
          · left; intro y hy; exact hk y (by simp [hy])
          · exact .inr hk

/-- Effect of the path update loop over `l`. -/
structure UpdRel {Sg : Type} (l : List (ArrInfo × ArrInfo)) (e e' : Eng Sg F S A P) : Prop where
  sig : e'.sig = e.sig
  srcs : e'.srcs = e.srcs
  arr : e'.arr = e.arr
  proc : e'.proc = e.proc
  dyn : ∀ p ∈ l, (p.1.dynamic || p.2.dynamic) = true → ∃ ir,
    cfg.arrPath e.arr p.1.name p.2.name = .ok ir ∧
    cfg.filt.updateIr (e.filts p.1.name p.2.name) ir = .ok (e'.filts p.1.name p.2.name)
  stat : ∀ p ∈ l, (p.1.dynamic || p.2.dynamic) = false →
    e'.filts p.1.name p.2.name = e.filts p.1.name p.2.name
  other : ∀ s m, (∀ p ∈ l, ¬ (s = p.1.name ∧ m = p.2.name)) → e'.filts s m = e.filts s m

theorem stepUpdate_fold {Sg : Type} :
    ∀ {l : List (ArrInfo × ArrInfo)} {e e' : Eng Sg F S A P},
      (l.map fun p => (p.1.name, p.2.name)).Nodup → l.foldlM cfg.stepUpdate e = .ok e' →
      UpdRel cfg l e e'
  | [], e, e', _, h => by
    cases h
    exact ⟨rfl, rfl, rfl, rfl, by simp, by simp, fun _ _ _ => rfl⟩
  | x :: l, e, e', hnd, h => by
    simp only [List.foldlM_cons] at h
    cases hx : cfg.stepUpdate e x with
    | error y => rw [hx] at h; cases h
    | ok e1 =>
      rw [hx] at h
      simp only [List.map_cons, List.nodup_cons] at hnd
      have h2 := stepUpdate_fold hnd.2 h
      have hne : ∀ p ∈ l, ¬ (x.1.name = p.1.name ∧ x.2.name = p.2.name) := by
        intro y hy he
        apply hnd.1
        rw [he.1, he.2]
        exact List.mem_map.2 ⟨y, hy, rfl⟩
      have hne' : ∀ p ∈ l, ¬ (p.1.name = x.1.name ∧ p.2.name = x.2.name) :=
        fun p hp he => hne p hp ⟨he.1.symm, he.2.symm⟩
      unfold SimCfg.stepUpdate at hx
      split at hx
      · rename_i hdyn
        split at hx
        · cases hx
        · rename_i ir hir
          split at hx
          · cases hx
          · rename_i f' hf
            cases hx
            refine ⟨h2.sig, h2.srcs, h2.arr, h2.proc, ?_, ?_, ?_⟩
            · intro p hp hpd
              rcases List.mem_cons.1 hp with rfl | hp
              · refine ⟨ir, hir, ?_⟩
                rw [h2.other _ _ hne]
                simpa using hf
              · obtain ⟨ir', g1, g2⟩ := h2.dyn p hp hpd
                refine ⟨ir', g1, ?_⟩
                simp only [hne' p hp, if_false] at g2
                exact g2
            · intro p hp hpd
              rcases List.mem_cons.1 hp with rfl | hp
              · rw [hpd] at hdyn; cases hdyn
              · rw [h2.stat p hp hpd]
                simp only [hne' p hp, if_false]
            · intro s m hs
              rw [h2.other s m fun p hp => hs p (by simp [hp])]
              simp only [hs x (by simp), if_false]
      · rename_i hdyn
        cases hx
        refine ⟨h2.sig, h2.srcs, h2.arr, h2.proc, ?_, ?_, ?_⟩
        · intro p hp hpd
          rcases List.mem_cons.1 hp with rfl | hp
          · exact absurd hpd hdyn
          · exact h2.dyn p hp hpd
        · intro p hp hpd
          rcases List.mem_cons.1 hp with rfl | hp
          · exact h2.other _ _ hne
          · exact h2.stat p hp hpd
        · intro s m hs
          exact h2.other s m fun p hp => hs p (by simp [hp])

/-- The part of microphone signal `k` that comes from the pairs in `l`. -/
def micSum [AddMonoid R] (l : List (ArrInfo × ArrInfo)) (W : String → String → Mat R) (k : String)
    (c x : Nat) : R :=
  ((l.filter fun p => p.2.name == k).map fun p => matVal (W p.1.name p.2.name) c x).sum

/-- Effect of the propagation loop over `l`; `W` are the filter outputs. -/
structure PairRel [AddMonoid R] (a : Int) (num : Nat) (b : Int) (m : Nat)
    (l : List (ArrInfo × ArrInfo)) (e e' : Eng (Tape R) F S A P) (W : String → String → Mat R) :
    Prop where
  srcs : e'.srcs = e.srcs
  arr : e'.arr = e.arr
  proc : e'.proc = e.proc
  out : ∀ p ∈ l, ∃ y, cfg.filt.process (e.filts p.1.name p.2.name)
      (matOf p.1.num num fun c x => e.sig p.1.name c (a + x)) = .ok (e'.filts p.1.name p.2.name, y) ∧
    broadcastMat y p.2.num m = some (W p.1.name p.2.name) ∧
    (cfg.contrib = true → ∃ w, broadcastMat y p.2.num num = some w ∧
      ∀ c t, a ≤ t → t < a + num → e'.sig (contribName p.1 p.2) c t = matVal w c (t - a).toNat)
  filts : ∀ s k, (∀ p ∈ l, ¬ (s = p.1.name ∧ k = p.2.name)) → e'.filts s k = e.filts s k
  mic : ∀ k c t, (cfg.contrib = true → ∀ p ∈ l, k ≠ contribName p.1 p.2) → b ≤ t → t < b + m →
    e'.sig k c t = e.sig k c t + micSum l W k c (t - b).toNat
  old : ∀ k c t, (cfg.contrib = true → (∀ p ∈ l, k ≠ contribName p.1 p.2) ∨ t < a ∨ a + num ≤ t) →
    (t < b ∨ b + m ≤ t ∨ ∀ p ∈ l, k ≠ p.2.name) → e'.sig k c t = e.sig k c t

theorem gPair_fold [AddMonoid R] (hN : Names cfg) {a : Int} {num : Nat} {b : Int} {m : Nat} :
    ∀ {l : List (ArrInfo × ArrInfo)} {e e' : Eng (Tape R) F S A P}, (∀ p ∈ l, p ∈ combosOf cfg.arrays) →
      l.Nodup → l.foldlM (cfg.gPair a num b m) e = .ok e' →
      ∃ W, PairRel cfg a num b m l e e' W
  | [], e, e', _, _, h => by
    cases h
    refine ⟨fun _ _ => [], rfl, rfl, rfl, by simp, fun _ _ _ => rfl, ?_, fun _ _ _ _ _ => rfl⟩
    intro k c t _ _ _
    simp [micSum]
  | x :: l, e, e', hl, hnd, h => by
    simp only [List.foldlM_cons] at h
    cases hx : cfg.gPair a num b m e x with
    | error y => rw [hx] at h; cases h
    | ok e1 =>
      rw [hx] at h
      simp only [List.nodup_cons] at hnd
      have hxm := hl x (by simp)
      have hx1 := mem_sourcesOf (mem_combosOf.1 hxm).1
      have hx2 := mem_micsOf (mem_combosOf.1 hxm).2
      -- the first pair
      have key : ∃ f' y w, cfg.filt.process (e.filts x.1.name x.2.name)
            (matOf x.1.num num fun c i => e.sig x.1.name c (a + i)) = .ok (f', y) ∧
          broadcastMat y x.2.num m = some w ∧ e1.srcs = e.srcs ∧ e1.arr = e.arr ∧
          e1.proc = e.proc ∧
          (e1.filts = fun s k => if s = x.1.name ∧ k = x.2.name then f' else e.filts s k) ∧
          (cfg.contrib = true → ∃ w', broadcastMat y x.2.num num = some w' ∧
            e1.sig = (e.sig.addOn x.2.name b m w).write (contribName x.1 x.2) a num w') ∧
          (cfg.contrib = false → e1.sig = e.sig.addOn x.2.name b m w) := by
        unfold SimCfg.gPair tGet at hx
        rw [hN.arr _ hx1.1] at hx
        simp only at hx
        split at hx
        · cases hx
        · rename_i f' y hf
          unfold tAdd at hx
          rw [hN.arr _ hx2.1] at hx
          simp only at hx
          cases hb : broadcastMat y x.2.num m with
          | none => rw [hb] at hx; cases hx
          | some w =>
            rw [hb] at hx
            simp only at hx
            by_cases hc : cfg.contrib = true
            · rw [if_pos hc] at hx
              unfold tAssign at hx
              rw [hN.con hc x hxm] at hx
              simp only at hx
              cases hb' : broadcastMat y x.2.num num with
              | none => rw [hb'] at hx; cases hx
              | some w' =>
                rw [hb'] at hx
                cases hx
                exact ⟨f', y, w, hf, hb, rfl, rfl, rfl, rfl, fun _ => ⟨w', hb', rfl⟩,
                  fun h => by rw [hc] at h; cases h⟩
            · rw [if_neg hc] at hx
              cases hx
              exact ⟨f', y, w, hf, hb, rfl, rfl, rfl, rfl, fun h => absurd h hc, fun _ => rfl⟩
      obtain ⟨f', y, w, k1, k2, k3, k4, k5, k6, k7, k8⟩ := key
      have hl' : ∀ p ∈ l, p ∈ combosOf cfg.arrays := fun p hp => hl p (by simp [hp])
      obtain ⟨W, h2⟩ := gPair_fold hN hl' hnd.2 h
      have hne : ∀ p ∈ l, ¬ (p.1.name = x.1.name ∧ p.2.name = x.2.name) := by
        intro p hp he
        have hp1 := mem_sourcesOf (mem_combosOf.1 (hl' p hp)).1
        have hp2 := mem_micsOf (mem_combosOf.1 (hl' p hp)).2
        have e1 := hN.inj _ hp1.1 _ hx1.1 he.1
        have e2 := hN.inj _ hp2.1 _ hx2.1 he.2
        apply hnd.1
        have : p = x := Prod.ext e1 e2
        rw [← this]; exact hp
      have hne' : ∀ p ∈ l, ¬ (x.1.name = p.1.name ∧ x.2.name = p.2.name) :=
        fun p hp he => hne p hp ⟨he.1.symm, he.2.symm⟩
      -- values of `e1`
      have v1 : ∀ k c t, (cfg.contrib = true → k ≠ contribName x.1 x.2 ∨ t < a ∨ a + num ≤ t) →
          e1.sig k c t = if k = x.2.name ∧ b ≤ t ∧ t < b + m then
            e.sig k c t + matVal w c (t - b).toNat else e.sig k c t := by
        intro k c t hk
        by_cases hc : cfg.contrib = true
        · obtain ⟨w', _, hw⟩ := k7 hc
          rw [hw]
          simp only [Tape.write, Tape.addOn]
          rw [if_neg]
          rintro ⟨g1, g2, g3⟩
          rcases hk hc with hk | hk
          · exact hk g1
          · omega
        · rw [k8 (by simpa using hc)]
          rfl
      have hsrc : ∀ p ∈ l, ∀ c t, e1.sig p.1.name c t = e.sig p.1.name c t := by
        intro p hp c t
        have hp1 := mem_sourcesOf (mem_combosOf.1 (hl' p hp)).1
        rw [v1 _ _ _ fun hc => .inl fun he => hN.conArr hc x hxm _ hp1.1 he.symm, if_neg]
        rintro ⟨g, _⟩
        have := hN.inj _ hp1.1 _ hx2.1 g
        exact hp1.2 (by rw [this]; exact hx2.2)
      have hcon : cfg.contrib = true → ∀ p ∈ l, contribName x.1 x.2 ≠ contribName p.1 p.2 := by
        intro hc p hp he
        have := hN.conInj hc x hxm p (hl' p hp) he
        exact hnd.1 (by rw [this]; exact hp)
      refine ⟨fun s k => if s = x.1.name ∧ k = x.2.name then w else W s k,
        h2.srcs.trans k3, h2.arr.trans k4, h2.proc.trans k5, ?_, ?_, ?_, ?_⟩
      · intro p hp
        rcases List.mem_cons.1 hp with rfl | hp
        · refine ⟨y, ?_, by simpa using k2, ?_⟩
          · rw [h2.filts _ _ hne', k6]
            simpa using k1
          · intro hc
            obtain ⟨w', g1, g2⟩ := k7 hc
            refine ⟨w', g1, ?_⟩
            intro c t ht1 ht2
            rw [h2.old, g2]
            · simp only [Tape.write]
              rw [if_pos (by exact ⟨trivial, ht1, ht2⟩)]
            · intro _; left; exact hcon hc
            · right; right
              intro q hq he
              have hq2 := mem_micsOf (mem_combosOf.1 (hl' q hq)).2
              exact hN.conArr hc _ hxm _ hq2.1 he
        · obtain ⟨y', g1, g2, g3⟩ := h2.out p hp
          refine ⟨y', ?_, by simp only [hne p hp, if_false]; exact g2, g3⟩
          rw [k6] at g1
          simp only [hne p hp, if_false] at g1
          rw [← g1]
          congr 1
          exact matOf_congr fun c i _ _ => (hsrc p hp c _).symm
      · intro s k hs
        rw [h2.filts s k fun p hp => hs p (by simp [hp]), k6]
        simp only [hs x (by simp), if_false]
      · intro k c t hk ht1 ht2
        rw [h2.mic k c t (fun hc p hp => hk hc p (by simp [hp])) ht1 ht2,
          v1 k c t fun hc => .inl (hk hc x (by simp))]
        have hms : micSum l (fun s k => if s = x.1.name ∧ k = x.2.name then w else W s k) k c (t - b).toNat
            = micSum l W k c (t - b).toNat := by
          unfold micSum
          congr 1
          refine List.map_congr_left fun p hp => ?_
          rw [List.mem_filter] at hp
          simp only [hne p hp.1, if_false]
        have hcons : micSum (x :: l) (fun s k => if s = x.1.name ∧ k = x.2.name then w else W s k) k c
            (t - b).toNat = (if k = x.2.name then matVal w c (t - b).toNat else 0) +
              micSum l W k c (t - b).toNat := by
          rw [← hms]
          unfold micSum
          by_cases hkx : k = x.2.name
          · rw [List.filter_cons, if_pos (by simp [hkx]), if_pos hkx]
            simp
          · rw [List.filter_cons, if_neg (by simpa using fun h => hkx h.symm), if_neg hkx, zero_add]
        rw [hcons]
        by_cases hkx : k = x.2.name
        · rw [if_pos ⟨hkx, ht1, ht2⟩, if_pos hkx, add_assoc]
        · rw [if_neg (fun h => hkx h.1), if_neg hkx, zero_add]
      · intro k c t hk ht
        rw [h2.old k c t, v1 k c t, if_neg]
        · rintro ⟨g1, g2, g3⟩
          rcases ht with ht | ht | ht
          · omega
          · omega
          · exact ht x (by simp) g1
        · intro hc
          rcases hk hc with hk | hk
          · exact .inl (hk x (by simp))
          · exact .inr hk
        · intro hc
          rcases hk hc with hk | hk
          · exact .inl fun p hp => hk p (by simp [hp])
          · exact .inr hk
        · rcases ht with ht | ht | ht
          · exact .inl ht
          · exact .inr (.inl ht)
          · exact .inr (.inr fun p hp => ht p (by simp [hp]))

end
end Verif

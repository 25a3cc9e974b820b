/-
A whole simulation without some microphones.
-/
import Verif.Lemmas.HideColl
import Verif.Lemmas.Propagate
import Verif.Lemmas.Run
import Verif.Lemmas.Setup
import Verif.Lemmas.Session
import Verif.Spec.Hide
import Verif.Spec.Room
namespace Verif

section
variable {Pt H G : Type}

theorem CRel.of_without (okT : String → Prop) {M : List String} {g : G} {c : Coll Pt H}
    (h1 : ∀ a ∈ c.arrays, M.contains a.name = true → a.kind = some .mic)
    (h2 : ∀ s ∈ c.srcs, M.contains s = false) (h3 : ∀ s m t, M.contains m = false → c.types s m = some t → okT t) :
    CRel M.contains okT (g, c) (g, c.without M) :=
  ⟨rfl, rfl, rfl, rfl, fun s m hm => by simp only [Coll.without, hm]; rfl,
    fun s m hm => by simp only [Coll.without, hm]; rfl, h1, h2, h3⟩

theorem infos_without (M : List String) (c : Coll Pt H) : (c.without M).infos = keptArrays M.contains c.infos := by
  unfold Coll.infos keptArrays Coll.without
  rw [List.filter_filterMap, List.filterMap_filter]
  congr 1
  funext a
  cases hk : a.kind with
  | none => simp
  | some k =>
    cases hh : M.contains a.name with
    | true => simpa [Option.filter] using hh
    | false => simpa [Option.filter] using hh

theorem without_empty (M : List String) (f : Nat) : (Coll.empty f : Coll Pt H).without M = Coll.empty f := by
  unfold Coll.without Coll.empty
  simp

theorem find_without {M : List String} {c : Coll Pt H} {nm : String} (hn : M.contains nm = false) :
    (c.without M).find nm = c.find nm := by
  unfold Coll.find Coll.without
  dsimp only
  rw [List.find?_filter]
  congr 1
  funext a
  cases e : a.name == nm with
  | false => simp
  | true =>
    have : a.name = nm := by simpa using e
    rw [this, hn]
    rfl

theorem addArray_without {M : List String} {c : Coll Pt H} {a : Arr Pt} (ha : M.contains a.name = true → a.kind = some .mic) :
    (c.addArray a).1.without M = if M.contains a.name then c.without M else ((c.without M).addArray a).1 := by
  unfold Coll.addArray
  cases hm : M.contains a.name with
  | true =>
    rw [ha hm]
    dsimp only
    split
    · rfl
    · simp only [Coll.without, List.filter_append, List.filter_cons, hm, List.filter_nil]
      simp
  | false =>
    rw [find_without hm]
    simp only [Bool.false_eq_true, if_false]
    split
    · rfl
    · rcases a.kind with _ | k
      · simp only [Coll.without, List.filter_append, List.filter_cons, hm, List.filter_nil]
        simp
      · cases k <;>
        · simp only [Coll.without, List.filter_append, List.filter_cons, hm, List.filter_nil]
          simp

theorem addAll_without {M : List String} : ∀ (as : List (Arr Pt)) (c : Coll Pt H),
    (∀ a ∈ as, M.contains a.name = true → a.kind = some .mic) →
    (c.addAll as).without M = (c.without M).addAll (as.filter fun a => !M.contains a.name)
  | [], c, _ => rfl
  | a :: as, c, h => by
    have e : c.addAll (a :: as) = (c.addArray a).1.addAll as := rfl
    rw [e, addAll_without as _ fun b hb => h b (by simp [hb]), addArray_without (h a (by simp)), List.filter_cons]
    cases hm : M.contains a.name with
    | true => simp
    | false => rfl

theorem setDefault_without {M : List String} (t : String) (c : Coll Pt H) :
    (c.setDefault t).without M = (c.without M).setDefault t := by
  obtain ⟨⟨ty, h1⟩, h2⟩ := setDefault_types t c.combos c
  obtain ⟨⟨ty', h1'⟩, h2'⟩ := setDefault_types t (c.without M).combos (c.without M)
  have e1 : c.setDefault t = { c with types := ty } := h1
  have e2 : (c.without M).setDefault t = { c.without M with types := ty' } := h1'
  have t1 : ∀ s m, ty s m = _ := fun s m => (congrFun (congrFun (congrArg Coll.types h1) s) m).symm.trans (h2 s m)
  have t2 : ∀ s m, ty' s m = _ := fun s m => (congrFun (congrFun (congrArg Coll.types h1') s) m).symm.trans (h2' s m)
  rw [e1, e2]
  unfold Coll.without
  congr 1
  funext s m
  dsimp only
  rw [t1, t2]
  have hc : (s, m) ∈ (c.without M).combos ↔ (s, m) ∈ c.combos ∧ M.contains m = false := by
    rw [Coll.mem_combos, Coll.mem_combos]
    unfold Coll.without
    simp only [List.mem_filter, Bool.not_eq_true']
    exact ⟨fun h => ⟨⟨h.1, h.2.1⟩, h.2.2⟩, fun h => ⟨h.1.1, h.1.2, h.2⟩⟩
  cases hm : M.contains m with
  | true =>
    rw [if_pos rfl, if_neg (fun h => by rw [hc, hm] at h; cases h.2)]
    unfold Coll.without
    dsimp only
    rw [hm]
    rfl
  | false =>
    simp only [Bool.false_eq_true, if_false]
    have ht : (c.without M).types s m = c.types s m := by unfold Coll.without; dsimp only; rw [hm]; rfl
    have hp : (c.without M).paths s m = c.paths s m := by unfold Coll.without; dsimp only; rw [hm]; rfl
    rw [ht, hp]
    by_cases h : (s, m) ∈ c.combos
    · rw [if_pos h, if_pos (hc.2 ⟨h, hm⟩)]
    · rw [if_neg h, if_neg (fun h' => h (hc.1 h').1)]

end

section
variable {R P V : Type} [Field R] [DecidableEq R]

theorem sigSelect_same {hid : String → Bool} {S S' : Sigs R} (h : SameOff hid S S') {k : String} (hk : hid k = false)
    (sel : Option (List Int)) (i j : Int) : sigSelect S' k sel i j = sigSelect S k sel i j := by
  unfold sigSelect
  rw [h k hk]

theorem diagOps_blind (hid : String → Bool) :
    Blind hid (diagOps R P V) fun d => ∀ k ∈ d.reads, hid k = false := by
  intro d p S S' iv gv d1 hd hS hs
  have heq : d.save p S' iv gv = d.save p S iv gv := by
    cases d with
    | recSignal s ch sg => simp only [DData.save, sigSelect_same hS (hd s (by simp [DData.reads]))]
    | recState => rfl
    | power s ch pw => simp only [DData.save, sigSelect_same hS (hd s (by simp [DData.reads]))]
    | ratio a ac b bc q vals =>
      simp only [DData.save, sigSelect_same hS (hd a (by simp [DData.reads])), sigSelect_same hS (hd b (by simp [DData.reads]))]
    | instant => rfl
    | sfPower s q pw => simp only [DData.save, sigSelect_same hS (hd s (by simp [DData.reads]))]
    | spectrum s ch w sg k => simp only [DData.save, sigSelect_same hS (hd s (by simp [DData.reads]))]
    | summary s f q m => simp only [DData.save, sigSelect_same hS (hd s (by simp [DData.reads]))]
  have hsave : d.save p S iv gv = .ok d1 := hs
  have hreads : d1.reads = d.reads := by
    cases d with
    | recSignal s ch sg =>
      simp only [DData.save] at hsave
      split at hsave
      · cases hsave
      · split at hsave
        · cases hsave
        · cases hsave; rfl
    | recState get values times i =>
      simp only [DData.save] at hsave
      split at hsave
      · cases hsave
      · split at hsave
        · cases hsave
        · split at hsave
          · cases hsave
          · split at hsave
            · cases hsave
            · split at hsave
              · cases hsave
              · cases hsave; rfl
    | power s ch pw =>
      simp only [DData.save] at hsave
      split at hsave
      · cases hsave
      · split at hsave
        · cases hsave
        · cases hsave; rfl
    | ratio a ac b bc q vals =>
      simp only [DData.save] at hsave
      split at hsave
      · cases hsave
      · cases hsave
      · split at hsave
        · cases hsave
        · split at hsave
          · cases hsave
          · cases hsave; rfl
    | instant get v =>
      simp only [DData.save] at hsave
      split at hsave
      · cases hsave
      · split at hsave
        · cases hsave
        · cases hsave; rfl
    | sfPower s q pw =>
      simp only [DData.save] at hsave
      split at hsave
      · cases hsave
      · split at hsave
        · cases hsave
        · split at hsave
          · cases hsave
          · cases hsave; rfl
    | spectrum s ch w sg k =>
      simp only [DData.save] at hsave
      split at hsave
      · cases hsave
      · split at hsave
        · cases hsave
        · cases hsave; rfl
    | summary s f q m =>
      simp only [DData.save] at hsave
      split at hsave
      · cases hsave
      · split at hsave
        · cases hsave
        · split at hsave
          · cases hsave
          · cases hsave; rfl
  exact ⟨heq.trans hs, fun k hk => hd k (by rw [← hreads]; exact hk)⟩

end

section
variable {F R S P D O : Type} {A : Type} {IR : Type}

theorem run_names [Zero R] [Add R] {cfg : SimCfg R IR F S A P D O} {srcs : String → S} {arr : A} {proc : P} {f0 : F}
    {ds : List (Diag D)} {fin : SimSt R F S A P D O} (h : cfg.run srcs arr proc f0 ds = .ok fin) : Names cfg := by
  unfold SimCfg.run at h
  cases hi : cfg.init srcs arr proc f0 ds with
  | error x => rw [hi] at h; cases h
  | ok st => exact names_of _ (init_nodup _ hi)

theorem signalOf_array {cfg : SimCfg R IR F S A P D O} (hn : Names cfg) {M : List String} {a : ArrInfo} (ha : a ∈ cfg.arrays) :
    signalOf cfg.contrib cfg.arrays M a.name = M.contains a.name := by
  unfold signalOf
  cases hc : cfg.contrib with
  | false => simp
  | true =>
    cases hany : (combosOf cfg.arrays).any fun p => M.contains p.2.name && a.name == contribName p.1 p.2 with
    | false => simp
    | true =>
      rw [List.any_eq_true] at hany
      obtain ⟨p, hp, hq⟩ := hany
      rw [Bool.and_eq_true] at hq
      exact absurd (beq_iff_eq.1 hq.2).symm (hn.conArr hc p hp a ha)

theorem signalOf_contrib {cfg : SimCfg R IR F S A P D O} (hn : Names cfg) {M : List String}
    (hM : ∀ m ∈ M, ∃ a ∈ cfg.arrays, a.name = m) (hc : cfg.contrib = true)
    {p : ArrInfo × ArrInfo} (hp : p ∈ combosOf cfg.arrays) :
    signalOf cfg.contrib cfg.arrays M (contribName p.1 p.2) = M.contains p.2.name := by
  unfold signalOf
  have h1 : M.contains (contribName p.1 p.2) = false := by
    cases h : M.contains (contribName p.1 p.2) with
    | false => rfl
    | true =>
      obtain ⟨a, ha, he⟩ := hM _ (by simpa using h)
      exact absurd he.symm (hn.conArr hc p hp a ha)
  rw [h1, hc, Bool.false_or, Bool.true_and, Bool.eq_iff_iff, List.any_eq_true]
  constructor
  · rintro ⟨q, hq, hb⟩
    rw [Bool.and_eq_true] at hb
    have := hn.conInj hc p hp q hq (by simpa using hb.2)
    rw [this]
    exact hb.1
  · intro h
    exact ⟨p, hp, by rw [h]; simp⟩

end

section
variable {F K R S P D O G : Type} [Field K] [LinearOrder K] [Zero R] [One R] [Add R]

theorem simulate_without {base : SimCfg R (IrMat R) F S (G × Coll (K × K × K) (IrMat R)) P D O} {ext : RoomExt K R G}
    {i : RoomInfo K} {g : G} {c : Coll (K × K × K) (IrMat R)} {srcs : String → S} {proc : P} {f0 : F} {ds : List (Diag D)}
    {M : List String} (hc : c.Consistent) (hM : ∀ m ∈ M, m ∈ c.mics)
    (hrir : ∀ b g g' ss ms, (ext.rir b g ss ms).2 = (ext.rir b g' ss ms).2)
    (hrand : ∀ s m, m ∉ M → c.types s m ≠ some "random")
    (hp : ∀ p, base.proc = some p → p.Ignores (signalOf base.contrib c.infos M))
    {Pd : D → Prop} (hb : Blind (signalOf base.contrib c.infos M) base.diag Pd) (hd : ∀ d ∈ ds, Pd d.data)
    {fin : SimSt R F S (G × Coll (K × K × K) (IrMat R)) P D O} (hx : simulate base ext i g c srcs proc f0 ds = .ok fin) :
    ∃ fin', simulate base ext i g (c.without M) srcs proc f0 ds = .ok fin' ∧
      StRel (signalOf base.contrib c.infos M) (CRel M.contains fun t => t ≠ "random") Pd fin fin' := by
  unfold simulate roomSetup at hx ⊢
  cases hpar : i.parameters ext with
  | error x => rw [hpar] at hx; cases hx
  | ok par =>
    rw [hpar] at hx
    dsimp only at hx ⊢
    cases hset : c.setupIr (createPath (i.cfg ext par)) g with
    | error x => rw [hset] at hx; cases hx
    | ok gc =>
      rw [hset] at hx
      dsimp only at hx
      have hst : Steady (createPath (i.cfg ext par)) fun t => t ≠ "random" :=
        createPath_steady fun g g' ss ms => hrir _ g g' _ _
      have hmics : ∀ m ∈ M, ∃ a ∈ c.arrays, a.kind = some .mic ∧ a.name = m := fun m hm => by
        rw [← hc.mem_mics]; exact hM m hm
      have hrel : CRel M.contains (fun t => t ≠ "random") (g, c) (g, c.without M) := by
        refine CRel.of_without _ ?_ ?_ ?_
        · intro a ha hm
          obtain ⟨b, hb, hk, he⟩ := hmics a.name (by simpa using hm)
          rw [← hc.inj hb ha he]
          exact hk
        · intro s hs
          cases h : M.contains s with
          | false => rfl
          | true => exact absurd hs (hc.disjoint (hM s (by simpa using h)))
        · intro s m t hm ht e
          exact hrand s m (by simpa using hm) (by rw [ht, e])
      obtain ⟨gc', hset', hrel'⟩ := setupIr_hide (gc := (g, c)) (gc' := (g, c.without M)) hst (by decide) hrel hset
      dsimp only at hset'
      rw [hset']
      dsimp only
      obtain ⟨cfg, hcfg⟩ : ∃ cfg : SimCfg R (IrMat R) F S (G × Coll (K × K × K) (IrMat R)) P D O,
        cfg = { base with
          arrays := c.infos, arrUpdate := Coll.update (createPath (i.cfg ext par)), arrPath := Coll.path } := ⟨_, rfl⟩
      rw [← hcfg] at hx
      have hn := run_names hx
      have ea : cfg.arrays = c.infos := by rw [hcfg]
      have ec : cfg.contrib = base.contrib := by rw [hcfg]
      have hMi : ∀ m ∈ M, ∃ a ∈ cfg.arrays, a.name = m := by
        intro m hm
        obtain ⟨a, ha, hk, he⟩ := hmics m hm
        rw [ea]
        exact ⟨⟨a.name, a.num, .mic, a.dynamic⟩, List.mem_filterMap.2 ⟨a, ha, by rw [hk]; rfl⟩, he⟩
      have hmic : ∀ a ∈ cfg.arrays, M.contains a.name = true → a.kind = .mic := by
        intro a ha hm
        rw [ea] at ha
        obtain ⟨b, hb, he⟩ := List.mem_filterMap.1 ha
        cases hk : b.kind with
        | none => rw [hk] at he; cases he
        | some k =>
          rw [hk] at he
          cases he
          have := hrel.mic b hb hm
          rw [hk] at this
          exact Option.some.inj this
      have hH : Hidden (signalOf base.contrib c.infos M) cfg := by
        rw [← ea, ← ec]
        refine ⟨fun a ha hm => ?_, fun hcn p hp => ?_, fun p hpp q hq => ?_, fun p hpp => ?_⟩
        · rw [signalOf_array hn ha] at hm
          exact hmic a ha hm
        · rw [signalOf_contrib hn hMi hcn hp, signalOf_array hn (mem_combos_src hp).2.2]
        · rw [ea, ec]
          exact (hp p (by rw [← hpp, hcfg])).1 q hq
        · rw [ea, ec]
          exact (hp p (by rw [← hpp, hcfg])).2
      have hCR : CollRel (signalOf base.contrib c.infos M) cfg (Coll.update (createPath (i.cfg ext par))) Coll.path
          (CRel M.contains fun t => t ≠ "random") := by
        refine ⟨fun a a' a1 n hr hu => ?_, fun a a' s m v hr hm hv => ?_⟩
        · exact update_hide hst hr (by rw [← hu, hcfg])
        · have hm' : M.contains m = false := by
            unfold signalOf at hm
            exact (Bool.or_eq_false_iff.1 hm).1
          rw [path_hide hr hm', ← hv, hcfg]
      obtain ⟨fin', hf, hs⟩ := run_hide hH hCR (Pd := Pd) (by rw [hcfg]; exact hb) hrel' hd hx
      refine ⟨fin', ?_, hs⟩
      rw [← hf, infos_without]
      congr 1
      have ek : keptArrays M.contains c.infos = keptArrays (signalOf base.contrib c.infos M) cfg.arrays := by
        rw [← ec, ← ea]
        unfold keptArrays
        exact List.filter_congr fun a ha => by rw [signalOf_array hn ha]
      rw [ek, hcfg]
      rfl

end
end Verif

/-
C124: a maximal length of the impulse responses beyond the longest response does not matter.
-/
import Verif.Lemmas.PathRel
import Verif.Lemmas.AlikeBase
import Verif.Spec.Room
import Verif.Props.Room
namespace Verif

/-- Two rows are the same up to zeros at the end. -/
def SameRow {R : Type} [Zero R] (r r' : List R) : Prop := ∀ k, r.getD k 0 = r'.getD k 0

/-- Two arrays of impulse responses are the same up to zeros at the end. -/
structure SameIr {R : Type} [Zero R] (h h' : IrMat R) : Prop where
  numIn : h.numIn = h'.numIn
  numOut : h.numOut = h'.numOut
  ir : ∀ i j, SameRow (h.ir i j) (h'.ir i j)

/-- Two filters with the same past input whose impulse responses are the same up to zeros at the end. -/
structure SameFir {R : Type} [Zero R] (f f' : Fir R) : Prop where
  mat : SameIr f.mat f'.mat
  hist : f.hist = f'.hist

section
variable {R : Type} [Field R]

theorem sum_range_getD (r : List R) (x : Nat → R) : ∀ n, r.length ≤ n →
    ((List.range n).map fun k => r.getD k 0 * x k).sum = ((List.range r.length).map fun k => r.getD k 0 * x k).sum
  | 0, h => by rw [Nat.le_zero.1 h]
  | n + 1, h => by
    rcases Nat.lt_or_ge n r.length with h1 | h1
    · rw [Nat.le_antisymm h h1]
    · rw [List.range_succ, List.map_append, List.sum_append, sum_range_getD r x n h1, List.map_singleton, List.sum_singleton,
        List.getD_eq_default _ _ h1, zero_mul, add_zero]

theorem SameRow.sum {r r' : List R} (h : SameRow r r') (x : Nat → R) :
    ((List.range r.length).map fun k => r.getD k 0 * x k).sum =
      ((List.range r'.length).map fun k => r'.getD k 0 * x k).sum := by
  rw [← sum_range_getD r x (max r.length r'.length) (Nat.le_max_left _ _),
    ← sum_range_getD r' x (max r.length r'.length) (Nat.le_max_right _ _)]
  refine congrArg List.sum (List.map_congr_left fun k _ => ?_)
  rw [h k]

theorem SameIr.firOut {h h' : IrMat R} (H : SameIr h h') (hist : List (List R)) (m : Nat) :
    firOut h hist m = firOut h' hist m := by
  unfold Verif.firOut
  rw [H.numIn]
  refine congrArg List.sum (List.map_congr_left fun s _ => ?_)
  exact (H.ir s m).sum fun k => (hist.getD k []).getD s 0

theorem SameFir.process {f f' g : Fir R} {x y : Mat R} (H : SameFir f f') (hx : f.process x = .ok (g, y)) :
    ∃ g', f'.process x = .ok (g', y) ∧ SameFir g g' := by
  unfold Fir.process at hx ⊢
  rw [← H.mat.numIn]
  split at hx
  · cases hx
  · rename_i h1
    rw [if_neg h1]
    cases hx
    refine ⟨{ f' with hist := (colsOf x (numCols x)).reverse ++ f'.hist }, ?_, ?_⟩
    · dsimp only
      simp only [← H.mat.numOut, ← H.hist, ← H.mat.firOut]
    · exact ⟨H.mat, by dsimp only; rw [H.hist]⟩

theorem SameFir.updateIr {f f' g : Fir R} {h h' : IrMat R} (H : SameFir f f') (hh : SameIr h h')
    (hx : f.updateIr h = .ok g) : ∃ g', f'.updateIr h' = .ok g' ∧ SameFir g g' := by
  unfold Fir.updateIr at hx ⊢
  rw [← hh.numIn, ← hh.numOut, ← H.mat.numIn, ← H.mat.numOut]
  split at hx
  · rename_i h1
    rw [if_pos h1]
    cases hx
    exact ⟨_, rfl, ⟨hh, H.hist⟩⟩
  · cases hx

omit [Field R] in
theorem assignRir_same [Zero R] {L L' : Nat} {row row' rir row1 : List R} (h : SameRow row row') (h1 : rir.length ≤ L)
    (h2 : rir.length ≤ L') (hx : assignRir L 0 row rir = .ok row1) :
    ∃ row1', assignRir L' 0 row' rir = .ok row1' ∧ SameRow row1 row1' := by
  unfold assignRir at hx ⊢
  rw [Nat.min_eq_left h1] at hx
  rw [Nat.min_eq_left h2]
  simp only [Nat.zero_le, if_true, List.drop_zero, Nat.sub_zero, List.take_length] at hx ⊢
  cases hx
  refine ⟨_, rfl, fun k => ?_⟩
  rcases Nat.lt_or_ge k rir.length with hk | hk
  · rw [List.getD_append _ _ _ _ hk, List.getD_append _ _ _ _ hk]
  · rw [List.getD_append_right _ _ _ _ hk, List.getD_append_right _ _ _ _ hk]
    have := h (rir.length + (k - rir.length))
    simpa only [List.getD_eq_getElem?_getD, List.getElem?_drop] using this

theorem fillReceiver_same {L L' : Nat} {nf q : Nat} : ∀ (f : Nat) (l : List (List R)) {ir ir' ir1 : Nat → Nat → List R},
    (∀ i j, SameRow (ir i j) (ir' i j)) → (∀ r ∈ l, r.length ≤ L ∧ r.length ≤ L') →
    fillReceiver L 0 nf q f l ir = .ok ir1 →
    ∃ ir1', fillReceiver L' 0 nf q f l ir' = .ok ir1' ∧ ∀ i j, SameRow (ir1 i j) (ir1' i j)
  | f, [], ir, ir', ir1, h, _, hx => by
    unfold fillReceiver at hx ⊢
    cases hx
    exact ⟨_, rfl, h⟩
  | f, r :: l, ir, ir', ir1, h, hl, hx => by
    unfold fillReceiver at hx ⊢
    split at hx
    · cases hx
    · rename_i h1
      rw [if_neg h1]
      split at hx
      · cases hx
      · rename_i row hrow
        have hr := hl r (List.mem_cons_self ..)
        obtain ⟨row', hrow', hs⟩ := assignRir_same (h f q) hr.1 hr.2 hrow
        rw [hrow']
        refine fillReceiver_same (f + 1) l ?_ (fun x hx => hl x (List.mem_cons_of_mem _ hx)) hx
        intro i j
        split
        · exact hs
        · exact h i j

theorem fillBatch_same {L L' : Nat} {nf nt : Nat} : ∀ (q : Nat) (l : List (List (List R))) {ir ir' ir1 : Nat → Nat → List R},
    (∀ i j, SameRow (ir i j) (ir' i j)) → (∀ rs ∈ l, ∀ r ∈ rs, r.length ≤ L ∧ r.length ≤ L') →
    fillBatch L 0 nf nt q l ir = .ok ir1 →
    ∃ ir1', fillBatch L' 0 nf nt q l ir' = .ok ir1' ∧ ∀ i j, SameRow (ir1 i j) (ir1' i j)
  | q, [], ir, ir', ir1, h, _, hx => by
    unfold fillBatch at hx ⊢
    cases hx
    exact ⟨_, rfl, h⟩
  | q, rs :: l, ir, ir', ir1, h, hl, hx => by
    unfold fillBatch at hx ⊢
    split at hx
    · cases hx
    · rename_i h1
      rw [if_neg h1]
      split at hx
      · cases hx
      · rename_i ir2 h2
        obtain ⟨ir2', h3, h4⟩ := fillReceiver_same 0 rs h (hl rs (List.mem_cons_self ..)) h2
        rw [h3]
        exact fillBatch_same (q + 1) l h4 (fun x hx => hl x (List.mem_cons_of_mem _ hx)) hx

section
variable {Pt G : Type}

theorem ismLoop_same {c : RirCfg R Pt G} {L' : Nat} (hm : c.minDly = 0)
    (hlen : ∀ g ss ms, ∀ rs ∈ (c.roomRir g ss ms).2, ∀ r ∈ rs, r.length ≤ c.irLen ∧ r.length ≤ L') (src mic : Geo Pt) :
    ∀ (fuel done : Nat) (g g1 : G) (ir ir' ir1 : Nat → Nat → List R), (∀ i j, SameRow (ir i j) (ir' i j)) →
    ismLoop c src mic fuel done g ir = .ok (g1, ir1) →
    ∃ ir1', ismLoop { c with irLen := L' } src mic fuel done g ir' = .ok (g1, ir1') ∧ ∀ i j, SameRow (ir1 i j) (ir1' i j)
  | fuel, done, g, g1, ir, ir', ir1, h, hx => by
    unfold ismLoop at hx ⊢
    split at hx
    · rename_i hd
      rw [if_pos hd]
      cases hx
      exact ⟨_, rfl, h⟩
    · rename_i hd
      rw [if_neg hd]
      cases fuel with
      | zero => cases hx
      | succ fuel =>
        dsimp only at hx ⊢
        split at hx
        · cases hx
        · rename_i ho
          rw [if_neg ho]
          split at hx
          · cases hx
          · rename_i ir2 hf
            rw [hm] at hf
            obtain ⟨ir2', hf', h2⟩ := fillBatch_same (L' := L') _ _ h (hlen _ _ _) hf
            rw [← hm] at hf'
            rw [hf']
            exact ismLoop_same hm hlen src mic fuel _ _ _ _ _ _ h2 hx

theorem sameRow_zeros (n m : Nat) : SameRow (List.replicate n (0 : R)) (List.replicate m 0) := by
  intro k
  simp only [List.getD_eq_getElem?_getD, List.getElem?_replicate]
  split <;> split <;> rfl

theorem sameIr_refl (h : IrMat R) : SameIr h h := ⟨rfl, rfl, fun _ _ _ => rfl⟩

theorem createPath_same {c : RirCfg R Pt G} {L' : Nat} (hm : c.minDly = 0) (hp : c.highpass = false)
    (hlen : ∀ g ss ms, ∀ rs ∈ (c.roomRir g ss ms).2, ∀ r ∈ rs, r.length ≤ c.irLen ∧ r.length ≤ L') :
    GenRel (fun t => t ≠ "random") SameIr (createPath c) (createPath { c with irLen := L' }) := by
  intro g a b t g1 h ht hx
  unfold createPath at hx ⊢
  simp only [hp, Bool.false_eq_true, if_false] at hx ⊢
  split at hx
  · rename_i h1
    rw [if_pos h1]
    cases hx
    exact ⟨_, rfl, sameIr_refl _⟩
  · rename_i h1
    rw [if_neg h1]
    split at hx
    · rename_i h2
      rw [if_pos h2]
      split at hx
      · cases hx
      · rename_i h3
        rw [if_neg h3]
        cases hx
        exact ⟨_, rfl, sameIr_refl _⟩
    · rename_i h2
      rw [if_neg h2, if_neg ht]
      split at hx
      · rename_i h3
        rw [if_pos h3]
        split at hx
        · rename_i h4
          rw [if_pos h4]
          split at hx
          · cases hx
          · rename_i gh hgh
            cases hx
            unfold ismPath at hgh
            split at hgh
            · cases hgh
            · rename_i g2 ir hir
              cases hgh
              obtain ⟨ir', hir', hs⟩ := ismLoop_same hm hlen a b _ _ _ _ _ (fun _ _ => List.replicate L' 0) _
                (fun _ _ => sameRow_zeros _ _) hir
              unfold ismPath
              dsimp only
              rw [hp] at hir'
              rw [hir']
              exact ⟨_, rfl, ⟨rfl, rfl, hs⟩⟩
        · cases hx
      · cases hx

end

section
variable {K S P D O G : Type} [Field K] [LinearOrder K]

/-- **C124** A simulation without random paths and without the high-pass filter, in which no response of the
image-source package is longer than `max_room_ir_length`, gives the same with every other
`max_room_ir_length` that is not less than the longest response: the same signals, processor, diagnostics and exported
results.  The impulse responses differ by zeros at the end. -/
theorem C124_response_length (base : SimCfg R (IrMat R) (Fir R) S (G × Coll (K × K × K) (IrMat R)) P D O)
    (hf : base.filt = firOps R) (ext : RoomExt K R G) (i : RoomInfo K) (L' : Nat) (hcut : i.cutoff ≤ 0)
    (hlen : ∀ par, i.parameters ext = .ok par → ∀ g ss ms,
      ∀ rs ∈ (ext.rir ⟨i.size, par.1, par.2, i.samplerate, i.randomized, i.speed, 2 * i.extraDelay + 1⟩ g ss ms).2,
      ∀ r ∈ rs, r.length ≤ i.irLen ∧ r.length ≤ L')
    {g : G} {c : Coll (K × K × K) (IrMat R)} (hT : ∀ s m, c.types s m ≠ some "random") {srcs : String → S} {proc : P} {f0 : Fir R}
    {ds : List (Diag D)} {fin : SimSt R (Fir R) S (G × Coll (K × K × K) (IrMat R)) P D O}
    (h : simulate base ext i g c srcs proc f0 ds = .ok fin) :
    ∃ fin', simulate base ext { i with irLen := L' } g c srcs proc f0 ds = .ok fin' ∧
      fin'.eng.sig = fin.eng.sig ∧ fin'.eng.srcs = fin.eng.srcs ∧ fin'.eng.proc = fin.eng.proc ∧
      fin'.idx = fin.idx ∧ fin'.n = fin.n ∧ fin'.diags = fin.diags ∧ fin'.log = fin.log ∧
      fin'.eng.arr.1 = fin.eng.arr.1 ∧ fin'.eng.arr.2.arrays = fin.eng.arr.2.arrays ∧
      (∀ s m, Option.Rel SameIr (fin.eng.arr.2.paths s m) (fin'.eng.arr.2.paths s m)) ∧
      ∀ p ∈ combosOf c.infos, SameFir (fin.eng.filts p.1.name p.2.name) (fin'.eng.filts p.1.name p.2.name) := by
  unfold simulate roomSetup at h ⊢
  have hpar : ({ i with irLen := L' } : RoomInfo K).parameters ext = i.parameters ext := rfl
  rw [hpar]
  cases hp : i.parameters ext with
  | error x => rw [hp] at h; cases h
  | ok par =>
  rw [hp] at h
  dsimp only at h ⊢
  have hgen : GenRel (fun t => t ≠ "random") SameIr (createPath (i.cfg ext par))
      (createPath (({ i with irLen := L' } : RoomInfo K).cfg ext par)) := by
    refine createPath_same (c := i.cfg ext par) (L' := L') rfl (decide_eq_false (not_lt.2 hcut)) ?_
    intro g ss ms rs hrs r hr
    simp only [RoomInfo.cfg, Nat.zero_add] at hrs
    exact hlen par hp g _ _ rs hrs r hr
  cases hs : c.setupIr (createPath (i.cfg ext par)) g with
  | error x => rw [hs] at h; cases h
  | ok gc =>
  rw [hs] at h
  dsimp only at h
  have hc : PRel (fun t => t ≠ "random") SameIr (g, c) (g, c) := by
    refine ⟨rfl, rfl, rfl, rfl, rfl, rfl, ?_, ?_, ?_⟩
    · intro s m
      cases c.paths s m with
      | none => exact .none
      | some v => exact .some (sameIr_refl v)
    · exact List.forall₂_same.2 fun x _ => sameIr_refl x
    · rintro s m t ht rfl
      exact hT s m ht
  obtain ⟨gc', hs', hr⟩ := setupIr_rel hgen (by simp) hc hs
  rw [hs']
  dsimp only
  generalize hcfg : ({ base with
      arrays := c.infos, arrUpdate := Coll.update (createPath (i.cfg ext par)), arrPath := Coll.path } :
      SimCfg R (IrMat R) (Fir R) S (G × Coll (K × K × K) (IrMat R)) P D O) = cfg at h
  have hN : Names cfg := by
    unfold SimCfg.run at h
    split at h
    · cases h
    · rename_i st hst
      exact names_of cfg (init_nodup cfg hst)
  obtain ⟨dyn, hd1, hd2⟩ := exists_dyn cfg.arrays hN.inj
  have hpd : ∀ p ∈ combosOf cfg.arrays, pairDyn dyn p = p := by
    intro p hp
    have hm := mem_combos_src hp
    have e : ∀ a ∈ cfg.arrays, a.withDyn dyn = a := fun a ha => by
      unfold ArrInfo.withDyn
      rw [hd2 a ha]
    unfold pairDyn
    rw [e _ hm.1, e _ hm.2.2]
  subst hcfg
  have H := Alike.mk (hid := fun _ => false) (dyn := dyn)
    (cfg := { base with
      arrays := c.infos, arrUpdate := Coll.update (createPath (i.cfg ext par)), arrPath := Coll.path })
    (cfg' := { base with
      arrays := c.infos, arrUpdate := Coll.update (createPath (({ i with irLen := L' } : RoomInfo K).cfg ext par))
      arrPath := Coll.path })
    (RA := PRel (fun t => t ≠ "random") SameIr) (RF := fun _ _ f f' => SameFir f f')
    rfl rfl rfl rfl rfl rfl rfl rfl hd1.symm id (fun hc p hp => by dsimp only at hc ⊢; rw [hc]; rfl)
    (fun _ _ => rfl) (fun _ _ _ _ => rfl)
    (fun p hp x S S' i x1 S1 hS hx => ⟨S1, by rw [← hS.eq]; exact hx, fun _ _ => rfl⟩)
    (fun a a' a1 n ha hx => update_rel hgen ha hx)
    (fun a a' ha p hp ir hir => by
      obtain ⟨ir', h1, h2⟩ := path_rel ha hir
      refine ⟨ir', h1, ?_⟩
      dsimp only
      rw [hf]
      exact ⟨h2, rfl⟩)
    (fun p hp f f' x g y hff hx => by
      dsimp only at hx ⊢
      rw [hf] at hx ⊢
      exact hff.process hx)
    (fun a a' ha p hp f f' g hff hx => by
      rw [hpd p hp]
      unfold SimCfg.updFilt at hx ⊢
      dsimp only at hx ⊢
      rw [hf] at hx ⊢
      split at hx
      · rename_i hdyn
        rw [if_pos hdyn]
        split at hx
        · cases hx
        · rename_i ir hir
          obtain ⟨ir', h1, h2⟩ := path_rel ha hir
          rw [h1]
          exact hff.updateIr h2 hx
      · rename_i hdyn
        rw [if_neg hdyn]
        cases hx
        exact ⟨_, rfl, hff⟩)
  obtain ⟨fin', h1, h2⟩ := H.run (blind_false _) hr (f0' := f0) (fun _ _ => trivial) h
  exact ⟨fin', h1, h2.eng.sig.eq.symm, h2.eng.srcs.symm, h2.eng.proc.symm, h2.idx.symm, h2.n.symm, h2.diags.symm, h2.log.symm,
    h2.eng.arr.gen, h2.eng.arr.arrays, h2.eng.arr.paths, h2.eng.filts⟩

end
end

/-- The box, whose responses have 3 samples, with 3 and with 7 samples. -/
example : micBuffer ((boxSim { boxInfo with irLen := 7 } (boxColl "ism")).map observe) =
    micBuffer ((boxSim boxInfo (boxColl "ism")).map observe) ∧
    micBuffer ((boxSim boxInfo (boxColl "ism")).map observe) ≠ none := by
  have hne : micBuffer ((boxSim boxInfo (boxColl "ism")).map observe) ≠ none := by decide +kernel
  refine ⟨?_, hne⟩
  cases h : boxSim boxInfo (boxColl "ism") with
  | error x => rw [h] at hne; exact absurd rfl hne
  | ok fin =>
    obtain ⟨fin', h1, h2, -⟩ := C124_response_length boxBase rfl boxExt boxInfo 7 (le_refl _) (by
        intro par _ g ss ms rs hrs r hr
        obtain ⟨m, -, rfl⟩ := List.mem_map.1 hrs
        obtain ⟨s, -, rfl⟩ := List.mem_map.1 hr
        exact ⟨le_refl 3, by simp⟩)
      (c := boxColl "ism") (by
        intro s m hsm
        have : (boxColl "ism").types s m = none ∨ (boxColl "ism").types s m = some "ism" := by
          have e : (boxColl "ism").types s m = if s = "src" ∧ m = "mic" then some "ism" else none := rfl
          rw [e]
          split
          · exact .inr rfl
          · exact .inl rfl
        rcases this with e | e <;> rw [e] at hsm <;> simp at hsm) h
    unfold boxSim
    rw [h1]
    simp only [Except.map, micBuffer, observe, h2]

/-- Fewer samples than the responses have make a difference. -/
example : micBuffer ((boxSim { boxInfo with irLen := 2 } (boxColl "ism")).map observe) ≠
    micBuffer ((boxSim boxInfo (boxColl "ism")).map observe) := by decide +kernel

end Verif

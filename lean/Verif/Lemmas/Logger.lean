import Verif.Spec.Pieces
import Verif.Lemmas.Sim
import Mathlib.Data.List.Forall2

namespace Verif

/-! ### pieces -/

theorem Chain.append {a b c : Int} : ∀ {ps qs : List (Int × Int)}, Chain a ps b → Chain b qs c →
    Chain a (ps ++ qs) c
  | [], qs, h, h' => by cases h; exact h'
  | q :: ps, qs, h, h' => by
    obtain ⟨h1, h2, h3⟩ := h
    exact ⟨h1, h2, Chain.append h3 h'⟩

theorem Chain.le {a b : Int} : ∀ {ps : List (Int × Int)}, Chain a ps b → a ≤ b
  | [], h => le_of_eq h
  | q :: ps, h => by
    obtain ⟨h1, h2, h3⟩ := h
    have := Chain.le h3
    omega

theorem Chain.single {a b : Int} (h : a < b) : Chain a [(a, b)] b := ⟨rfl, h, rfl⟩

theorem Refine.snoc {done dp : List (Int × Int)} (h : Refine done dp) {a b : Int}
    {cp : List (Int × Int)} (hc : Chain a cp b) : Refine (done ++ [(a, b)]) (dp ++ cp) := by
  induction h with
  | nil =>
    have := Refine.cons hc Refine.nil
    simpa using this
  | cons h1 _ ih =>
    have := Refine.cons h1 ih
    simpa using this

theorem lastEnd_append (lo : Int) (ps qs : List (Int × Int)) :
    lastEnd lo (ps ++ qs) = lastEnd (lastEnd lo ps) qs := by
  simp [lastEnd]

theorem Chain.lastEnd_eq {a b : Int} : ∀ {ps : List (Int × Int)} (lo : Int), Chain a ps b → ps ≠ [] →
    lastEnd lo ps = b
  | [], _, _, h => absurd rfl h
  | [q], lo, h, _ => h.2.2
  | q :: q' :: ps, lo, h, _ => by
    have := Chain.lastEnd_eq q.2 h.2.2 (by simp)
    simpa [lastEnd] using this

theorem Chain.ends_le {a b : Int} : ∀ {ps : List (Int × Int)}, Chain a ps b →
    ∀ q ∈ ps, a ≤ q.1 ∧ q.1 < q.2 ∧ q.2 ≤ b
  | [], _, q, hq => by simp at hq
  | p :: ps, h, q, hq => by
    obtain ⟨h1, h2, h3⟩ := h
    rcases List.mem_cons.1 hq with rfl | hq
    · exact ⟨by omega, h2, h3.le⟩
    · have := Chain.ends_le h3 q hq
      omega

theorem savePieces_append {R P D O : Type} (ops : DiagOps R P D O) (dims : String → Option Nat)
    (T : Tape R) (pf : Nat → Option P) (ps qs : List (Int × Int)) (d : D) :
    savePieces ops dims T pf (ps ++ qs) d =
      (savePieces ops dims T pf ps d).bind (savePieces ops dims T pf qs) := by
  unfold savePieces
  rw [List.foldlM_append]
  rfl

theorem savePieces_congr {R P D O : Type} (ops : DiagOps R P D O) (dims : String → Option Nat)
    (T T' : Tape R) (pf : Nat → Option P) :
    ∀ (ps : List (Int × Int)) (d : D),
      (∀ q ∈ ps, ∀ k c t, t < q.2 - 1 → T k c t = T' k c t) →
      savePieces ops dims T pf ps d = savePieces ops dims T' pf ps d
  | [], d, _ => rfl
  | q :: ps, d, h => by
    have hc : cut dims T (q.1 - 1) (q.2 - q.1).toNat = cut dims T' (q.1 - 1) (q.2 - q.1).toNat :=
      cut_congr fun k num c p _ _ hp => h q (by simp) k c _ (by omega)
    have ih := fun d => savePieces_congr ops dims T T' pf ps d fun q hq => h q (by simp [hq])
    unfold savePieces at ih ⊢
    simp only [List.foldlM_cons, hc]
    cases ops.save d (pf q.2.toNat) (cut dims T' (q.1 - 1) (q.2 - q.1).toNat) (0, q.2 - q.1) q with
    | error x => rfl
    | ok d' => exact ih d'

/-! ### mapM in `Except` -/

theorem mapM_ok_forall₂ {ε α β : Type} {f : α → Except ε β} :
    ∀ {l : List α} {l' : List β}, l.mapM f = .ok l' → List.Forall₂ (fun a b => f a = .ok b) l l'
  | [], l', h => by
    rw [List.mapM_nil] at h; cases h; exact .nil
  | a :: l, l', h => by
    rw [List.mapM_cons] at h
    cases ha : f a with
    | error e => rw [ha] at h; cases h
    | ok b =>
      rw [ha] at h
      cases hl : l.mapM f with
      | error e => rw [hl] at h; cases h
      | ok bs => rw [hl] at h; cases h; exact .cons ha (mapM_ok_forall₂ hl)

theorem mapM_append_ok {ε α β : Type} {f : α → Except ε β} {l1 l2 : List α} {r1 r2 : List β}
    (h1 : l1.mapM f = .ok r1) (h2 : l2.mapM f = .ok r2) : (l1 ++ l2).mapM f = .ok (r1 ++ r2) := by
  rw [List.mapM_append, h1, h2]; rfl

theorem forall₂_imp_mem {α β : Type} {r r' : α → β → Prop} {l : List α} {l' : List β}
    (h : List.Forall₂ r l l') (H : ∀ a b, a ∈ l → b ∈ l' → r a b → r' a b) :
    List.Forall₂ r' l l' := by
  induction h with
  | nil => exact .nil
  | cons h _ ih =>
    exact .cons (H _ _ (by simp) (by simp) h) (ih fun a b ha hb => H a b (by simp [ha]) (by simp [hb]))

/-! ### dispatch -/

section
variable {R P D O : Type} (ops : DiagOps R P D O)

/-- What `dispatch` did to one diagnostic: exported the indices `xs`, all of
them already saved. -/
def Disp (d d' : Diag D) (evs : List (Event O)) : Prop :=
  d'.name = d.name ∧ d'.saveAt = d.saveAt ∧ d'.data = d.data ∧
  ∃ xs, (∀ x ∈ xs, x ≤ d.saveAt.savedUntil) ∧ d.exportAt.left = xs ++ d'.exportAt.left ∧
    xs.mapM (fun x => (ops.output d.data x).map (Event.mk d.name x)) = .ok evs

theorem Disp.refl (d : Diag D) : Disp ops d d [] :=
  ⟨rfl, rfl, rfl, [], by simp, rfl, rfl⟩

theorem Disp.trans {d d' d'' : Diag D} {e1 e2 : List (Event O)} (h1 : Disp ops d d' e1)
    (h2 : Disp ops d' d'' e2) : Disp ops d d'' (e1 ++ e2) := by
  obtain ⟨n1, s1, a1, xs, l1, x1, m1⟩ := h1
  obtain ⟨n2, s2, a2, ys, l2, x2, m2⟩ := h2
  refine ⟨n2.trans n1, s2.trans s1, a2.trans a1, xs ++ ys, ?_, ?_, ?_⟩
  · intro x hx
    rcases List.mem_append.1 hx with h | h
    · exact l1 x h
    · rw [← s1]; exact l2 x h
  · rw [x1, x2, List.append_assoc]
  · rw [a1, n1] at m2
    exact mapM_append_ok m1 m2

theorem exportOne_disp {d d' : Diag D} {evs : List (Event O)} (h : exportOne ops d = .ok (d', evs)) :
    Disp ops d d' evs ∧ ∀ ev ∈ evs, ev.diag = d.name := by
  unfold exportOne at h
  split at h
  · rename_i hr
    split at h
    · cases h
    · rename_i e he
      split at h
      · cases h
      · rename_i o ho
        cases h
        refine ⟨⟨rfl, rfl, rfl, [e], ?_, ?_, ?_⟩, by simp⟩
        · intro x hx
          rw [List.mem_singleton] at hx
          subst hx
          unfold Diag.ready at hr
          rw [he] at hr
          simpa using hr
        · unfold IxCounter.left IxCounter.progress
          rw [he]
          simp only
          cases hrest : d.exportAt.rest with
          | nil => rfl
          | cons a r => rfl
        · simp only [List.mapM_cons, List.mapM_nil, ho, Except.map]
          rfl
  · cases h
    exact ⟨Disp.refl ops d, by simp⟩

theorem evOf_append (nm : String) (a b : List (Event O)) : evOf nm (a ++ b) = evOf nm a ++ evOf nm b :=
  List.filter_append ..

theorem evOf_self {nm : String} {l : List (Event O)} (h : ∀ ev ∈ l, ev.diag = nm) : evOf nm l = l := by
  unfold evOf
  rw [List.filter_eq_self]
  intro ev hev; simp [h ev hev]

theorem evOf_other {nm nm' : String} {l : List (Event O)} (h : ∀ ev ∈ l, ev.diag = nm)
    (hne : nm ≠ nm') : evOf nm' l = [] := by
  unfold evOf
  rw [List.filter_eq_nil_iff]
  intro ev hev; simp [h ev hev, hne]

theorem exportRound_spec : ∀ {ds ds' : List (Diag D)} {evs : List (Event O)},
    (ds.map Diag.name).Nodup → exportRound ops ds = .ok (ds', evs) →
      List.Forall₂ (fun d d' => Disp ops d d' (evOf d.name evs)) ds ds' ∧
      (∀ nm, nm ∉ ds.map Diag.name → evOf nm evs = [])
  | [], ds', evs, _, h => by
    simp only [exportRound] at h
    cases h
    exact ⟨.nil, fun _ _ => rfl⟩
  | d :: ds, ds', evs, hnd, h => by
    simp only [exportRound] at h
    split at h
    · cases h
    · rename_i d1 ev h1
      split at h
      · cases h
      · rename_i ds1 evs1 h2
        cases h
        simp only [List.map_cons, List.nodup_cons] at hnd
        obtain ⟨i1, i2⟩ := exportRound_spec hnd.2 h2
        obtain ⟨g1, g2⟩ := exportOne_disp ops h1
        refine ⟨.cons ?_ ?_, ?_⟩
        · rw [evOf_append, evOf_self g2, i2 _ hnd.1, List.append_nil]
          exact g1
        · refine forall₂_imp_mem i1 ?_
          intro x y hx _ hxy
          rw [evOf_append, evOf_other g2 (nm' := x.name), List.nil_append]
          · exact hxy
          · rintro hh
            apply hnd.1
            rw [hh]; exact List.mem_map_of_mem hx
        · intro nm hnm
          simp only [List.map_cons, List.mem_cons, not_or] at hnm
          rw [evOf_append, evOf_other g2 (fun h => hnm.1 h.symm), i2 nm hnm.2]
          rfl

theorem forall₂_names {ds ds' : List (Diag D)} {f : Diag D → List (Event O)}
    (h : List.Forall₂ (fun d d' => Disp ops d d' (f d)) ds ds') :
    ds'.map Diag.name = ds.map Diag.name := by
  induction h with
  | nil => rfl
  | cons h _ ih => simp only [List.map_cons, ih, h.1]

theorem forall₂_disp_trans {ds ds' ds'' : List (Diag D)} {e1 e2 : List (Event O)}
    (h1 : List.Forall₂ (fun d d' => Disp ops d d' (evOf d.name e1)) ds ds')
    (h2 : List.Forall₂ (fun d d' => Disp ops d d' (evOf d.name e2)) ds' ds'') :
    List.Forall₂ (fun d d' => Disp ops d d' (evOf d.name (e1 ++ e2))) ds ds'' := by
  induction h1 generalizing ds'' with
  | nil => cases h2; exact .nil
  | cons h _ ih =>
    cases h2 with
    | cons g gs =>
      refine .cons ?_ (ih gs)
      rw [evOf_append]
      rw [h.1] at g
      exact h.trans ops g

theorem dispatchLoop_spec : ∀ (fuel : Nat) {ds ds' : List (Diag D)} {log log' : List (Event O)},
    (ds.map Diag.name).Nodup → dispatchLoop ops fuel ds log = .ok (ds', log') →
      (∀ d ∈ ds', d.ready = false) ∧ ∃ evs, log' = log ++ evs ∧
      List.Forall₂ (fun d d' => Disp ops d d' (evOf d.name evs)) ds ds' ∧
      (∀ nm, nm ∉ ds.map Diag.name → evOf nm evs = []) := by
  have hstop : ∀ {ds ds' : List (Diag D)} {log log' : List (Event O)}, ¬ ds.any Diag.ready →
      (Except.ok (ds, log) : Except PyErr _) = .ok (ds', log') →
      (∀ d ∈ ds', d.ready = false) ∧ ∃ evs, log' = log ++ evs ∧
      List.Forall₂ (fun d d' => Disp ops d d' (evOf d.name evs)) ds ds' ∧
      (∀ nm, nm ∉ ds.map Diag.name → evOf nm evs = []) := by
    intro ds ds' log log' hr h
    cases h
    refine ⟨?_, [], by simp, ?_, fun _ _ => rfl⟩
    · intro d hd
      by_contra hc
      exact hr (List.any_eq_true.2 ⟨d, hd, by simpa using hc⟩)
    · exact List.forall₂_same.2 fun d _ => Disp.refl ops d
  intro fuel
  induction fuel with
  | zero =>
    intro ds ds' log log' hnd h
    simp only [dispatchLoop] at h
    split at h
    · cases h
    · rename_i hr; exact hstop hr h
  | succ fuel ih =>
    intro ds ds' log log' hnd h
    simp only [dispatchLoop] at h
    split at h
    · split at h
      · cases h
      · rename_i ds1 evs1 h1
        obtain ⟨g1, g2⟩ := exportRound_spec ops hnd h1
        have hn1 : ds1.map Diag.name = ds.map Diag.name := forall₂_names ops g1
        obtain ⟨i1, evs2, rfl, i2, i3⟩ := ih (by rw [hn1]; exact hnd) h
        refine ⟨i1, evs1 ++ evs2, by simp, forall₂_disp_trans ops g1 i2, ?_⟩
        intro nm hnm
        rw [evOf_append, g2 nm hnm, i3 nm (by rw [hn1]; exact hnm)]
        rfl
    · rename_i hr; exact hstop hr h

/-- The `while` loop ends within the fuel of `dispatch`: with enough fuel the
only errors are those raised by an export. -/
theorem dispatchLoop_enough : ∀ (fuel : Nat) (ds : List (Diag D)) (log : List (Event O)),
    (ds.map fun d => d.exportAt.remaining).sum ≤ fuel →
    (∀ d ∈ ds, ∀ x, ops.output d.data x ≠ .error .diverges) →
    dispatchLoop ops fuel ds log ≠ .error .diverges := by
  have hrem : ∀ d : Diag D, d.ready → 0 < d.exportAt.remaining := by
    intro d hd
    unfold Diag.ready at hd
    unfold IxCounter.remaining
    cases hu : d.exportAt.up with
    | none => rw [hu] at hd; cases hd
    | some e => simp
  have hone : ∀ (d d' : Diag D) ev, exportOne ops d = .ok (d', ev) →
      d'.data = d.data ∧ d'.exportAt.remaining + (if d.ready then 1 else 0) = d.exportAt.remaining := by
    intro d d' ev h
    unfold exportOne at h
    split at h
    · rename_i hr
      split at h
      · cases h
      · rename_i e he
        split at h
        · cases h
        · cases h
          refine ⟨rfl, ?_⟩
          simp only [hr, if_true, IxCounter.remaining, IxCounter.progress, he]
          cases d.exportAt.rest <;> simp [IxCounter.init]
    · rename_i hr
      cases h
      simp [hr]
  have hround : ∀ (ds ds' : List (Diag D)) ev, exportRound ops ds = .ok (ds', ev) →
      (∀ d' ∈ ds', ∃ d ∈ ds, d'.data = d.data) ∧
      (ds'.map fun d => d.exportAt.remaining).sum + (ds.countP Diag.ready) =
        (ds.map fun d => d.exportAt.remaining).sum := by
    intro ds
    induction ds with
    | nil => intro ds' ev h; simp only [exportRound] at h; cases h; simp
    | cons d ds ih =>
      intro ds' ev h
      simp only [exportRound] at h
      split at h
      · cases h
      · rename_i d1 ev1 h1
        split at h
        · cases h
        · rename_i ds1 evs1 h2
          cases h
          obtain ⟨a1, a2⟩ := hone _ _ _ h1
          obtain ⟨b1, b2⟩ := ih _ _ h2
          constructor
          · intro d' hd'
            rcases List.mem_cons.1 hd' with rfl | hd'
            · exact ⟨d, by simp, a1⟩
            · obtain ⟨x, hx, hx'⟩ := b1 _ hd'
              exact ⟨x, by simp [hx], hx'⟩
          · simp only [List.map_cons, List.sum_cons, List.countP_cons]
            split_ifs at a2 ⊢ <;> omega
  have herr : ∀ (ds : List (Diag D)), (∀ d ∈ ds, ∀ x, ops.output d.data x ≠ .error .diverges) →
      exportRound ops ds ≠ .error .diverges := by
    intro ds
    induction ds with
    | nil => intro _ h; simp [exportRound] at h
    | cons d ds ih =>
      intro hout h
      simp only [exportRound] at h
      split at h
      · rename_i x hx
        cases h
        unfold exportOne at hx
        split at hx
        · split at hx
          · cases hx
          · split at hx
            · rename_i e he x' hx'
              cases hx
              exact hout d (by simp) _ hx'
            · cases hx
        · cases hx
      · split at h
        · rename_i x hx
          cases h
          exact ih (fun d hd => hout d (by simp [hd])) hx
        · cases h
  have hz : ∀ l : List (Diag D), (l.map fun d => d.exportAt.remaining).sum = 0 →
      l.any Diag.ready = false := by
    intro l
    induction l with
    | nil => intro _; rfl
    | cons a l ih =>
      intro h
      simp only [List.map_cons, List.sum_cons] at h
      have := hrem a
      simp only [List.any_cons, ih (by omega), Bool.or_false]
      by_contra hc
      have := this (by simpa using hc)
      omega
  intro fuel
  induction fuel with
  | zero =>
    intro ds log hf _ h
    simp only [dispatchLoop] at h
    rw [hz ds (by omega)] at h
    simp at h
  | succ fuel ih =>
    intro ds log hf hout h
    simp only [dispatchLoop] at h
    split at h
    · rename_i hany
      split at h
      · rename_i x hx
        cases h
        exact herr ds hout hx
      · rename_i ds1 evs1 h1
        obtain ⟨a, b⟩ := hround _ _ _ h1
        have hpos : 0 < ds.countP Diag.ready := by
          rw [List.countP_pos_iff]
          obtain ⟨d, hd, hr⟩ := List.any_eq_true.1 hany
          exact ⟨d, hd, hr⟩
        refine ih ds1 _ (by omega) ?_ h
        intro d' hd' x
        obtain ⟨d, hd, he⟩ := a d' hd'
        rw [he]; exact hout d hd x
    · cases h

theorem dispatch_spec {pn : Bool} {ds ds' : List (Diag D)} {log log' : List (Event O)}
    (hnd : (ds.map Diag.name).Nodup) (h : dispatch ops pn ds log = .ok (ds', log')) :
      (pn = false → ∀ d ∈ ds', d.ready = false) ∧ ∃ evs, log' = log ++ evs ∧
      (pn = true → evs = []) ∧
      List.Forall₂ (fun d d' => Disp ops d d' (evOf d.name evs)) ds ds' ∧
      (∀ nm, nm ∉ ds.map Diag.name → evOf nm evs = []) := by
  unfold dispatch at h
  cases pn with
  | true =>
    simp only [if_true] at h
    cases h
    exact ⟨by simp, [], by simp, by simp, List.forall₂_same.2 fun d _ => Disp.refl ops d, fun _ _ => rfl⟩
  | false =>
    simp only [Bool.false_eq_true, if_false] at h
    obtain ⟨h1, evs, h2, h3, h4⟩ := dispatchLoop_spec ops _ hnd h
    exact ⟨fun _ => h1, evs, h2, by simp, h3, h4⟩

end
end Verif

import Verif.Lemmas.State
import Verif.Spec.Power

namespace Verif

section
variable {R IR F S A P V : Type} [Field R] [DecidableEq R]

/-! ### Diagnostics that write one row piece by piece -/

/-- The value at `t` after the pieces `ps`: the last piece containing `t` wins. -/
def lastPiece {α : Type} (G : Int → Nat → α) (t : Nat) (ps : List (Int × Int)) (x : Option α) : Option α :=
  ps.foldl (fun acc q => if q.1 ≤ (t : Int) ∧ (t : Int) < q.2 then some (G q.1 t) else acc) x

theorem lastPiece_spec {α : Type} (G : Int → Nat → α) (t : Nat) : ∀ (ps : List (Int × Int)) (x : Option α),
    (Covered ps t → ∃ q ∈ ps, q.1 ≤ (t : Int) ∧ (t : Int) < q.2 ∧ lastPiece G t ps x = some (G q.1 t)) ∧
    (¬ Covered ps t → lastPiece G t ps x = x)
  | [], x => ⟨fun h => (by obtain ⟨q, hq, _⟩ := h; cases hq), fun _ => rfl⟩
  | q :: ps, x => by
    have ih := lastPiece_spec G t ps (if q.1 ≤ (t : Int) ∧ (t : Int) < q.2 then some (G q.1 t) else x)
    rw [covered_cons]
    by_cases hc : Covered ps t
    · refine ⟨fun _ => ?_, fun h => absurd (Or.inr hc) h⟩
      obtain ⟨q', h1, h2, h3, h4⟩ := ih.1 hc
      exact ⟨q', by simp [h1], h2, h3, h4⟩
    · have e : lastPiece G t (q :: ps) x = if q.1 ≤ (t : Int) ∧ (t : Int) < q.2 then some (G q.1 t) else x :=
        ih.2 hc
      rw [e]
      by_cases hq : q.1 ≤ (t : Int) ∧ (t : Int) < q.2
      · refine ⟨fun _ => ⟨q, by simp, hq.1, hq.2, by rw [if_pos hq]⟩, fun h => absurd (Or.inl hq) h⟩
      · refine ⟨fun h => absurd h (by simp [hq, hc]), fun _ => by rw [if_neg hq]⟩

/-- A diagnostic class `K` with one row of data, whose `save` writes `G s t` at
the indices `t` of a piece starting at `s`. -/
def RowSaver {α : Type} (dims : String → Option Nat) (T : Tape R) (tot : Nat)
    (K : List (Option α) → DData R P V) (G : Int → Nat → α) : Prop :=
  ∀ (pr : Option P) (f : Nat → Option α) (s e : Int), 0 ≤ s → s < e → e ≤ tot →
    DData.save (K ((List.range tot).map f)) pr (cut dims T (s - 1) (e - s).toNat) (0, e - s) (s, e) =
      .ok (K ((List.range tot).map fun (t : Nat) => if s ≤ (t : Int) ∧ (t : Int) < e then some (G s t) else f t))

theorem RowSaver.pieces {α : Type} {dims : String → Option Nat} {T : Tape R} {tot : Nat}
    {K : List (Option α) → DData R P V} {G : Int → Nat → α} (hK : RowSaver dims T tot K G)
    (pf : Nat → Option P) : ∀ (ps : List (Int × Int)) (f : Nat → Option α),
      (∀ q ∈ ps, 0 ≤ q.1 ∧ q.1 < q.2 ∧ q.2 ≤ tot) →
      savePieces (diagOps R P V) dims T pf ps (K ((List.range tot).map f)) =
        .ok (K ((List.range tot).map fun t => lastPiece G t ps (f t)))
  | [], f, _ => rfl
  | q :: ps, f, h => by
    obtain ⟨h1, h2, h3⟩ := h q (by simp)
    have := hK (pf q.2.toNat) f q.1 q.2 h1 h2 h3
    unfold savePieces
    rw [List.foldlM_cons]
    have hs : (diagOps R P V).save = DData.save := rfl
    rw [hs, this]
    exact RowSaver.pieces hK pf ps _ fun q hq => h q (by simp [hq])

variable {cfg : SimCfg R IR F S A P (DData R P V) (DOut R V)} {lp : ProcView R P}
  {srcs : String → S} {arr : A} {proc : P} {f0 : F} {ds0 : List (Diag (DData R P V))}
  {st0 fin : SimSt R F S A P (DData R P V) (DOut R V)}

/-- What such a diagnostic contains after a run. -/
theorem DiagRun.rowRecorded {α : Type} {ok : String → Prop} {T : Tape R} {pf : Nat → Option P}
    (h : DiagRun cfg ds0 st0 fin ok T pf)
    {ivs : List (Int × Int)} {K : List (Option α) → DData R P V} {G : Int → Nat → α}
    {d : Diag (DData R P V)} (hmem : d ∈ ds0)
    (hsv : d.saveAt = IvCounter.init ivs) (hinc : Increasing 0 ivs)
    (hend : ∀ q ∈ ivs, q.2 ≤ (cfg.tot : Int))
    (hdata : d.data = K ((List.range cfg.tot).map fun _ => none))
    (hK : RowSaver cfg.dims T cfg.tot K G) (hok : ∀ name ∈ d.data.reads, ok name) :
    ∃ ps, Refine ivs ps ∧
      (∃ d' ∈ fin.diags, d'.name = d.name ∧
        d'.data = K ((List.range cfg.tot).map fun t => lastPiece G t ps none)) ∧
      ∀ ev ∈ evOf d.name fin.log, ∃ qs, qs <+: ps ∧ ev.time ≤ lastEnd 0 qs ∧ ev.time ≤ cfg.tot ∧
        DData.output (K ((List.range cfg.tot).map fun t => lastPiece G t qs none)) ev.time = .ok ev.out := by
  obtain ⟨d', hd', hname, ps, xs, href, hsave, _, _, hout, _⟩ := h.spec d hmem hok ivs hsv hinc hend
  have hb := (href.increasing hinc).bounds
  have hends := href.ends_le hend
  refine ⟨ps, href, ⟨d', hd', hname, ?_⟩, ?_⟩
  · rw [hdata, hK.pieces _ ps _ fun q hq => ⟨(hb q hq).1, (hb q hq).2, hends q hq⟩] at hsave
    exact (Except.ok.inj hsave).symm
  · intro ev hev
    obtain ⟨qs, hqs, dd, hsq, ho, hle, _⟩ := hout ev hev
    have hbq : ∀ q ∈ qs, 0 ≤ q.1 ∧ q.1 < q.2 ∧ q.2 ≤ cfg.tot := fun q hq =>
      ⟨(hb q (hqs.subset hq)).1, (hb q (hqs.subset hq)).2, hends q (hqs.subset hq)⟩
    rw [hdata, hK.pieces _ qs _ hbq] at hsq
    rw [← Except.ok.inj hsq] at ho
    exact ⟨qs, hqs, hle, le_trans hle (lastEnd_le (by omega) fun q hq => (hbq q hq).2.2), ho⟩

/-! ### Power -/

/-- Mean over the channels `rows` of the squared tape at step `τ`. -/
def tapePower (T : Tape R) (name : String) (rows : List Nat) (τ : Int) : R :=
  (rows.map fun c => T name c τ * T name c τ).sum / rows.length

theorem colPower_cut (T : Tape R) (name : String) (rows : List Nat) (hne : rows ≠ []) (a : Int) (n : Nat) :
    colPower (rows.map fun c => (List.range n).map fun (k : Nat) => T name c (a + k)) n =
      (List.range n).map fun (k : Nat) => some (tapePower T name rows (a + k)) := by
  obtain ⟨c, cs, rfl⟩ := List.exists_cons_of_ne_nil hne
  unfold colPower tapePower
  have hw : widthOr ((c :: cs).map fun c => (List.range n).map fun (k : Nat) => T name c (a + k)) n = n := by
    simp [widthOr]
  rw [hw]
  refine List.map_congr_left fun k hk => ?_
  simp only [List.map_cons]
  have hk' : k < n := List.mem_range.1 hk
  congr 2
  · simp only [List.map_map, Function.comp_def, List.getD_eq_getElem?_getD, List.getElem?_map,
      List.getElem?_range hk', Option.map_some, Option.getD_some]
  · simp

theorem assign_piece {α : Type} (tot : Nat) (f : Nat → Option α) (s e : Int) (h0 : 0 ≤ s) (hse : s < e)
    (he : e ≤ tot) (g : Nat → Option α) :
    pyAssign ((List.range tot).map f) s e ((List.range (e - s).toNat).map g) =
      some ((List.range tot).map fun (t : Nat) => if s ≤ (t : Int) ∧ (t : Int) < e then g (t - s.toNat) else f t) := by
  let : Zero (Option α) := ⟨none⟩
  obtain ⟨s', hs'⟩ := Int.eq_ofNat_of_zero_le h0
  obtain ⟨n, hn⟩ := Int.eq_ofNat_of_zero_le (show 0 ≤ e - s by omega)
  have e1 : e - s = (n : Int) := hn
  have e2 : s = (s' : Int) := hs'
  have e3 : e = (s' : Int) + n := by omega
  rw [e1, Int.toNat_natCast, e3, e2, pyAssign_range f tot s' n (by omega), broadcastRow_exact (by simp)]
  simp only [Option.map_some]
  congr 1
  refine List.map_congr_left fun (t : Nat) _ => ?_
  by_cases hin : s' ≤ t ∧ t < s' + n
  · rw [if_pos hin, if_pos (by omega), List.getD_eq_getElem?_getD, List.getElem?_map,
      List.getElem?_range (by omega)]
    simp
  · rw [if_neg hin, if_neg (by omega)]

theorem power_saver (dims : String → Option Nat) (T : Tape R) (tot : Nat) (name : String) (num : Nat)
    (hd : dims name = some num) (chan : Option (List Int)) (rows : List Nat)
    (hr : chanRows num chan = some rows) (hne : rows ≠ []) :
    RowSaver (P := P) (V := V) dims T tot (.power name chan)
      fun _ t => tapePower T name rows ((t : Int) - 1) := by
  intro pr f s e h0 hse he
  unfold DData.save
  have hn : ((e - s).toNat : Int) = e - s := by omega
  simp only
  have := sigSelect_cut dims T (s - 1) (e - s).toNat name num hd chan rows hr
  rw [hn] at this
  rw [this]
  simp only [sub_zero]
  rw [colPower_cut T name rows hne, assign_piece tot f s e h0 hse he]
  simp only
  congr 2
  refine List.map_congr_left fun (t : Nat) _ => ?_
  by_cases hin : s ≤ (t : Int) ∧ (t : Int) < e
  · rw [if_pos hin, if_pos hin]
    congr 2
    omega
  · rw [if_neg hin, if_neg hin]

theorem powerAt_of_tape {cfg : SimCfg R IR F S A P (DData R P V) (DOut R V)}
    {st0 : SimSt R F S A P (DData R P V) (DOut R V)} {T : Tape R} {N : Nat}
    {sig : String} (hP : ∀ t ≤ N, ∀ c v, cfg.Produced st0 sig c t v ↔
        ∃ num, cfg.dims sig = some num ∧ c < num ∧ T sig c ((t : Int) - 1) = v) {num : Nat} {chan : Option (List Int)} {rows : List Nat}
    (hsig : cfg.dims sig = some num) (hrows : chanRows num chan = some rows) {t : Nat} (ht : t ≤ N) :
    cfg.PowerAt st0 sig rows t (tapePower T sig rows ((t : Int) - 1)) := by
  refine ⟨rows.map fun c => T sig c ((t : Int) - 1), ?_, ?_⟩
  · rw [List.forall₂_map_right_iff, List.forall₂_same]
    intro c hc
    rw [hP t ht]
    exact ⟨num, hsig, chanRows_lt hrows c hc, rfl⟩
  · unfold tapePower
    rw [List.map_map]
    rfl

/-! ### Ratio -/

theorem smooth_range (q n : Nat) (g : Nat → R) :
    smooth q ((List.range n).map fun k => some (g k)) =
      (List.range n).map fun k => some (avgSince q g 0 k) := by
  unfold smooth
  rw [List.length_map, List.length_range]
  refine List.map_congr_left fun k hk => ?_
  have hk' : k < n := List.mem_range.1 hk
  unfold avgSince
  rw [Nat.sub_zero]
  induction List.range (min q (k + 1)) with
  | nil => rfl
  | cons j l ih =>
    rw [List.foldr_cons, ih, List.getD_eq_getElem?_getD, List.getElem?_map, List.getElem?_range (by omega)]
    simp

theorem avgSince_shift (q : Nat) (g : Nat → R) (s k : Nat) :
    avgSince q (fun i => g (s + i)) 0 k = avgSince q g s (s + k) := by
  unfold avgSince
  rw [Nat.sub_zero, show s + k - s = k by omega]
  congr 1
  refine List.map_congr_left fun j hj => ?_
  have : j < min q (k + 1) := List.mem_range.1 hj
  simp only
  rw [show s + (k - j) = s + k - j by omega]

theorem pairRow_range (n : Nat) (a b : Nat → R) :
    pairRow ((List.range n).map fun k => some (a k)) ((List.range n).map fun k => some (b k)) =
      (List.range n).map fun k => some (a k, b k) := by
  unfold pairRow
  rw [List.zipWith_map, List.zipWith_self]

theorem ratio_saver (dims : String → Option Nat) (T : Tape R) (tot : Nat) (q : Nat) (hq : q ≠ 0)
    (na nb : String) (numa numb : Nat) (hda : dims na = some numa) (hdb : dims nb = some numb)
    (ca cb : Option (List Int)) (ra rb : List Nat) (hra : chanRows numa ca = some ra)
    (hrb : chanRows numb cb = some rb) (hna : ra ≠ []) (hnb : rb ≠ []) :
    RowSaver (P := P) (V := V) dims T tot (.ratio na ca nb cb q) fun s t =>
      (avgSince q (fun t => tapePower T na ra ((t : Int) - 1)) s.toNat t,
       avgSince q (fun t => tapePower T nb rb ((t : Int) - 1)) s.toNat t) := by
  intro pr f s e h0 hse he
  unfold DData.save
  have hn : ((e - s).toNat : Int) = e - s := by omega
  simp only
  have h1 := sigSelect_cut dims T (s - 1) (e - s).toNat na numa hda ca ra hra
  have h2 := sigSelect_cut dims T (s - 1) (e - s).toNat nb numb hdb cb rb hrb
  rw [hn] at h1 h2
  rw [h1, h2]
  simp only [sub_zero]
  rw [colPower_cut T na ra hna, colPower_cut T nb rb hnb, smooth_range, smooth_range, pairRow_range,
    if_neg hq, assign_piece tot f s e h0 hse he]
  simp only
  congr 2
  refine List.map_congr_left fun (t : Nat) _ => ?_
  by_cases hin : s ≤ (t : Int) ∧ (t : Int) < e
  · rw [if_pos hin, if_pos hin]
    have key : ∀ (name : String) (rows : List Nat),
        avgSince q (fun k : Nat => tapePower T name rows (s - 1 + (k : Int))) 0 (t - s.toNat) =
        avgSince q (fun t : Nat => tapePower T name rows ((t : Int) - 1)) s.toNat t := by
      intro name rows
      have := avgSince_shift q (fun t : Nat => tapePower T name rows ((t : Int) - 1)) s.toNat (t - s.toNat)
      rw [show s.toNat + (t - s.toNat) = t by omega] at this
      rw [← this]
      congr 1
      funext i
      congr 1
      omega
    rw [key, key]
  · rw [if_neg hin, if_neg hin]

/-! ### Sound field power -/

theorem sf_save (dims : String → Option Nat) (T : Tape R) (pr : Option P) (name : String)
    (num : Nat) (hd : dims name = some num) (q : Nat) (s e : Int) (hse : s < e) (g : Nat → R) {dd : DData R P V}
    (h : DData.save (.sfPower name q ((List.range num).map g) : DData R P V) pr
      (cut dims T (s - 1) (e - s).toNat) (0, e - s) (s, e) = .ok dd) :
    dd = .sfPower name q ((List.range num).map fun c =>
        g c + ((List.range (e - s).toNat).map fun (k : Nat) =>
          T name c (s - 1 + k) * T name c (s - 1 + k)).sum / (q : R)) := by
  have hn : ((e - s).toNat : Int) = e - s := by omega
  have hsel := sigSelect_cut dims T (s - 1) (e - s).toNat name num hd none (List.range num) rfl
  rw [hn] at hsel
  unfold DData.save at h
  cases pr with
  | none => cases h
  | some pr =>
    simp only at h
    rw [hsel] at h
    simp only at h
    rw [broadcastRow_exact (by simp [rowPower])] at h
    simp only at h
    rw [← Except.ok.inj h]
    congr 1
    unfold rowPower
    rw [List.map_map, List.map_map, List.zipWith_map, List.zipWith_self]
    refine List.map_congr_left fun c _ => ?_
    simp [Function.comp_def]

/-- The pieces of `[a, b)` add up. -/
theorem sf_pieces (dims : String → Option Nat) (T : Tape R) (pf : Nat → Option P) (name : String)
    (num : Nat) (hd : dims name = some num) (q : Nat) : ∀ (ps : List (Int × Int)) (a b : Int),
      0 ≤ a → Chain a ps b → ∀ (g : Nat → R) (dd : DData R P V),
      savePieces (diagOps R P V) dims T pf ps (.sfPower name q ((List.range num).map g)) = .ok dd →
      dd = .sfPower name q ((List.range num).map fun c =>
        g c + ((List.range (b - a).toNat).map fun (k : Nat) =>
          T name c (a - 1 + k) * T name c (a - 1 + k)).sum / (q : R))
  | [], a, b, _, hc, g, dd, h => by
    cases hc
    have e : (DData.sfPower name q ((List.range num).map g) : DData R P V) = dd := Except.ok.inj h
    rw [← e]
    simp
  | p :: ps, a, b, h0, hc, g, dd, h => by
    obtain ⟨h1, h2, h3⟩ := hc
    subst h1
    have hle := h3.le
    unfold savePieces at h
    rw [List.foldlM_cons] at h
    have hs : (diagOps R P V).save = DData.save := rfl
    rw [hs] at h
    cases hd1 : DData.save (.sfPower name q ((List.range num).map g) : DData R P V) (pf p.2.toNat)
      (cut dims T (p.1 - 1) (p.2 - p.1).toNat) (0, p.2 - p.1) p with
    | error x => rw [hd1] at h; cases h
    | ok d1 =>
      rw [hd1] at h
      rw [sf_save dims T _ name num hd q p.1 p.2 h2 g hd1] at h
      have := sf_pieces dims T pf name num hd q ps p.2 b (by omega) h3 _ dd h
      rw [this]
      congr 1
      refine List.map_congr_left fun c _ => ?_
      obtain ⟨m, hm⟩ : ∃ m, (b - p.1).toNat = (p.2 - p.1).toNat + m := ⟨(b - p.2).toNat, by omega⟩
      have hm' : m = (b - p.2).toNat := by omega
      rw [add_assoc, ← add_div, hm, List.range_add, List.map_append, List.sum_append, List.map_map, ← hm']
      congr 4
      refine List.map_congr_left fun k _ => ?_
      simp only [Function.comp]
      rw [show p.1 - 1 + (((p.2 - p.1).toNat + k : Nat) : Int) = p.2 - 1 + (k : Int) by push_cast; omega]

end
end Verif

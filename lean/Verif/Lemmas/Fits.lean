import Verif.Lemmas.Valid
import Verif.Lemmas.Power
import Verif.Lemmas.Summary

namespace Verif

/-! ### Exports that cannot fail -/

theorem getUpTo_row {α : Type} (row : List (Option α)) (e : Int) (h0 : 0 ≤ e) (h : e ≤ row.length) :
    ∃ r, getUpTo [row] e = .ok r := by
  unfold getUpTo
  simp only [List.map_cons, List.map_nil, List.any_cons, List.any_nil, bne_self_eq_false, Bool.or_false,
    Bool.false_eq_true, if_false]
  rw [if_neg]
  · exact ⟨_, rfl⟩
  · obtain ⟨n, rfl⟩ := Int.eq_ofNat_of_zero_le h0
    have : row = (List.range row.length).map fun i => row.getD i none := by
      refine List.ext_getElem (by simp) fun i h1 h2 => ?_
      simp [List.getD_eq_getElem?_getD, h1]
    rw [this, pySlice_to _ _ _ (by simpa using h)]
    simp

theorem getSelection_total {α : Type} (num n : Nat) (hnum : 0 < num) (f : Nat → Nat → Option α)
    (p : Nat → Bool) (hf : ∀ j < num, ∀ t < n, (f j t).isSome = p t) (times : List Int) (ht : times.length = n)
    (e : Int) : ∃ r, getSelection (matOf num n f) times e = .ok r := by
  have hrow : ∀ j < num, ((List.range n).map fun t => f j t).map Option.isSome = (List.range n).map p := by
    intro j hj
    rw [List.map_map]
    exact List.map_congr_left fun t ht => hf j hj t (List.mem_range.1 ht)
  unfold getSelection
  obtain ⟨m, rfl⟩ : ∃ m, num = m + 1 := ⟨num - 1, by omega⟩
  have e1 : matOf (m + 1) n f = ((List.range n).map fun t => f 0 t) ::
      (List.range m).map fun j => (List.range n).map fun t => f (j + 1) t := by
    unfold matOf
    rw [List.range_succ_eq_map, List.map_cons, List.map_map]
    rfl
  rw [e1]
  dsimp only
  rw [if_neg, if_neg]
  · split
    · exact ⟨_, rfl⟩
    · exact ⟨_, rfl⟩
  · rw [hrow 0 (by omega)]; simp [ht]
  · rw [← e1, hrow 0 (by omega)]
    simp only [List.any_eq_true, not_exists, not_and, matOf, List.mem_map, List.mem_range]
    rintro x ⟨j, hj, rfl⟩
    rw [hrow j hj]
    simp

/-! ### Parts of a chain -/

theorem Chain.initial {a b : Int} : ∀ {ps qs : List (Int × Int)}, Chain a (ps ++ qs) b →
    Chain a ps (lastEnd a ps) ∧ lastEnd a ps ≤ b
  | [], qs, h => ⟨rfl, h.le⟩
  | q :: ps, qs, h => by
    obtain ⟨h1, h2, h3⟩ := h
    have ih := Chain.initial (ps := ps) (qs := qs) h3
    exact ⟨⟨h1, h2, ih.1⟩, ih.2⟩

theorem Refine.single {a b : Int} {ps : List (Int × Int)} (h : Refine [(a, b)] ps) : Chain a ps b := by
  cases h with
  | cons hc hr =>
    cases hr
    rw [List.append_nil]
    exact hc

section
variable {R S A P V : Type} [Field R] [DecidableEq R]
  {cfg : SimCfg R (IrMat R) (Fir R) S A P (DData R P V) (DOut R V)} {K : P → Prop}

theorem spectrum_chain (dims : String → Option Nat) (T : Tape R) (pf : Nat → Option P)
    (name : String) (num : Nat) (hd : dims name = some num) (chan : Option (List Int))
    (rows : List Nat) (hr : chanRows num chan = some rows) (w : Mat (Option R) → V)
    (len : Nat) : ∀ (ps : List (Int × Int)) (a m : Int) (k : Nat) (f : Nat → Nat → Option R),
      Chain a ps m → (k : Int) + (m - a) ≤ len →
      ∃ f' k', savePieces (diagOps R P V) dims T pf ps (.spectrum name chan w (matOf rows.length len f) k) =
        .ok (.spectrum name chan w (matOf rows.length len f') k')
  | [], a, m, k, f, _, _ => ⟨f, k, rfl⟩
  | q :: ps, a, m, k, f, hc, hk => by
    obtain ⟨h1, h2, h3⟩ := hc
    subst h1
    have hle := h3.le
    obtain ⟨f', k', ih⟩ := spectrum_chain dims T pf name num hd chan rows hr w len ps q.2 m (k + (q.2 - q.1).toNat)
      (fun j t => if k ≤ t ∧ t < k + (q.2 - q.1).toNat then
        some (T name (rows.getD j 0) (q.1 + (t - k : Nat) - 1)) else f j t) h3 (by push_cast; omega)
    refine ⟨f', k', ?_⟩
    unfold savePieces
    rw [List.foldlM_cons]
    have hs : (diagOps R P V).save = DData.save := rfl
    rw [hs, spectrum_save dims T _ name num hd chan rows hr w len k f q.1 q.2 h2 (by omega)]
    exact ih

/-- The pieces saved by a fitting diagnostic. -/
theorem DData.Fits.saves {ivs ps qs : List (Int × Int)} {d : DData R P V} (h : d.Fits cfg K ivs)
    {pf : Nat → Option P} {N : Nat} (hpf : cfg.proc.isSome → ∀ n < N, ∃ p, pf n = some p ∧ K p)
    (href : Refine ivs (ps ++ qs)) (T : Tape R)
    (hps : ∀ q ∈ ps, 0 ≤ q.1 ∧ q.1 < q.2 ∧ q.2 < (N : Int)) (hle : ∀ q ∈ ps, q.2 ≤ cfg.tot) :
    ∃ dd, savePieces (diagOps R P V) cfg.dims T pf ps d = .ok dd ∧
      ∀ e, 0 ≤ e → e ≤ lastEnd 0 ps → ∃ o, DData.output dd e = .ok o := by
  have hle' : ∀ q ∈ ps, 0 ≤ q.1 ∧ q.1 < q.2 ∧ q.2 ≤ cfg.tot := fun q hq =>
    ⟨(hps q hq).1, (hps q hq).2.1, hle q hq⟩
  have hlast : lastEnd 0 ps ≤ cfg.tot := lastEnd_le (by omega) hle
  have hat : ∀ q ∈ ps, cfg.proc.isSome → ∃ p, pf q.2.toNat = some p ∧ K p := fun q hq hs =>
    hpf hs _ (by have := hps q hq; omega)
  have hmap : ∀ {α β : Type} (g : α → β) (x : Except PyErr α), (∃ r, x = .ok r) → ∃ o, x.map g = .ok o := by
    rintro α β g x ⟨r, rfl⟩
    exact ⟨_, rfl⟩
  have hrep : ∀ {α : Type}, List.replicate cfg.tot (none : Option α) =
      (List.range cfg.tot).map fun _ => none := by
    intro α; simp [List.map_const']
  cases h with
  | @recSignal sig chan num rows h5 h6 h7 =>
    rw [recSignal_pieces cfg.dims T pf sig num h5 chan rows h6 cfg.tot ps _ hle']
    refine ⟨_, rfl, ?_⟩
    intro e he0 hel
    obtain ⟨e', rfl⟩ := Int.eq_ofNat_of_zero_le he0
    have hout := getUpTo_matOf rows.length cfg.tot (List.length_pos_of_ne_nil h7)
      (fun t => ps.any (fun q => decide (q.1 ≤ (t : Int)) && decide ((t : Int) < q.2)))
      (fun j t => T sig (rows.getD j 0) ((t : Int) - 1)) e' (by have := hel.trans hlast; exact_mod_cast this)
    simp only [DData.output]
    rw [hout]
    exact ⟨_, rfl⟩
  | @recState get dim nv junk hs hdim hget hu hlen =>
    have hivs := href.units hu
    have hpl : ps.length ≤ nv := by
      have := congrArg List.length hivs
      rw [List.length_append] at this
      omega
    have hq : ∀ i, (ps.getD i (0, 1)).2 = (ps.getD i (0, 1)).1 + 1 := by
      intro i
      rw [List.getD_eq_getElem?_getD]
      by_cases hi : i < ps.length
      · rw [List.getElem?_eq_getElem hi]
        exact hu _ (by rw [← hivs]; exact List.mem_append_left _ (List.getElem_mem hi))
      · rw [List.getElem?_eq_none (by omega)]; rfl
    have hX : ∀ i, ∃ v, i < ps.length → ∃ p, pf (ps.getD i (0, 1)).2.toNat = some p ∧ get p = .ok v ∧
        v.length = dim := by
      intro i
      by_cases hi : i < ps.length
      · have hm : ps.getD i (0, 1) ∈ ps := by
          rw [List.getD_eq_getElem?_getD, List.getElem?_eq_getElem hi]; exact List.getElem_mem hi
        obtain ⟨p, h1, h2⟩ := hat _ hm hs
        obtain ⟨v, h3, h4⟩ := hget p h2
        exact ⟨v, fun _ => ⟨p, h1, h3, h4⟩⟩
      · exact ⟨[], fun hi' => absurd hi' hi⟩
    obtain ⟨X, hX⟩ := Classical.axiomOfChoice hX
    have hp := recState_pieces (V := V) cfg.dims T pf get dim nv junk (fun i => ps.getD i (0, 1)) hq X ps.length hpl hX
    have e1 : (List.range ps.length).map (fun i => ps.getD i (0, 1)) = ps := by
      refine List.ext_getElem (by simp) fun i h1 h2 => ?_
      simp [List.getD_eq_getElem?_getD, h2]
    rw [e1] at hp
    refine ⟨_, hp, ?_⟩
    intro e _ _
    refine hmap _ _ (getSelection_total dim nv hdim _ (fun t => decide (t < ps.length)) ?_ _ (by simp) _)
    intro j hj t _
    by_cases ht : t < ps.length
    · obtain ⟨p, _, _, h3⟩ := hX t ht
      rw [if_pos ht, List.getElem?_eq_getElem (by omega)]
      simp [ht]
    · rw [if_neg ht]
      simp [ht]
  | @power sig chan num rows h5 h6 h7 =>
    rw [hrep, (power_saver cfg.dims T cfg.tot sig num h5 chan rows h6 h7).pieces pf ps _ hle']
    refine ⟨_, rfl, fun e h0 he => hmap _ _ (getUpTo_row _ _ h0 (by simp; omega))⟩
  | @ratio na ca nb cb numa numb ra rb q h1 h2 h3 h4 h5 h6 h7 =>
    rw [hrep, (ratio_saver cfg.dims T cfg.tot q h7 na nb numa numb h1 h4 ca cb ra rb h2 h5 h3 h6).pieces pf ps _ hle']
    refine ⟨_, rfl, fun e h0 he => hmap _ _ (getUpTo_row _ _ h0 (by simp; omega))⟩
  | @instant get hs hget =>
    obtain ⟨dd, h1, v, rfl⟩ := foldlM_ok (fun d : DData R P V => ∃ v, d = .instant get v)
      (fun d q => (diagOps R P V).save d (pf q.2.toNat) (cut cfg.dims T (q.1 - 1) (q.2 - q.1).toNat)
        (0, q.2 - q.1) q) ps (.instant get none) (by
        rintro t q hq ⟨v, rfl⟩
        obtain ⟨p, h1, h2⟩ := hat q hq hs
        obtain ⟨v', h3⟩ := hget p h2
        simp only [diagOps, DData.save, h1, h3]
        exact ⟨_, rfl, _, rfl⟩) ⟨_, rfl⟩
    exact ⟨_, h1, fun e _ _ => ⟨_, rfl⟩⟩
  | @sfPower sig num q hs h5 =>
    obtain ⟨dd, h1, v, rfl, _⟩ := foldlM_ok (fun d : DData R P V => ∃ v : List R, d = .sfPower sig q v ∧ v.length = num)
      (fun d q => (diagOps R P V).save d (pf q.2.toNat) (cut cfg.dims T (q.1 - 1) (q.2 - q.1).toNat)
        (0, q.2 - q.1) q) ps (.sfPower sig q (List.replicate num 0)) (by
        rintro t p hp ⟨v, rfl, hv⟩
        obtain ⟨pr, h1, h2⟩ := hat p hp hs
        have h3 := hps p hp
        have hsel := sigSelect_cut cfg.dims T (p.1 - 1) (p.2 - p.1).toNat sig num h5 none (List.range num) rfl
        rw [show ((p.2 - p.1).toNat : Int) = p.2 - p.1 by omega] at hsel
        simp only [diagOps, DData.save, h1]
        rw [hsel]
        simp only
        rw [broadcastRow_exact (by simp [rowPower, hv])]
        refine ⟨_, rfl, _, rfl, ?_⟩
        simp [rowPower, hv]) ⟨_, rfl, by simp⟩
    exact ⟨_, h1, fun e _ _ => ⟨_, rfl⟩⟩
  | @spectrum sig chan num rows welch a b h5 h6 h7 =>
    subst h7
    have hc := href.single.initial
    have hab := href.single.le
    obtain ⟨f', k', h⟩ := spectrum_chain (V := V) cfg.dims T pf sig num h5 chan rows h6 welch (b - a).toNat ps a _ 0
      (fun _ _ => none) hc.1 (by have := hc.2; omega)
    exact ⟨_, h, fun e _ _ => ⟨_, rfl⟩⟩
  | @summary sig num func q h5 hf hq =>
    obtain ⟨dd, h1, v, rfl⟩ := foldlM_ok (fun d : DData R P V => ∃ v, d = .summary sig func q v)
      (fun d q => (diagOps R P V).save d (pf q.2.toNat) (cut cfg.dims T (q.1 - 1) (q.2 - q.1).toNat)
        (0, q.2 - q.1) q) ps (.summary sig func q 0) (by
        rintro t p hp ⟨v, rfl⟩
        obtain ⟨y, hy⟩ := hf (window T sig num p.1 (p.2 - p.1).toNat)
        refine ⟨_, ?_, v + y / (q : R), rfl⟩
        show DData.save (.summary sig func q v : DData R P V) (pf p.2.toNat) (cut cfg.dims T (p.1 - 1) (p.2 - p.1).toNat)
          (0, p.2 - p.1) (p.1, p.2) = .ok (.summary sig func q (v + y / (q : R)))
        rw [summary_save cfg.dims T _ sig num h5 func q v p.1 p.2 (hps p hp).2.1, hy]
        exact if_neg hq) ⟨_, rfl⟩
    exact ⟨_, h1, fun e _ _ => ⟨_, rfl⟩⟩

omit [DecidableEq R] in
theorem Diag.Fits.mono {K' : P → Prop} {d : Diag (DData R P V)} (h : d.Fits cfg K) (hK : ∀ p, K' p → K p) :
    d.Fits cfg K' := by
  obtain ⟨ivs, h1, h2, h3, h4, h5⟩ := h
  refine ⟨ivs, h1, h2, h3, h4, ?_⟩
  revert h5
  generalize d.data = dd
  intro h5
  cases h5 with
  | recSignal a b c => exact .recSignal a b c
  | recState a b c d e => exact .recState a b (fun p hp => c p (hK p hp)) d e
  | power a b c => exact .power a b c
  | ratio a b c d e f g => exact .ratio a b c d e f g
  | instant a b => exact .instant a fun p hp => b p (hK p hp)
  | sfPower a b => exact .sfPower a b
  | spectrum a b c => exact .spectrum a b c
  | summary a b c => exact .summary a b c

/-- A fitting diagnostic saves and exports without error. -/
theorem Diag.Fits.live (hdiag : cfg.diag = diagOps R P V) {d : Diag (DData R P V)} (h : d.Fits cfg K)
    {pf : Nat → Option P} {N : Nat} (hpf : cfg.proc.isSome → ∀ n < N, ∃ p, pf n = some p ∧ K p) :
    d.Live cfg pf N := by
  obtain ⟨ivs, h1, h2, h3, h4, h5⟩ := h
  refine ⟨⟨ivs, h1, h2⟩, ?_⟩
  intro T ps qs href hps
  rw [h1, IvCounter.left_init] at href
  obtain ⟨dd, g1, g2⟩ := h5.saves hpf href T hps fun q hq =>
    href.ends_le h3 q (List.mem_append_left _ hq)
  rw [hdiag]
  exact ⟨dd, g1, fun e he hel => g2 e (h4 e he) hel⟩

omit [DecidableEq R] in
theorem Diag.Records.fits {d : Diag (DData R P V)} (h : d.Records cfg) (K : P → Prop) : d.Fits cfg K := by
  obtain ⟨ivs, h1, h2, h3, sig, chan, num, rows, h4, h5, h6, h7, h8⟩ := h
  exact ⟨ivs, h1, h2, h3, h8, by rw [h4]; exact .recSignal h5 h6 h7⟩

/-- A valid setup with fitting diagnostics runs to its end. -/
theorem ValidSetup.runs_fits {lp : ProcView R P} {srcs : String → S} {arr : A} {proc : P} {J : A → Prop}
    (had : Admissible cfg lp) (hv : ValidSetup cfg lp srcs arr proc J K) (f0 : Fir R)
    {ds0 : List (Diag (DData R P V))} (hnd : (ds0.map Diag.name).Nodup)
    (hds : ∀ d ∈ ds0, d.Fits cfg K) :
    ∃ st0 fin, CompletedRun cfg lp srcs arr proc f0 ds0 st0 fin := by
  have hN := names_of cfg hv.names
  obtain ⟨e0, he0, s0⟩ := Sound.init hv.toValidScene hv.proc0 hN f0
  have hloc : cfg.diag.Local cfg.dims := by rw [hv.diag]; exact diagOps_local _
  have hdiv : ∀ d x, cfg.diag.output d x ≠ .error .diverges := by
    rw [hv.diag]; exact output_no_div
  obtain ⟨fin, hfin⟩ := run_ok cfg had hloc hdiv hv.names hnd he0
    (fun k te hte => by
      obtain ⟨te1, h1, h2⟩ := Sound.steps had hv hN s0 k
      rw [h1] at hte
      cases hte
      obtain ⟨te', h3, _⟩ := h2.engine had hv hN k
      exact ⟨te', h3⟩)
    (fun d hd => (hds d hd).live hv.diag fun hs n _ => by
      obtain ⟨te, h1, h2⟩ := Sound.steps had hv hN s0 (n + 1)
      exact ⟨te.proc, by simp only [SimCfg.procAfter, h1, if_pos hs], h2.proc⟩)
  have hinit := init_conc cfg (by have := had.buffer; omega) hv.names srcs arr proc f0 ds0
  rw [he0] at hinit
  exact ⟨_, fin, had, hv.diag, hnd, hinit, hfin⟩

end
end Verif

/-
C19, C20, C21, C22, C25, C26: diagnostics of the processor state.
-/
import Verif.Lemmas.State
import Verif.Props.Processor
namespace Verif

section
variable {R IR F S A P V : Type} [Field R] [DecidableEq R]
  {cfg : SimCfg R IR F S A P (DData R P V) (DOut R V)} {lp : ProcView R P}
  {srcs : String → S} {arr : A} {proc : P} {f0 : F} {ds0 : List (Diag (DData R P V))}
  {st0 fin : SimSt R F S A P (DData R P V) (DOut R V)}

theorem DiagRun.state_schedule {ok : String → Prop} {T : Tape R} {pf : Nat → Option P}
    (hR : DiagRun cfg ds0 st0 fin ok T pf)
    {info : DiagInfo} {name : String} {get : P → Except PyErr (List R)} {dim : Nat} {ex : Option IdxSel}
    {f : Nat} {junk : Int} {d : Diag (DData R P V)}
    (hd : mkRecordState info name get dim ex (some (.every f)) junk = .ok d) (hmem : d ∈ ds0)
    (htot : info.tot = cfg.tot) (hdim : ∀ p v, get p = .ok v → v.length = dim) :
    ∃ d' ∈ fin.diags, d'.name = name ∧ ∃ (values : Mat (Option R)) (times : List Int),
      d'.data = .recState get values times (cfg.tot / f) ∧ values.length = dim ∧
      cfg.tot / f ≤ times.length ∧
      (∀ k < cfg.tot / f, times[k]? = some ((((k + 1) * f : Nat) : Int) - 1) ∧
        ∃ s v, cfg.StateAt st0 ((k + 1) * f) s ∧ get s = .ok v ∧
          ∀ (j : Nat) x, v[j]? = some x → ∃ row, values[j]? = some row ∧ row[k]? = some (some x)) ∧
      ∀ (j : Nat) row, values[j]? = some row → row.length = times.length ∧
        ∀ k < row.length, cfg.tot / f ≤ k → row[k]? = some none := by
  obtain ⟨hf, h1, h2, h3, h4⟩ := mkRecordState_ok hd
  rw [htot] at h2 h4
  obtain ⟨d', hd', hn, ps, xs, hps, hsave, _⟩ := hR.unit_spec d hmem (by rw [h4]; intro _ hn; cases hn) _ h2 (freqIvs_increasing f _ 1 hf (by omega))
    (freqIvs_unit f _ 1)
  have hK : cfg.tot < cfg.tot + cfg.mbs := by have := hR.block; omega
  rw [freqIvs_all hK, freqIvs_one f _ hf] at hps
  rw [h4, hps] at hsave
  obtain ⟨X, hX, hdd⟩ := hR.state_saved hf (le_refl _) (div_le_ceil _ _ hf) hdim hsave
  refine ⟨d', hd', hn.trans h1, _, _, hdd, by simp [matOf], by simpa using div_le_ceil cfg.tot f hf, ?_, ?_⟩
  · intro k hk
    have hk' : k < (cfg.tot + f - 1) / f := lt_of_lt_of_le hk (div_le_ceil _ _ hf)
    refine ⟨?_, ?_⟩
    · rw [List.getElem?_map, List.getElem?_range hk', Option.map_some, if_pos hk]
    · obtain ⟨g1, s, g2, g3⟩ := hX k hk
      refine ⟨s, X k, g2, g3, ?_⟩
      intro j x hx
      have hj : j < dim := by
        rw [← g1]
        exact (List.getElem?_eq_some_iff.1 hx).1
      refine ⟨_, by unfold matOf; rw [List.getElem?_map, List.getElem?_range hj]; rfl, ?_⟩
      rw [List.getElem?_map, List.getElem?_range hk', Option.map_some]
      beta_reduce
      rw [if_pos hk, hx]
  · intro j row hrow
    unfold matOf at hrow
    rw [List.getElem?_map] at hrow
    cases hj : (List.range dim)[j]? with
    | none => rw [hj] at hrow; cases hrow
    | some j' =>
      rw [hj] at hrow
      cases hrow
      refine ⟨by simp, ?_⟩
      intro k hk hge
      simp only [List.length_map, List.length_range] at hk
      rw [List.getElem?_map, List.getElem?_range hk, Option.map_some]
      beta_reduce
      rw [if_neg (Nat.not_lt.2 hge)]

/-- C19. A `RecordState` diagnostic with save frequency `f` ends up with exactly
`tot / f` values; the `k`-th (counted from 1) is the property of the processor
as iteration `k*f` left it, labelled `k*f - 1`. -/
theorem C19_state_schedule (h : CompletedRun cfg lp srcs arr proc f0 ds0 st0 fin) (hp : cfg.proc.isSome)
    {info : DiagInfo} {name : String} {get : P → Except PyErr (List R)} {dim : Nat} {ex : Option IdxSel}
    {f : Nat} {junk : Int} {d : Diag (DData R P V)}
    (hd : mkRecordState info name get dim ex (some (.every f)) junk = .ok d) (hmem : d ∈ ds0)
    (htot : info.tot = cfg.tot) (hdim : ∀ p v, get p = .ok v → v.length = dim) :
    ∃ d' ∈ fin.diags, d'.name = name ∧ ∃ (values : Mat (Option R)) (times : List Int),
      d'.data = .recState get values times (cfg.tot / f) ∧ values.length = dim ∧
      cfg.tot / f ≤ times.length ∧
      (∀ k < cfg.tot / f, times[k]? = some ((((k + 1) * f : Nat) : Int) - 1) ∧
        ∃ s v, cfg.StateAt st0 ((k + 1) * f) s ∧ get s = .ok v ∧
          ∀ (j : Nat) x, v[j]? = some x → ∃ row, values[j]? = some row ∧ row[k]? = some (some x)) ∧
      ∀ (j : Nat) row, values[j]? = some row → row.length = times.length ∧
        ∀ k < row.length, cfg.tot / f ≤ k → row[k]? = some none := by
  obtain ⟨_, _, hR⟩ := h.diagRun
  exact hR.state_schedule hd hmem htot hdim

/-- C19, number of process calls behind a stored state: at iteration `n` the
processor has been called `(n+1) / block_size` times. -/
theorem C19_calls (h : CompletedRun cfg lp srcs arr proc f0 ds0 st0 fin) {p : Proc R P}
    (hp : cfg.proc = some p) {n : Nat} {s : P} (hs : cfg.StateAt st0 n s) :
    ∃ l, cfg.Calls srcs arr proc f0 ds0 (n + 1) l ∧ l.length = (n + 1) / p.bs := by
  obtain ⟨_, st, hst, _⟩ := hs
  obtain ⟨l, h1, h2, _⟩ := C06_calls hp h.init hst
  exact ⟨l, h1, h2⟩

/-- C19, storage: the counter delivers `tot / f` indices and there is room for
all of them; saving at any number of them never fails if the property can be
read and has the declared size. -/
theorem C19_storage {info : DiagInfo} {name : String} {get : P → Except PyErr (List R)} {dim : Nat}
    {ex : Option IdxSel} {f : Nat} {junk : Int} {d : Diag (DData R P V)}
    (hd : mkRecordState info name get dim ex (some (.every f)) junk = .ok d)
    (dims : String → Option Nat) (T : Tape R) (pf : Nat → Option P)
    (hpf : ∀ n, ∃ p v, pf n = some p ∧ get p = .ok v ∧ v.length = dim) :
    d.saveAt.left.length = info.tot / f ∧
    ∀ qs, qs <+: d.saveAt.left → ∃ dd, savePieces (diagOps R P V) dims T pf qs d.data = .ok dd := by
  obtain ⟨hf, h1, h2, h3, h4⟩ := mkRecordState_ok hd
  rw [h2, IvCounter.left_init, freqIvs_one f _ hf]
  refine ⟨by simp, ?_⟩
  intro qs hqs
  obtain ⟨m, hm, rfl⟩ := prefix_range_map hqs
  obtain ⟨X, hX⟩ := Classical.axiomOfChoice fun i : Nat => (show ∃ v, ∃ p, pf ((i + 1) * f) = some p ∧
    get p = .ok v ∧ v.length = dim from by
      obtain ⟨p, v, a, b, c⟩ := hpf ((i + 1) * f)
      exact ⟨v, p, a, b, c⟩)
  rw [h4]
  refine ⟨_, recState_pieces dims T pf get dim _ junk _ (fun i => by simp) X m
    (le_trans hm (div_le_ceil _ _ hf)) ?_⟩
  intro i _
  obtain ⟨p, a, b, c⟩ := hX i
  exact ⟨p, by rw [← a]; exact congrArg _ (Int.toNat_natCast _), b, c⟩

theorem DiagRun.state_exports {ok : String → Prop} {T : Tape R} {pf : Nat → Option P}
    (hR : DiagRun cfg ds0 st0 fin ok T pf)
    (hplot : cfg.plotNone = false)
    {info : DiagInfo} {name : String} {get : P → Except PyErr (List R)} {dim : Nat} {l : List Int}
    {f : Nat} {junk : Int} {d : Diag (DData R P V)}
    (hd : mkRecordState info name get dim (some (.list l)) (some (.every f)) junk = .ok d) (hmem : d ∈ ds0)
    (htot : info.tot = cfg.tot) (hl : l.Pairwise (· < ·)) :
    (evOf name fin.log).map Event.time = l.filter (· ≤ ((cfg.tot / f * f : Nat) : Int)) := by
  obtain ⟨hf, h1, h2, h3, h4⟩ := mkRecordState_ok hd
  have hex : d.exportAt.left = l := by
    unfold exportCounter IdxSel.counter at h3
    simp only [Option.getD_some, Except.ok.injEq] at h3
    rw [← h3, IxCounter.left_init]
  rw [htot] at h2 h4
  obtain ⟨d', hd', hn, ps, xs, hps, hsave, hleft, htimes, hout, hnext⟩ :=
    hR.unit_spec d hmem (by rw [h4]; intro _ hn; cases hn) _ h2 (freqIvs_increasing f _ 1 hf (by omega)) (freqIvs_unit f _ 1)
  have hK : cfg.tot < cfg.tot + cfg.mbs := by have := hR.block; omega
  rw [freqIvs_all hK, freqIvs_one f _ hf] at hps
  rw [← h1, htimes]
  rw [hps] at hnext hout
  have e := lastEnd_freq (cfg.tot / f) f
  rw [← e]
  have := served_eq (b := lastEnd 0 ((List.range (cfg.tot / f)).map fun i =>
      ((((i + 1) * f : Nat) : Int) - 1, (((i + 1) * f : Nat) : Int)))) hleft ?_
    (hnext hplot (by rw [hex]; exact hl))
  · rw [hex] at this
    exact this
  · intro x hx
    rw [← htimes] at hx
    obtain ⟨ev, hev, rfl⟩ := List.mem_map.1 hx
    obtain ⟨qs, hqs, _, _, _, hle, _⟩ := hout ev hev
    obtain ⟨m, hm, rfl⟩ := prefix_range_map hqs
    refine le_trans hle ?_
    rw [lastEnd_freq, lastEnd_freq]
    exact_mod_cast Nat.mul_le_mul_right f hm

/-- C20, as far as it holds: a state diagnostic is exported for precisely the
requested indices up to the last save index `(tot / f) * f`.  Missing: the
indices after it, see `C20_violated`. -/
theorem C20_exports_partial (h : CompletedRun cfg lp srcs arr proc f0 ds0 st0 fin)
    (hplot : cfg.plotNone = false)
    {info : DiagInfo} {name : String} {get : P → Except PyErr (List R)} {dim : Nat} {l : List Int}
    {f : Nat} {junk : Int} {d : Diag (DData R P V)}
    (hd : mkRecordState info name get dim (some (.list l)) (some (.every f)) junk = .ok d) (hmem : d ∈ ds0)
    (htot : info.tot = cfg.tot) (hl : l.Pairwise (· < ·)) :
    (evOf name fin.log).map Event.time = l.filter (· ≤ ((cfg.tot / f * f : Nat) : Int)) := by
  obtain ⟨_, _, hR⟩ := h.diagRun
  exact hR.state_exports hplot hd hmem htot hl

theorem DiagRun.state_export {ok : String → Prop} {T : Tape R} {pf : Nat → Option P}
    (hR : DiagRun cfg ds0 st0 fin ok T pf)
    {info : DiagInfo} {name : String} {get : P → Except PyErr (List R)} {dim : Nat} {ex : Option IdxSel}
    {f : Nat} {junk : Int} {d : Diag (DData R P V)}
    (hd : mkRecordState info name get dim ex (some (.every f)) junk = .ok d) (hmem : d ∈ ds0)
    (htot : info.tot = cfg.tot) (hdim : ∀ p v, get p = .ok v → v.length = dim) (hpos : 0 < dim)
    {ev : Event (DOut R V)} (hev : ev ∈ evOf name fin.log) (hfirst : (f : Int) ≤ ev.time) :
    ∃ sg : Mat R, ev.out = .series sg ((List.range (ev.time.toNat / f)).map fun k =>
        (((k + 1) * f : Nat) : Int) - 1) ∧ sg.length = dim ∧
      ∀ k < ev.time.toNat / f, ∃ s v, cfg.StateAt st0 ((k + 1) * f) s ∧ get s = .ok v ∧
        ∀ (j : Nat) row, sg[j]? = some row → row.length = ev.time.toNat / f ∧ row[k]? = v[j]? := by
  obtain ⟨hf, h1, h2, h3, h4⟩ := mkRecordState_ok hd
  rw [htot] at h2 h4
  obtain ⟨d', hd', hn, ps, xs, hps, hsave, hleft, htimes, hout, hnext⟩ :=
    hR.unit_spec d hmem (by rw [h4]; intro _ hn; cases hn) _ h2 (freqIvs_increasing f _ 1 hf (by omega)) (freqIvs_unit f _ 1)
  have hK : cfg.tot < cfg.tot + cfg.mbs := by have := hR.block; omega
  rw [freqIvs_all hK, freqIvs_one f _ hf] at hps
  rw [← h1] at hev
  obtain ⟨qs, hqs, dd, hsq, ho, hle, _⟩ := hout ev hev
  rw [hps] at hqs
  obtain ⟨m, hm, rfl⟩ := prefix_range_map hqs
  rw [lastEnd_freq] at hle
  rw [h4] at hsq
  obtain ⟨X, hX, hdd⟩ := hR.state_saved hf hm (div_le_ceil _ _ hf) hdim hsq
  obtain ⟨e, he⟩ := Int.eq_ofNat_of_zero_le (show 0 ≤ ev.time by omega)
  have he' : ev.time = (e : Int) := he
  rw [he'] at hle hfirst ho ⊢
  rw [Int.toNat_natCast]
  have hfe : f ≤ e := by exact_mod_cast hfirst
  have hem : e ≤ m * f := by exact_mod_cast hle
  have hem' : e / f ≤ m := by
    have := Nat.div_le_div_right (c := f) hem
    rwa [Nat.mul_div_cancel _ hf] at this
  have hm1 : 1 ≤ e / f := (Nat.one_le_div_iff hf).2 hfe
  have hnv : m ≤ (cfg.tot + f - 1) / f := le_trans hm (div_le_ceil _ _ hf)
  have hmat : (matOf dim ((cfg.tot + f - 1) / f) fun j t => if t < m then (X t)[j]? else none) =
      matOf dim ((cfg.tot + f - 1) / f) fun j t =>
        if (decide (t < m)) = true then some ((X t).getD j 0) else none := by
    unfold matOf
    refine List.map_congr_left fun j hj => List.map_congr_left fun t _ => ?_
    simp only [decide_eq_true_eq]
    by_cases ht : t < m
    · rw [if_pos ht, if_pos ht, List.getD_eq_getElem?_getD]
      have : j < (X t).length := by rw [(hX t ht).1]; exact List.mem_range.1 hj
      rw [List.getElem?_eq_getElem this]
      rfl
    · rw [if_neg ht, if_neg ht]
  have hsel : (List.range ((cfg.tot + f - 1) / f)).filter (fun t => decide (t < m)) = List.range m := by
    obtain ⟨k, hk⟩ := Nat.exists_eq_add_of_le hnv
    rw [hk, List.range_add, List.filter_append, List.filter_eq_self.2, List.filter_eq_nil_iff.2, List.append_nil]
    · intro x hx
      obtain ⟨y, _, rfl⟩ := List.mem_map.1 hx
      simp
    · intro x hx
      simpa using hx
  have hT : ∀ t, t < m → (if t < m then (((t + 1) * f : Nat) : Int) - 1 else junk) =
      (((t + 1) * f : Nat) : Int) - 1 := fun t ht => if_pos ht
  have hlt : ∀ t, (((t + 1) * f : Nat) : Int) - 1 < (e : Int) ↔ t < e / f := by
    intro t
    rw [show t < e / f ↔ t + 1 ≤ e / f from Iff.rfl, Nat.le_div_iff_mul_le hf]
    omega
  have hfil : (List.range m).filter (fun t => decide ((if t < m then (((t + 1) * f : Nat) : Int) - 1 else junk) < (e : Int)))
      = List.range (e / f) := by
    obtain ⟨k, hk⟩ := Nat.exists_eq_add_of_le hem'
    rw [hk, List.range_add, List.filter_append, List.filter_eq_self.2, List.filter_eq_nil_iff.2, List.append_nil]
    · intro x hx
      obtain ⟨y, hy, rfl⟩ := List.mem_map.1 hx
      have hy' : y < k := by simpa using hy
      rw [if_pos (by omega)]
      simp only [decide_eq_true_eq]
      rw [hlt]
      omega
    · intro x hx
      have hx' : x < e / f := by simpa using hx
      rw [if_pos (by omega)]
      simp only [decide_eq_true_eq]
      rw [hlt]
      exact hx'
  subst hdd
  simp only [DData.output] at ho
  rw [hmat, getSelection_matOf dim _ hpos (fun t => decide (t < m)) (fun j t => (X t).getD j 0)
    (fun t => if t < m then (((t + 1) * f : Nat) : Int) - 1 else junk) e, hsel, hfil] at ho
  · simp only [Except.map, Except.ok.injEq] at ho
    refine ⟨(List.range dim).map fun j => (List.range (e / f)).map fun t => (X t).getD j 0,
      ho.symm.trans ?_, by simp, ?_⟩
    · congr 1
      refine List.map_congr_left fun t ht => hT t ?_
      have : t < e / f := by simpa using ht
      omega
    · intro k hk
      obtain ⟨g1, s, g2, g3⟩ := hX k (by omega)
      refine ⟨s, X k, g2, g3, ?_⟩
      intro j row hrow
      rw [List.getElem?_map] at hrow
      cases hj : (List.range dim)[j]? with
      | none => rw [hj] at hrow; cases hrow
      | some j' =>
        obtain ⟨hlen, rfl⟩ := List.getElem?_eq_some_iff.1 hj
        rw [hj] at hrow
        cases hrow
        simp only [List.length_range] at hlen
        refine ⟨by simp, ?_⟩
        rw [List.getElem?_map, List.getElem?_range hk, List.getElem_range, Option.map_some,
          List.getD_eq_getElem?_getD, List.getElem?_eq_getElem (by omega)]
        rfl
  · rw [hsel, List.pairwise_map]
    refine List.Pairwise.imp_of_mem ?_ (List.pairwise_lt_range)
    intro a b ha hb hab
    rw [hT a (by simpa using ha), hT b (by simpa using hb)]
    have : (a + 1) * f < (b + 1) * f := Nat.mul_lt_mul_of_pos_right (by omega) hf
    omega
  · rw [hsel]
    intro t ht
    have h0 : t < m := by
      have := List.mem_of_mem_head? ht
      simpa using this
    have ht0 : t = 0 := by
      obtain ⟨k, rfl⟩ : ∃ k, m = k + 1 := ⟨m - 1, by omega⟩
      rw [List.range_succ_eq_map] at ht
      simpa using ht.symm
    rw [hT t h0, hlt, ht0]
    omega

/-- C21, as far as it holds: the data handed to an export with index `e` of a
state diagnostic consists of exactly the saved values with a time index smaller
than `e`, provided `e` is at least the first save index.  Missing: smaller `e`,
see `C21_violated`. -/
theorem C21_export_partial (h : CompletedRun cfg lp srcs arr proc f0 ds0 st0 fin) (hp : cfg.proc.isSome)
    {info : DiagInfo} {name : String} {get : P → Except PyErr (List R)} {dim : Nat} {ex : Option IdxSel}
    {f : Nat} {junk : Int} {d : Diag (DData R P V)}
    (hd : mkRecordState info name get dim ex (some (.every f)) junk = .ok d) (hmem : d ∈ ds0)
    (htot : info.tot = cfg.tot) (hdim : ∀ p v, get p = .ok v → v.length = dim) (hpos : 0 < dim)
    {ev : Event (DOut R V)} (hev : ev ∈ evOf name fin.log) (hfirst : (f : Int) ≤ ev.time) :
    ∃ sg : Mat R, ev.out = .series sg ((List.range (ev.time.toNat / f)).map fun k =>
        (((k + 1) * f : Nat) : Int) - 1) ∧ sg.length = dim ∧
      ∀ k < ev.time.toNat / f, ∃ s v, cfg.StateAt st0 ((k + 1) * f) s ∧ get s = .ok v ∧
        ∀ (j : Nat) row, sg[j]? = some row → row.length = ev.time.toNat / f ∧ row[k]? = v[j]? := by
  obtain ⟨_, _, hR⟩ := h.diagRun
  exact hR.state_export hd hmem htot hdim hpos hev hfirst

theorem DiagRun.instant_list {ok : String → Prop} {T : Tape R} {pf : Nat → Option P}
    (hR : DiagRun cfg ds0 st0 fin ok T pf)
    (hplot : cfg.plotNone = false) {info : DiagInfo} {name : String} {get : P → Except PyErr V} {l : List Int}
    {d : Diag (DData R P V)} (hd : mkRecordFilter info name get (some (.list l)) = .ok d) (hmem : d ∈ ds0)
    (hl : l.Pairwise (· < ·)) (hpos : ∀ x ∈ l, 1 ≤ x) :
    (evOf name fin.log).map Event.time = l.filter (· < ((cfg.tot + cfg.mbs : Nat) : Int)) ∧
    ∀ ev ∈ evOf name fin.log, ∃ s v, cfg.StateAt st0 ev.time.toNat s ∧ get s = .ok v ∧
      ev.out = .value (some v) := by
  obtain ⟨x, l', rfl⟩ : ∃ x l', l = x :: l' := by
    cases l with
    | nil => cases hd
    | cons x l' => exact ⟨x, l', rfl⟩
  cases hd
  exact hR.instants hplot hmem rfl (IxCounter.left_init (x :: l')) rfl hl hpos

/-- C22. An instant diagnostic with an increasing list of positive indices
exports, for every requested index the run reaches, exactly once and in order,
the processor property as that iteration left it. -/
theorem C22_instants (h : CompletedRun cfg lp srcs arr proc f0 ds0 st0 fin) (hp : cfg.proc.isSome)
    (hplot : cfg.plotNone = false) {info : DiagInfo} {name : String} {get : P → Except PyErr V} {l : List Int}
    {d : Diag (DData R P V)} (hd : mkRecordFilter info name get (some (.list l)) = .ok d) (hmem : d ∈ ds0)
    (hl : l.Pairwise (· < ·)) (hpos : ∀ x ∈ l, 1 ≤ x) :
    (evOf name fin.log).map Event.time = l.filter (· < ((cfg.tot + cfg.mbs : Nat) : Int)) ∧
    ∀ ev ∈ evOf name fin.log, ∃ s v, cfg.StateAt st0 ev.time.toNat s ∧ get s = .ok v ∧
      ev.out = .value (some v) := by
  obtain ⟨_, _, hR⟩ := h.diagRun
  exact hR.instant_list hplot hd hmem hl hpos

theorem DiagRun.instant_every {ok : String → Prop} {T : Tape R} {pf : Nat → Option P}
    (hR : DiagRun cfg ds0 st0 fin ok T pf)
    (hplot : cfg.plotNone = false) {info : DiagInfo} {name : String} {get : P → Except PyErr V}
    {sv : Option IdxSel} {f : Nat} (hsv : sv = some (.every f) ∨ (sv = none ∧ info.exportFreq = f))
    {d : Diag (DData R P V)} (hd : mkRecordFilter info name get sv = .ok d) (hmem : d ∈ ds0)
    (htot : info.tot = cfg.tot) :
    (evOf name fin.log).map Event.time = (List.range (cfg.tot / f)).map (fun i => (((i + 1) * f : Nat) : Int)) ∧
    ∀ ev ∈ evOf name fin.log, ∃ s v, cfg.StateAt st0 ev.time.toNat s ∧ get s = .ok v ∧
      ev.out = .value (some v) := by
  have hd' : mkRecordFilter info name get (some (.every f)) = .ok d := by
    rcases hsv with rfl | ⟨rfl, rfl⟩ <;> exact hd
  unfold mkRecordFilter at hd'
  simp only [Option.getD_some] at hd'
  cases h1 : IvCounter.fromFrequency f info.tot false with
  | error x => rw [h1] at hd'; cases hd'
  | ok r =>
    obtain ⟨c, nv⟩ := r
    rw [h1] at hd'
    cases h2 : (IdxSel.every f).counter info.tot with
    | error x => rw [h2] at hd'; cases hd'
    | ok ex =>
      rw [h2] at hd'
      cases hd'
      obtain ⟨hf, hc, _⟩ := fromFrequency_eq h1
      obtain ⟨_, hleft⟩ := ofFreq_left h2
      rw [htot] at hc hleft
      simp only [Bool.false_eq_true, if_false] at hc
      rw [freqIvs_one f _ hf] at hc
      have hstrict : ((List.range (cfg.tot / f)).map fun i => (((i + 1) * f : Nat) : Int)).Pairwise (· < ·) := by
        rw [List.pairwise_map]
        refine List.pairwise_lt_range.imp ?_
        intro a b hab
        have : (a + 1) * f < (b + 1) * f := Nat.mul_lt_mul_of_pos_right (by omega) hf
        exact_mod_cast this
      have hmain := hR.instants hplot hmem (get := get) (l := (List.range (cfg.tot / f)).map fun i => (((i + 1) * f : Nat) : Int))
        (by show c = _; rw [hc, List.map_map]; rfl) hleft rfl hstrict (by
          intro x hx
          obtain ⟨i, _, rfl⟩ := List.mem_map.1 hx
          have : 1 * 1 ≤ (i + 1) * f := Nat.mul_le_mul (by omega) hf
          omega)
      refine ⟨hmain.1.trans ?_, hmain.2⟩
      rw [List.filter_eq_self]
      intro x hx
      obtain ⟨i, hi, rfl⟩ := List.mem_map.1 hx
      have hi' : i + 1 ≤ cfg.tot / f := List.mem_range.1 hi
      have h6 : (i + 1) * f ≤ cfg.tot := le_trans (Nat.mul_le_mul_right f hi') (Nat.div_mul_le_self _ _)
      have := hR.block
      simp only [decide_eq_true_eq]
      omega

/-- C22 for a frequency `f` (given, or the default from the simulation
settings): the indices are `f, 2f, ..., (tot/f)*f`. -/
theorem C22_every (h : CompletedRun cfg lp srcs arr proc f0 ds0 st0 fin) (hp : cfg.proc.isSome)
    (hplot : cfg.plotNone = false) {info : DiagInfo} {name : String} {get : P → Except PyErr V}
    {sv : Option IdxSel} {f : Nat} (hsv : sv = some (.every f) ∨ (sv = none ∧ info.exportFreq = f))
    {d : Diag (DData R P V)} (hd : mkRecordFilter info name get sv = .ok d) (hmem : d ∈ ds0)
    (htot : info.tot = cfg.tot) :
    (evOf name fin.log).map Event.time = (List.range (cfg.tot / f)).map (fun i => (((i + 1) * f : Nat) : Int)) ∧
    ∀ ev ∈ evOf name fin.log, ∃ s v, cfg.StateAt st0 ev.time.toNat s ∧ get s = .ok v ∧
      ev.out = .value (some v) := by
  obtain ⟨_, _, hR⟩ := h.diagRun
  exact hR.instant_every hplot hsv hd hmem htot

/-- C21 for the selection function itself: if the times of the stored values
increase and the first of them is smaller than `e` (or nothing is stored), the
result is exactly what was stored with a time smaller than `e`. -/
theorem C21_selection_partial {α : Type} (num n : Nat) (hnum : 0 < num) (stored : Nat → Bool)
    (g : Nat → Nat → α) (T : Nat → Int) (e : Int)
    (hT : (((List.range n).filter stored).map T).Pairwise (· < ·))
    (hfirst : ∀ t, ((List.range n).filter stored).head? = some t → T t < e) :
    getSelection (matOf num n fun j t => if stored t then some (g j t) else none) ((List.range n).map T) e =
      .ok ((List.range num).map (fun j =>
          (((List.range n).filter stored).filter fun t => decide (T t < e)).map (g j)),
        (((List.range n).filter stored).filter fun t => decide (T t < e)).map T) :=
  getSelection_matOf num n hnum stored g T e hT hfirst

/-- C25, what the settings of a `StatePower` diagnostic do: the two are
exchanged. -/
theorem C25_exchanged_partial (info : DiagInfo) (name : String) (get : P → Except PyErr (List R)) (e f : Nat)
    (junk : Int) : (mkStatePower info name get (some (.every e)) (some (.every f)) junk :
      Except PyErr (Diag (DData R P V))) =
    mkRecordState info name (fun p => (get p).map fun v => [(v.map fun x => x * x).sum / (v.length : R)]) 1
      (some (.every f)) (some (.every e)) junk := rfl

/-- C25, as far as it holds: with the same frequency `f` for saving and
exporting, the mean square of the state is saved every `f` samples. -/
theorem C25_same_partial (h : CompletedRun cfg lp srcs arr proc f0 ds0 st0 fin) (hp : cfg.proc.isSome)
    {info : DiagInfo} {name : String} {get : P → Except PyErr (List R)} {f : Nat} {junk : Int}
    {d : Diag (DData R P V)}
    (hd : mkStatePower info name get (some (.every f)) (some (.every f)) junk = .ok d) (hmem : d ∈ ds0)
    (htot : info.tot = cfg.tot) :
    ∃ d' ∈ fin.diags, d'.name = name ∧ ∃ (get' : P → Except PyErr (List R)) (row : List (Option R))
      (times : List Int), d'.data = .recState get' [row] times (cfg.tot / f) ∧
      ∀ k < cfg.tot / f, times[k]? = some ((((k + 1) * f : Nat) : Int) - 1) ∧
        ∃ s v, cfg.StateAt st0 ((k + 1) * f) s ∧ get s = .ok v ∧
          row[k]? = some (some ((v.map fun x => x * x).sum / (v.length : R))) := by
  rw [C25_exchanged_partial] at hd
  obtain ⟨d', h1, h2, values, times, h3, h4, h5, h6, h7⟩ := C19_state_schedule h hp hd hmem htot (by
    intro p v hv
    cases hg : get p with
    | error x => rw [hg] at hv; cases hv
    | ok w => rw [hg] at hv; cases hv; rfl)
  obtain ⟨row, rfl⟩ := List.length_eq_one_iff.1 h4
  refine ⟨d', h1, h2, _, row, times, h3, ?_⟩
  intro k hk
  obtain ⟨g1, s, v, g2, g3, g4⟩ := h6 k hk
  refine ⟨g1, s, ?_⟩
  cases hg : get s with
  | error x => rw [hg] at g3; cases g3
  | ok w =>
    rw [hg] at g3
    cases g3
    obtain ⟨row', g5, g6⟩ := g4 0 _ rfl
    cases g5
    exact ⟨w, g2, rfl, g6⟩

end

/-- C25 fails: a `StatePower` diagnostic that should save every 2 samples and
export every 6 saves once in 6 samples, and a list of export indices raises. -/
theorem C25_violated : (∃ d : Diag DemoD,
    mkStatePower ⟨6, 3, 1⟩ "pow" (fun p => .ok [(p.processed : ℚ)]) (some (.every 6)) (some (.every 2)) 0 = .ok d ∧
    d.saveAt.left = [(5, 6)] ∧ d.exportAt.left = [2, 4, 6]) ∧
    ∀ (e : List Int) (sf : Option IdxSel), (mkStatePower ⟨6, 3, 1⟩ "pow" (fun p => .ok [(p.processed : ℚ)])
      (some (.list e)) sf 0 : Except PyErr (Diag DemoD)) = .error .typeErr :=
  ⟨⟨_, rfl, rfl, rfl⟩, fun _ _ => rfl⟩

/-- C26, as far as it holds: the counter made from a frequency enumerates the
intervals `[k*f-1, k*f)` for `k` from 1 (from 0 with `include_zero`) to
`max / f`, and they fit the declared number unless zero is included and `f`
divides `max`. -/
theorem C26_intervals_partial {f m : Nat} {z : Bool} {c : IvCounter} {nv : Nat}
    (h : IvCounter.fromFrequency f m z = .ok (c, nv)) :
    (∀ q, q ∈ c.left ↔ ∃ k, (z = true ∨ 1 ≤ k) ∧ k * f ≤ m ∧ q = (((k * f : Nat) : Int) - 1, ((k * f : Nat) : Int))) ∧
    (c.left.map Prod.fst).Pairwise (· < ·) ∧
    ((z = false ∨ ¬ f ∣ m) → c.left.length ≤ nv) := by
  obtain ⟨hf, hc, hn⟩ := fromFrequency_eq h
  subst hc hn
  rw [IvCounter.left_init]
  unfold freqIvs
  have hdiv : (m + f) / f = m / f + 1 := Nat.add_div_right m hf
  rw [hdiv]
  refine ⟨?_, ?_, ?_⟩
  · intro q
    rw [List.mem_map]
    constructor
    · rintro ⟨i, hi, rfl⟩
      rw [List.mem_range] at hi
      refine ⟨i + if z then 0 else 1, ?_, ?_, rfl⟩
      · cases z <;> simp
      · exact (Nat.le_div_iff_mul_le hf).1 (by omega)
    · rintro ⟨k, h1, h2, rfl⟩
      have h3 := (Nat.le_div_iff_mul_le hf).2 h2
      cases z with
      | true => exact ⟨k, by simp; omega, rfl⟩
      | false =>
        have : 1 ≤ k := by simpa using h1
        refine ⟨k - 1, by simp; omega, ?_⟩
        simp only [Bool.false_eq_true, if_false, Nat.sub_add_cancel this]
  · rw [List.map_map, List.pairwise_map]
    refine List.pairwise_lt_range.imp ?_
    intro a b hab
    have : (a + if z then 0 else 1) * f < (b + if z then 0 else 1) * f :=
      Nat.mul_lt_mul_of_pos_right (by omega) hf
    simp only [Function.comp]
    omega
  · intro hz
    rw [List.length_map, List.length_range]
    rcases hz with rfl | hz
    · have := div_le_ceil m f hf
      simp only [Bool.false_eq_true, if_false]
      generalize (m + f - 1) / f = a at *
      generalize m / f = b at *
      omega
    · have hne : m % f ≠ 0 := fun h0 => hz (Nat.dvd_of_mod_eq_zero h0)
      have : m / f + 1 ≤ (m + f - 1) / f := by
        rw [Nat.le_div_iff_mul_le hf, Nat.add_mul]
        have := Nat.div_add_mod m f
        rw [Nat.mul_comm] at this
        omega
      exact le_trans (Nat.sub_le _ _) this

/-- C26 fails with `include_zero` whenever `f` divides `max`: one interval more
than declared. -/
theorem C26_violated {f m : Nat} (hf : 0 < f) (hd : f ∣ m) :
    ∃ c nv, IvCounter.fromFrequency f m true = .ok (c, nv) ∧ c.left.length = nv + 1 := by
  have h : ∃ c nv, IvCounter.fromFrequency f m true = .ok (c, nv) := by
    unfold IvCounter.fromFrequency
    rw [if_neg (by omega)]
    exact ⟨_, _, rfl⟩
  obtain ⟨c, nv, h⟩ := h
  refine ⟨c, nv, h, ?_⟩
  obtain ⟨_, hc, hn⟩ := fromFrequency_eq h
  subst hc hn
  rw [IvCounter.left_init]
  unfold freqIvs
  obtain ⟨k, rfl⟩ := hd
  rw [List.length_map, List.length_range, Nat.add_div_right _ hf, Nat.mul_div_cancel_left _ hf]
  have : (f * k + f - 1) / f = k := by
    rw [Nat.div_eq_iff hf]
    rw [Nat.mul_comm]
    omega
  rw [this]
  rfl

example : ∃ c, IvCounter.fromFrequency 7 20 false = .ok (c, 3) ∧ c.left = [(6, 7), (13, 14)] := ⟨_, rfl, rfl⟩
example : ∃ c, IvCounter.fromFrequency 5 20 true = .ok (c, 4) ∧ c.left.length = 5 := ⟨_, rfl, rfl⟩

/-! ### A run with state diagnostics -/

def getProcessed (p : DebugSt ℚ) : Except PyErr (List ℚ) := .ok [(p.processed : ℚ)]
def getCount (p : DebugSt ℚ) : Except PyErr ℚ := .ok (p.processed : ℚ)
def demoSt2 : Except PyErr (Diag DemoD) :=
  mkRecordState ⟨6, 3, 1⟩ "st2" getProcessed 1 none (some (.every 2)) 0
def demoSt4 : Except PyErr (Diag DemoD) :=
  mkRecordState ⟨6, 3, 1⟩ "st4" getProcessed 1 (some (.list [2, 4, 6])) (some (.every 4)) 0
def demoFil : Except PyErr (Diag DemoD) :=
  mkRecordFilter ⟨6, 3, 1⟩ "fil" getCount (some (.list [2, 5, 9]))
def demoFev : Except PyErr (Diag DemoD) := mkRecordFilter ⟨6, 3, 1⟩ "fev" getCount none
def demoPow : Except PyErr (Diag DemoD) :=
  mkStatePower ⟨6, 3, 1⟩ "pow" getProcessed (some (.every 3)) (some (.every 3)) 0

theorem demoSt2_ok : mkRecordState ⟨6, 3, 1⟩ "st2" getProcessed 1 none (some (.every 2)) 0 =
    .ok (okD demoSt2) := rfl
theorem demoSt4_ok : mkRecordState ⟨6, 3, 1⟩ "st4" getProcessed 1 (some (.list [2, 4, 6])) (some (.every 4)) 0 =
    .ok (okD demoSt4) := rfl
theorem demoFil_ok : mkRecordFilter ⟨6, 3, 1⟩ "fil" getCount (some (.list [2, 5, 9])) = .ok (okD demoFil) := rfl
theorem demoFev_ok : mkRecordFilter ⟨6, 3, 1⟩ "fev" getCount none = .ok (okD demoFev) := rfl
theorem demoPow_ok : mkStatePower ⟨6, 3, 1⟩ "pow" getProcessed (some (.every 3)) (some (.every 3)) 0 =
    .ok (okD demoPow) := rfl

def demoStDs : List (Diag DemoD) :=
  [okD demoSt2, okD demoSt4, okD demoFil, okD demoFev, okD demoPow]

def showOut : DemoO → List (List ℚ) × List Int
  | .series s t => (s, t)
  | .value (some v) => ([[v]], [])
  | _ => ([], [])

def demoStLog : List (String × Int × List (List ℚ) × List Int) :=
  [("fil", 2, [[2]], []), ("fev", 3, [[4]], []), ("pow", 3, [[16]], [2]), ("st2", 3, [[2]], [1]),
    ("st4", 2, [[4]], [3]), ("st4", 4, [[4]], [3]), ("fil", 5, [[6]], []), ("st2", 6, [[2, 4, 6]], [1, 3, 5]),
    ("fev", 6, [[6]], []), ("pow", 6, [[16, 36]], [2, 5])]

instance : DecidableEq (List (List ℚ) × List Int) := inferInstance
instance : DecidableEq (List (String × Int × List (List ℚ) × List Int)) := inferInstance

theorem demoSt_completed : ∃ st0 fin, CompletedRun (demoCfg 4 2 6) ((debugProc 6 2).view 2)
    (fun _ => 0) () demoProc demoFilt demoStDs st0 fin ∧
    fin.log.map (fun ev => (ev.diag, ev.time, showOut ev.out)) = demoStLog := by
  have h0 : ∃ st0, (demoCfg 4 2 6).init (fun _ => 0) () demoProc demoFilt demoStDs = .ok st0 :=
    ⟨_, by rfl⟩
  have h1 : ((demoCfg 4 2 6).run (fun _ => 0) () demoProc demoFilt demoStDs).toOption.map
      (fun fin => fin.log.map fun ev => (ev.diag, ev.time, showOut ev.out)) = some demoStLog := by
    decide +kernel
  cases h2 : (demoCfg 4 2 6).run (fun _ => 0) () demoProc demoFilt demoStDs with
  | error x => rw [h2] at h1; cases h1
  | ok fin =>
    rw [h2] at h1
    obtain ⟨st0, h0⟩ := h0
    exact ⟨st0, fin, ⟨demo_admissible, rfl, by decide, h0, h2⟩, Option.some.inj h1⟩

/-- C20 fails: in a run over 6 samples the export requested at index 6 of a
state diagnostic with save frequency 4 never happens. -/
theorem C20_violated : ∃ st0 fin, CompletedRun (demoCfg 4 2 6) ((debugProc 6 2).view 2)
    (fun _ => 0) () demoProc demoFilt demoStDs st0 fin ∧
    mkRecordState ⟨6, 3, 1⟩ "st4" getProcessed 1 (some (.list [2, 4, 6])) (some (.every 4)) 0 =
      .ok (okD demoSt4) ∧ okD demoSt4 ∈ demoStDs ∧
    ∀ ev ∈ evOf "st4" fin.log, ev.time ≠ 6 := by
  obtain ⟨st0, fin, h, hlog⟩ := demoSt_completed
  refine ⟨st0, fin, h, demoSt4_ok, by simp [demoStDs], ?_⟩
  intro ev hev he
  have h1 : ((evOf "st4" fin.log).map Event.time) = [2, 4] :=
    C20_exports_partial h rfl demoSt4_ok (by simp [demoStDs]) rfl (by decide)
  have := List.mem_map_of_mem (f := Event.time) hev
  rw [h1, he] at this
  revert this
  decide

/-- C21 fails: the export with index 2 of that diagnostic contains the value
saved with time index 3. -/
theorem C21_violated : ∃ st0 fin, CompletedRun (demoCfg 4 2 6) ((debugProc 6 2).view 2)
    (fun _ => 0) () demoProc demoFilt demoStDs st0 fin ∧
    mkRecordState ⟨6, 3, 1⟩ "st4" getProcessed 1 (some (.list [2, 4, 6])) (some (.every 4)) 0 =
      .ok (okD demoSt4) ∧ okD demoSt4 ∈ demoStDs ∧
    ∃ ev ∈ evOf "st4" fin.log, ev.time = 2 ∧ ∃ sg, ev.out = .series sg [3] := by
  obtain ⟨st0, fin, h, hlog⟩ := demoSt_completed
  refine ⟨st0, fin, h, demoSt4_ok, by simp [demoStDs], ?_⟩
  have hm : ("st4", (2 : Int), ([[4]] : List (List ℚ)), ([3] : List Int)) ∈
      fin.log.map (fun ev => (ev.diag, ev.time, showOut ev.out)) := by
    rw [hlog]
    simp [demoStLog]
  obtain ⟨ev, hev, he⟩ := List.mem_map.1 hm
  simp only [Prod.mk.injEq] at he
  obtain ⟨e1, e2, e3⟩ := he
  refine ⟨ev, ?_, e2, ?_⟩
  · unfold evOf
    rw [List.mem_filter]
    exact ⟨hev, by simp [e1]⟩
  · cases ho : ev.out with
    | series s t => rw [ho] at e3; simp only [showOut, Prod.mk.injEq] at e3; exact ⟨s, by rw [e3.2]⟩
    | value v => rw [ho] at e3; cases v <;> simp [showOut] at e3
    | ratios a b => rw [ho] at e3; simp [showOut] at e3
    | vec a => rw [ho] at e3; simp [showOut] at e3
    | scalar a => rw [ho] at e3; simp [showOut] at e3

/-- C19: three states are stored at steps 2, 4 and 6. -/
example : ∃ st0 fin, CompletedRun (demoCfg 4 2 6) ((debugProc 6 2).view 2)
    (fun _ => 0) () demoProc demoFilt demoStDs st0 fin ∧
    ∃ d' ∈ fin.diags, d'.name = "st2" ∧ ∃ values times, d'.data = .recState getProcessed values times 3 ∧
      times[1]? = some 3 ∧ ∃ s, (demoCfg 4 2 6).StateAt st0 4 s ∧
        ∃ row, values[0]? = some row ∧ row[1]? = some (some (s.processed : ℚ)) := by
  obtain ⟨st0, fin, h, _⟩ := demoSt_completed
  refine ⟨st0, fin, h, ?_⟩
  obtain ⟨d', h1, h2, values, times, h3, _, _, h4, _⟩ := C19_state_schedule h rfl demoSt2_ok
    (by simp [demoStDs]) rfl (by intro p v hv; cases hv; rfl)
  obtain ⟨g1, s, v, g2, g3, g4⟩ := h4 1 (by decide)
  cases g3
  exact ⟨d', h1, h2, values, times, h3, g1, s, g2, g4 0 _ rfl⟩

/-- C21: the second export of the first diagnostic holds three values. -/
example : ∃ st0 fin, CompletedRun (demoCfg 4 2 6) ((debugProc 6 2).view 2)
    (fun _ => 0) () demoProc demoFilt demoStDs st0 fin ∧
    ∀ ev ∈ evOf "st2" fin.log, ev.time = 6 → ∃ sg, ev.out = .series sg [1, 3, 5] := by
  obtain ⟨st0, fin, h, _⟩ := demoSt_completed
  refine ⟨st0, fin, h, ?_⟩
  intro ev hev he
  obtain ⟨sg, h1, _⟩ := C21_export_partial h rfl demoSt2_ok (by simp [demoStDs]) rfl
    (by intro p v hv; cases hv; rfl) (by decide) hev (by rw [he]; decide)
  refine ⟨sg, h1.trans ?_⟩
  rw [he]
  rfl

/-- C22: requested 2, 5, 9; the run ends after step 7. -/
example : ∃ st0 fin, CompletedRun (demoCfg 4 2 6) ((debugProc 6 2).view 2)
    (fun _ => 0) () demoProc demoFilt demoStDs st0 fin ∧
    (evOf "fil" fin.log).map Event.time = [2, 5] ∧ (evOf "fev" fin.log).map Event.time = [3, 6] := by
  obtain ⟨st0, fin, h, _⟩ := demoSt_completed
  exact ⟨st0, fin, h,
    (C22_instants h rfl rfl demoFil_ok (by simp [demoStDs]) (by decide) (by decide)).1,
    (C22_every h rfl rfl (Or.inr ⟨rfl, rfl⟩) demoFev_ok (by simp [demoStDs]) rfl).1⟩

/-- C25 with equal frequencies. -/
example : ∃ st0 fin, CompletedRun (demoCfg 4 2 6) ((debugProc 6 2).view 2)
    (fun _ => 0) () demoProc demoFilt demoStDs st0 fin ∧ ∃ d' ∈ fin.diags, d'.name = "pow" := by
  obtain ⟨st0, fin, h, _⟩ := demoSt_completed
  obtain ⟨d', h1, h2, _⟩ := C25_same_partial h rfl demoPow_ok (by simp [demoStDs]) rfl
  exact ⟨st0, fin, h, d', h1, h2⟩

end Verif

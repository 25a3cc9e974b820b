/-
C192: a longer simulation with adaptive noise control starts like a shorter one.
-/
import Verif.Props.AdaptiveRecording
import Verif.Props.FastRecording
import Verif.Props.Prepared
namespace Verif

section
variable {R IR F S A P D O : Type} [Zero R] [Add R] {cfg : SimCfg R IR F S A P D O}
  {prep : P → Sigs R → Int → Except PyErr (P × Sigs R)} {tot' : Nat}

/-- Two runs of different length have the same signals as long as the shorter one lasts. -/
theorem longerWith_signals {srcs : String → S} {arr : A} {proc : P} {f0 : F} {ds0 ds0' : List (Diag D)}
    {st0 st0' st st' : SimSt R F S A P D O} (h : cfg.initWith prep srcs arr proc f0 ds0 = .ok st0)
    (h' : (cfg.lasting tot').initWith prep srcs arr proc f0 ds0' = .ok st0') (hle : cfg.tot ≤ tot')
    (hk : cfg.steps cfg.tot st0 = .ok st) (hk' : (cfg.lasting tot').steps tot' st0' = .ok st') :
    ∀ t ≤ cfg.tot, ∀ name c v, (cfg.lasting tot').Produced st0' name c t v ↔ cfg.Produced st0 name c t v := by
  obtain ⟨m, hm⟩ : ∃ m, tot' = cfg.tot + m := ⟨tot' - cfg.tot, by omega⟩
  rw [hm] at hk'
  obtain ⟨z, hz⟩ := steps_prefix _ m hk'
  rw [← hm] at hz
  exact (C120_prepared h h' hk hz).1

end

/-- What a recording of the rows `rows` holds: `X c t v` says that `v` was produced in channel `c` at time `t`. -/
def Holding {R : Type} (X : Nat → Nat → R → Prop) (numCh n : Nat) (rows : List Nat) (ivs : List (Int × Int)) (s : Mat (Option R)) : Prop :=
  s.length = numCh ∧ ∀ (j c : Nat), rows[j]? = some c → ∃ row, s[j]? = some row ∧ row.length = n ∧ ∀ t < n,
    (Covered ivs t → ∃ v, X c t v ∧ row[t]? = some (some v)) ∧ (¬ Covered ivs t → row[t]? = some none)

/-- A longer recording begins with the shorter one. -/
theorem Holding.take {R : Type} {X X' : Nat → Nat → R → Prop} {numCh n n' : Nat} {rows : List Nat} {sv : Option (List (Int × Int))}
    {s1 s2 : Mat (Option R)} (hlen : rows.length = numCh) (h1 : Holding X numCh n rows (savedIvs n sv) s1)
    (h2 : Holding X' numCh n' rows (savedIvs n' sv) s2) (hle : n ≤ n') (hX : ∀ c, ∀ t ≤ n, ∀ v, X' c t v ↔ X c t v)
    (hu : ∀ c t v v', X c t v → X c t v' → v = v') :
    s1.length = numCh ∧ s2.length = numCh ∧ (∀ r ∈ s1, r.length = n) ∧ (∀ r ∈ s2, r.length = n') ∧ s1 = s2.map (List.take n) := by
  have hrow : ∀ {s : Mat (Option R)} {n : Nat}, s.length = numCh →
      (∀ (j c : Nat), rows[j]? = some c → ∃ row, s[j]? = some row ∧ row.length = n) → ∀ r ∈ s, r.length = n := by
    intro s n hs hj r hr
    obtain ⟨j, hj1, rfl⟩ := List.getElem_of_mem hr
    obtain ⟨row, e1, e2⟩ := hj j (rows[j]'(by omega)) (List.getElem?_eq_getElem _)
    rw [List.getElem?_eq_getElem hj1] at e1
    rw [Option.some.inj e1]
    exact e2
  have hcov : ∀ t < n, (Covered (savedIvs n' sv) t ↔ Covered (savedIvs n sv) t) := by
    intro t ht
    cases sv with
    | none => simp [Covered, savedIvs, ht]; omega
    | some l => rfl
  obtain ⟨g4, g5⟩ := h1
  obtain ⟨k4, k5⟩ := h2
  refine ⟨g4, k4, hrow g4 fun j c hj => let ⟨r, a, b, _⟩ := g5 j c hj; ⟨r, a, b⟩,
    hrow k4 fun j c hj => let ⟨r, a, b, _⟩ := k5 j c hj; ⟨r, a, b⟩, ?_⟩
  refine List.ext_getElem? fun j => ?_
  rw [List.getElem?_map]
  by_cases hj : j < numCh
  · obtain ⟨c, hc⟩ : ∃ c, rows[j]? = some c := ⟨rows[j]'(by omega), List.getElem?_eq_getElem _⟩
    obtain ⟨r1, a1, a2, a3⟩ := g5 j c hc
    obtain ⟨r2, b1, b2, b3⟩ := k5 j c hc
    rw [a1, b1, Option.map_some]
    congr 1
    refine List.ext_getElem? fun t => ?_
    by_cases ht : t < n
    · rw [List.getElem?_take, if_pos ht]
      by_cases hc : Covered (savedIvs n sv) t
      · obtain ⟨v, p1, p2⟩ := (a3 t ht).1 hc
        obtain ⟨v', q1, q2⟩ := (b3 t (by omega)).1 ((hcov t ht).2 hc)
        rw [p2, q2, hu _ _ _ _ p1 ((hX c t (by omega) v').1 q1)]
      · rw [(a3 t ht).2 hc, (b3 t (by omega)).2 (fun hn => hc ((hcov t ht).1 hn))]
    · rw [List.getElem?_eq_none (by omega), List.getElem?_eq_none (by rw [List.length_take]; omega)]
  · rw [List.getElem?_eq_none (by omega), List.getElem?_eq_none (l := s2) (by omega)]
    rfl

/-- What an export of the whole recording hands over. -/
def Handing {R V : Type} (X : Nat → Nat → R → Prop) (numCh n : Nat) (rows : List Nat) (ev : Event (DOut R V)) : Prop :=
  ev.time ≤ n ∧ ∃ sg : Mat R,
    ev.out = .series sg (((List.range ev.time.toNat).filter (Covered (savedIvs n none) ·)).map fun (t : Nat) => (t : Int)) ∧
    sg.length = numCh ∧ ∀ (j c : Nat), rows[j]? = some c → ∃ row, sg[j]? = some row ∧
      List.Forall₂ (fun t v => X c t v) ((List.range ev.time.toNat).filter (Covered (savedIvs n none) ·)) row

/-- The exports of a longer run up to the length of the shorter one. -/
theorem longer_exports {R V : Type} {X X' : Nat → Nat → R → Prop} {numCh n n' : Nat} {rows : List Nat} {l : List Int} (hlen : rows.length = numCh)
    (hpos : 0 < n) (hle : n ≤ n') (hl0 : ∀ x ∈ l, 0 ≤ x) (hX : ∀ c, ∀ t ≤ n, ∀ v, X' c t v ↔ X c t v)
    (hu : ∀ c t v v', X c t v → X c t v' → v = v') {es es' : List (Event (DOut R V))}
    (t1 : es.map Event.time = l.filter (· ≤ (n : Int))) (t2 : es'.map Event.time = l.filter (· ≤ (n' : Int)))
    (h1 : ∀ ev ∈ es, 0 ≤ ev.time → Handing X numCh n rows ev) (h2 : ∀ ev ∈ es', 0 ≤ ev.time → Handing X' numCh n' rows ev) :
    es.map (fun ev => (ev.time, ev.out)) = (es'.filter fun ev => ev.time ≤ (n : Int)).map fun ev => (ev.time, ev.out) := by
  have hev : ∀ ev ∈ es, ∀ ev' ∈ es'.filter fun ev => ev.time ≤ (n : Int), ev.time = ev'.time → ev'.out = ev.out := by
    intro ev hv ev' hv' he
    rw [List.mem_filter] at hv'
    have hle' : ev'.time ≤ (n : Int) := by simpa using hv'.2
    have hv' := hv'.1
    have h0 : 0 ≤ ev.time := by
      have : ev.time ∈ es.map Event.time := List.mem_map_of_mem hv
      rw [t1] at this
      exact hl0 _ (List.mem_filter.1 this).1
    obtain ⟨a0, sg, a1, a2, a3⟩ := h1 ev hv h0
    obtain ⟨b0, sg', b1, b2, b3⟩ := h2 ev' hv' (by rw [← he]; exact h0)
    have hf : ∀ k : Nat, n ≤ k → (List.range ev.time.toNat).filter (Covered (savedIvs k none) ·) = List.range ev.time.toNat := by
      intro k hk
      rw [List.filter_eq_self]
      intro t ht
      have := List.mem_range.1 ht
      rw [decide_eq_true_eq]
      exact ⟨(0, (k : Int)), by simp [savedIvs], by simp, by simp; omega⟩
    rw [← he] at b1 b3
    rw [hf _ (le_refl _)] at a1 a3
    rw [hf _ hle] at b1 b3
    rw [a1, b1]
    congr 1
    refine List.ext_getElem? fun j => ?_
    by_cases hj : j < numCh
    · obtain ⟨c, hc⟩ : ∃ c, rows[j]? = some c := ⟨rows[j]'(by omega), List.getElem?_eq_getElem _⟩
      obtain ⟨r1, c1, c2⟩ := a3 j c hc
      obtain ⟨r2, d1, d2⟩ := b3 j c hc
      rw [c1, d1]
      congr 1
      exact forall₂_unique c2 d2 fun x v w hx hv hw =>
        hu _ _ _ _ hv ((hX _ _ (by have := List.mem_range.1 hx; omega) _).1 hw)
    · rw [List.getElem?_eq_none (by omega), List.getElem?_eq_none (by omega)]
  have htimes : (es'.filter fun ev => ev.time ≤ (n : Int)).map Event.time = es.map Event.time := by
    have : (es'.filter fun ev => ev.time ≤ (n : Int)).map Event.time = (es'.map Event.time).filter (· ≤ (n : Int)) := by
      rw [List.filter_map]; rfl
    rw [this, t1, t2, List.filter_filter]
    refine List.filter_congr fun x _ => ?_
    by_cases hx : x ≤ (n : Int)
    · have : x ≤ (n' : Int) := by omega
      simp [hx, this]
    · simp [hx]
  clear t1 t2 h1 h2
  revert hev htimes
  generalize (es'.filter fun ev => ev.time ≤ (n : Int)) = es'
  induction es generalizing es' with
  | nil =>
    intro _ ht
    have : es' = [] := by simpa using ht
    subst this
    rfl
  | cons a es ih =>
    intro hev ht
    cases es' with
    | nil => cases ht
    | cons b es' =>
      rw [List.map_cons, List.map_cons, List.cons.injEq] at ht
      rw [List.map_cons, List.map_cons, ih es' (fun x hx y hy => hev x (by simp [hx]) y (by simp [hy])) ht.2,
        ht.1, hev a (by simp) b (by simp) ht.1.symm]

theorem savedIvs_longer {n n' : Nat} (hle : n ≤ n') {sv : Option (List (Int × Int))} (hinc : Increasing 0 (savedIvs n sv))
    (hend : ∀ q ∈ savedIvs n sv, q.2 ≤ n) : Increasing 0 (savedIvs n' sv) ∧ ∀ q ∈ savedIvs n' sv, q.2 ≤ (n' : Int) := by
  cases sv with
  | none =>
    obtain ⟨a, b, c⟩ := hinc
    exact ⟨⟨a, by omega, c⟩, by simp [savedIvs]⟩
  | some l => exact ⟨hinc, fun q hq => (hend q hq).trans (by omega)⟩

section
variable {R IR F S A V : Type} [Field R] [DecidableEq R] {q : FxPar R} {Sp : IrMat R}
  {cfg : SimCfg R IR F S A (FxSt R) (DData R (FxSt R) V) (DOut R V)}
  {srcs : String → S} {arr : A} {f0 : F} {ds0 ds0' : List (Diag (DData R (FxSt R) V))}
  {st0 st0' fin fin' : SimSt R F S A (FxSt R) (DData R (FxSt R) V) (DOut R V)} {tot' : Nat}

/-- C192, FxLMS: of two completed simulations that differ in their length and diagnostics only, the longer one
produces the same samples of every signal up to the end of the shorter one. -/
theorem C192_signals_fxlms (h : FxRun cfg q Sp srcs arr f0 ds0 st0 fin) (h' : FxRun (cfg.lasting tot') q Sp srcs arr f0 ds0' st0' fin')
    (hle : cfg.tot ≤ tot') :
    ∀ t ≤ cfg.tot, ∀ name c v, (cfg.lasting tot').Produced st0' name c t v ↔ cfg.Produced st0 name c t v := by
  obtain ⟨s, hs⟩ := h.stepsTo (n := cfg.tot) (by omega)
  obtain ⟨s', hs'⟩ := h'.stepsTo (n := tot') (by show tot' ≤ tot' + _; omega)
  exact longerWith_signals h.init h'.init hle hs hs'

/-- C192, FxLMS: after the same number of steps, also the control filter, the arrays and all the rest are the same. -/
theorem C192_state_fxlms (h : FxRun cfg q Sp srcs arr f0 ds0 st0 fin) (h' : FxRun (cfg.lasting tot') q Sp srcs arr f0 ds0' st0' fin')
    {k : Nat} {st st' : SimSt R F S A (FxSt R) (DData R (FxSt R) V) (DOut R V)}
    (hk : cfg.steps k st0 = .ok st) (hk' : (cfg.lasting tot').steps k st0' = .ok st') : st'.eng = st.eng :=
  (C120_prepared h.init h'.init hk hk').2

/-- C192, FxLMS, recordings: a `RecordSignal` diagnostic with the same arguments, over the whole run or
with save intervals within the shorter one, holds in the longer simulation what it holds in
the shorter one, followed by further samples. -/
theorem C192_recordings_fxlms (h : FxRun cfg q Sp srcs arr f0 ds0 st0 fin)
    (h' : FxRun (cfg.lasting tot') q Sp srcs arr f0 ds0' st0' fin') (hle : cfg.tot ≤ tot')
    {info info' : DiagInfo} {name sig : String} {ex ex' : Option IdxSel} {sv : Option (List (Int × Int))}
    {numCh num : Nat} {chan : Option (List Int)} {rows : List Nat} {d d' : Diag (DData R (FxSt R) V)}
    (hd : mkRecordSignal info name sig ex sv numCh chan = .ok d) (hmem : d ∈ ds0) (htot : info.tot = cfg.tot)
    (hd' : mkRecordSignal info' name sig ex' sv numCh chan = .ok d') (hmem' : d' ∈ ds0') (htot' : info'.tot = tot')
    (hinc : Increasing 0 (savedIvs cfg.tot sv)) (hend : ∀ q ∈ savedIvs cfg.tot sv, q.2 ≤ cfg.tot)
    (hsig : cfg.dims sig = some num) (hown : sig ≠ "xf") (hrows : chanRows num chan = some rows)
    (hlen : rows.length = numCh) :
    ∃ d1 ∈ fin.diags, d1.name = name ∧ ∃ d2 ∈ fin'.diags, d2.name = name ∧ ∃ s1 s2 : Mat (Option R),
      d1.data = .recSignal sig chan s1 ∧ d2.data = .recSignal sig chan s2 ∧ s1.length = numCh ∧ s2.length = numCh ∧
      (∀ r ∈ s1, r.length = cfg.tot) ∧ (∀ r ∈ s2, r.length = tot') ∧ s1 = s2.map (List.take cfg.tot) := by
  have hP := C192_signals_fxlms h h' hle
  obtain ⟨hinc', hend'⟩ := savedIvs_longer hle hinc hend
  obtain ⟨d1, g1, g2, s1, g3, g4⟩ := C151_recording h hd hmem htot rfl hinc hend hsig hown hrows hlen
  obtain ⟨d2, k1, k2, s2, k3, k4⟩ := C151_recording h' hd' hmem' htot' rfl hinc' hend' hsig hown hrows hlen
  exact ⟨d1, g1, g2, d2, k1, k2, s1, s2, g3, k3, Holding.take (X := fun c t v => cfg.Produced st0 sig c t v)
    (X' := fun c t v => (cfg.lasting tot').Produced st0' sig c t v) hlen g4 k4 hle (fun c t ht v => hP t ht sig c v)
    fun _ _ _ _ a b => a.unique b⟩

/-- C192, FxLMS, exports: the exports of the shorter simulation are those of the longer one with index
at most the number of samples of the shorter one. -/
theorem C192_exports_fxlms (h : FxRun cfg q Sp srcs arr f0 ds0 st0 fin)
    (h' : FxRun (cfg.lasting tot') q Sp srcs arr f0 ds0' st0' fin') (hle : cfg.tot ≤ tot')
    (hplot : cfg.plotNone = false)
    {info info' : DiagInfo} {name sig : String} {l : List Int}
    {numCh num : Nat} {chan : Option (List Int)} {rows : List Nat} {d d' : Diag (DData R (FxSt R) V)}
    (hd : mkRecordSignal info name sig (some (.list l)) none numCh chan = .ok d) (hmem : d ∈ ds0) (htot : info.tot = cfg.tot)
    (hd' : mkRecordSignal info' name sig (some (.list l)) none numCh chan = .ok d') (hmem' : d' ∈ ds0') (htot' : info'.tot = tot')
    (hpos : 0 < cfg.tot) (hl : l.Pairwise (· < ·)) (hl0 : ∀ x ∈ l, 0 ≤ x)
    (hsig : cfg.dims sig = some num) (hown : sig ≠ "xf") (hrows : chanRows num chan = some rows)
    (hlen : rows.length = numCh) (hnum : 0 < numCh) :
    (evOf name fin.log).map (fun ev => (ev.time, ev.out)) =
      ((evOf name fin'.log).filter fun ev => ev.time ≤ (cfg.tot : Int)).map fun ev => (ev.time, ev.out) := by
  have hP := C192_signals_fxlms h h' hle
  have hpos' : 0 < (cfg.lasting tot').tot := by show 0 < tot'; omega
  have hone : ∀ n : Nat, 0 < n → Increasing 0 (savedIvs n none) := fun n hn => ⟨le_refl _, by simpa using hn, trivial⟩
  have htwo : ∀ n : Nat, ∀ q ∈ savedIvs n none, q.2 ≤ (n : Int) := by simp [savedIvs]
  exact longer_exports (X := fun c t v => cfg.Produced st0 sig c t v)
    (X' := fun c t v => (cfg.lasting tot').Produced st0' sig c t v) hlen hpos hle hl0 (fun c t ht v => hP t ht sig c v)
    (fun _ _ _ _ a b => a.unique b) (C151_times h hplot hd hmem htot hpos hl hown) (C151_times h' hplot hd' hmem' htot' hpos' hl hown)
    (fun ev hv h0 => C151_export h hd hmem htot rfl (hone _ hpos) (htwo _) hsig hown hrows hlen hnum hv h0)
    (fun ev hv h0 => C151_export h' hd' hmem' htot' rfl (hone _ hpos') (htwo _) hsig hown hrows hlen hnum hv h0)

end

section
variable {R IR F S A V : Type} [Field R] [DecidableEq R] {q : FxPar R} {Sp : IrMat R}
  {cfg : SimCfg R IR F S A (FastSt R) (DData R (FastSt R) V) (DOut R V)}
  {srcs : String → S} {arr : A} {f0 : F} {ds0 ds0' : List (Diag (DData R (FastSt R) V))}
  {st0 st0' fin fin' : SimSt R F S A (FastSt R) (DData R (FastSt R) V) (DOut R V)} {tot' : Nat}

/-- C192, FastBlockFxLMS: of two completed simulations that differ in their length and diagnostics only, the longer one
produces the same samples of every signal up to the end of the shorter one. -/
theorem C192_signals_fast (h : FastRun cfg q Sp srcs arr f0 ds0 st0 fin) (h' : FastRun (cfg.lasting tot') q Sp srcs arr f0 ds0' st0' fin')
    (hle : cfg.tot ≤ tot') :
    ∀ t ≤ cfg.tot, ∀ name c v, (cfg.lasting tot').Produced st0' name c t v ↔ cfg.Produced st0 name c t v := by
  obtain ⟨s, hs⟩ := h.stepsTo (n := cfg.tot) (by omega)
  obtain ⟨s', hs'⟩ := h'.stepsTo (n := tot') (by show tot' ≤ tot' + _; omega)
  exact longerWith_signals h.init h'.init hle hs hs'

/-- C192, FastBlockFxLMS: after the same number of steps, also the control filter, the arrays and all the rest are the same. -/
theorem C192_state_fast (h : FastRun cfg q Sp srcs arr f0 ds0 st0 fin) (h' : FastRun (cfg.lasting tot') q Sp srcs arr f0 ds0' st0' fin')
    {k : Nat} {st st' : SimSt R F S A (FastSt R) (DData R (FastSt R) V) (DOut R V)}
    (hk : cfg.steps k st0 = .ok st) (hk' : (cfg.lasting tot').steps k st0' = .ok st') : st'.eng = st.eng :=
  (C120_prepared h.init h'.init hk hk').2

/-- C192, FastBlockFxLMS, recordings: a `RecordSignal` diagnostic with the same arguments, over the whole run or
with save intervals within the shorter one, holds in the longer simulation what it holds in
the shorter one, followed by further samples. -/
theorem C192_recordings_fast (h : FastRun cfg q Sp srcs arr f0 ds0 st0 fin)
    (h' : FastRun (cfg.lasting tot') q Sp srcs arr f0 ds0' st0' fin') (hle : cfg.tot ≤ tot')
    {info info' : DiagInfo} {name sig : String} {ex ex' : Option IdxSel} {sv : Option (List (Int × Int))}
    {numCh num : Nat} {chan : Option (List Int)} {rows : List Nat} {d d' : Diag (DData R (FastSt R) V)}
    (hd : mkRecordSignal info name sig ex sv numCh chan = .ok d) (hmem : d ∈ ds0) (htot : info.tot = cfg.tot)
    (hd' : mkRecordSignal info' name sig ex' sv numCh chan = .ok d') (hmem' : d' ∈ ds0') (htot' : info'.tot = tot')
    (hinc : Increasing 0 (savedIvs cfg.tot sv)) (hend : ∀ q ∈ savedIvs cfg.tot sv, q.2 ≤ cfg.tot)
    (hsig : cfg.dims sig = some num) (hown : sig ≠ "xf") (hrows : chanRows num chan = some rows)
    (hlen : rows.length = numCh) :
    ∃ d1 ∈ fin.diags, d1.name = name ∧ ∃ d2 ∈ fin'.diags, d2.name = name ∧ ∃ s1 s2 : Mat (Option R),
      d1.data = .recSignal sig chan s1 ∧ d2.data = .recSignal sig chan s2 ∧ s1.length = numCh ∧ s2.length = numCh ∧
      (∀ r ∈ s1, r.length = cfg.tot) ∧ (∀ r ∈ s2, r.length = tot') ∧ s1 = s2.map (List.take cfg.tot) := by
  have hP := C192_signals_fast h h' hle
  obtain ⟨hinc', hend'⟩ := savedIvs_longer hle hinc hend
  obtain ⟨d1, g1, g2, s1, g3, g4⟩ := C183_recording h hd hmem htot rfl hinc hend hsig hown hrows hlen
  obtain ⟨d2, k1, k2, s2, k3, k4⟩ := C183_recording h' hd' hmem' htot' rfl hinc' hend' hsig hown hrows hlen
  exact ⟨d1, g1, g2, d2, k1, k2, s1, s2, g3, k3, Holding.take (X := fun c t v => cfg.Produced st0 sig c t v)
    (X' := fun c t v => (cfg.lasting tot').Produced st0' sig c t v) hlen g4 k4 hle (fun c t ht v => hP t ht sig c v)
    fun _ _ _ _ a b => a.unique b⟩

/-- C192, FastBlockFxLMS, exports: the exports of the shorter simulation are those of the longer one with index
at most the number of samples of the shorter one. -/
theorem C192_exports_fast (h : FastRun cfg q Sp srcs arr f0 ds0 st0 fin)
    (h' : FastRun (cfg.lasting tot') q Sp srcs arr f0 ds0' st0' fin') (hle : cfg.tot ≤ tot')
    (hplot : cfg.plotNone = false)
    {info info' : DiagInfo} {name sig : String} {l : List Int}
    {numCh num : Nat} {chan : Option (List Int)} {rows : List Nat} {d d' : Diag (DData R (FastSt R) V)}
    (hd : mkRecordSignal info name sig (some (.list l)) none numCh chan = .ok d) (hmem : d ∈ ds0) (htot : info.tot = cfg.tot)
    (hd' : mkRecordSignal info' name sig (some (.list l)) none numCh chan = .ok d') (hmem' : d' ∈ ds0') (htot' : info'.tot = tot')
    (hpos : 0 < cfg.tot) (hl : l.Pairwise (· < ·)) (hl0 : ∀ x ∈ l, 0 ≤ x)
    (hsig : cfg.dims sig = some num) (hown : sig ≠ "xf") (hrows : chanRows num chan = some rows)
    (hlen : rows.length = numCh) (hnum : 0 < numCh) :
    (evOf name fin.log).map (fun ev => (ev.time, ev.out)) =
      ((evOf name fin'.log).filter fun ev => ev.time ≤ (cfg.tot : Int)).map fun ev => (ev.time, ev.out) := by
  have hP := C192_signals_fast h h' hle
  have hpos' : 0 < (cfg.lasting tot').tot := by show 0 < tot'; omega
  have hone : ∀ n : Nat, 0 < n → Increasing 0 (savedIvs n none) := fun n hn => ⟨le_refl _, by simpa using hn, trivial⟩
  have htwo : ∀ n : Nat, ∀ q ∈ savedIvs n none, q.2 ≤ (n : Int) := by simp [savedIvs]
  exact longer_exports (X := fun c t v => cfg.Produced st0 sig c t v)
    (X' := fun c t v => (cfg.lasting tot').Produced st0' sig c t v) hlen hpos hle hl0 (fun c t ht v => hP t ht sig c v)
    (fun _ _ _ _ a b => a.unique b) (C183_times h hplot hd hmem htot hpos hl hown) (C183_times h' hplot hd' hmem' htot' hpos' hl hown)
    (fun ev hv h0 => C183_export h hd hmem htot rfl (hone _ hpos) (htwo _) hsig hown hrows hlen hnum hv h0)
    (fun ev hv h0 => C183_export h' hd' hmem' htot' rfl (hone _ hpos') (htwo _) hsig hown hrows hlen hnum hv h0)

end

/-! ### examples -/

/-- A recording of the loudspeaker in a run with `n` samples. -/
def fxlmsLongDs (n : Nat) : List (Diag (DData ℚ (FxSt ℚ) ℚ)) :=
  [fxD (mkRecordSignal ⟨n, 4, 1⟩ "ls" "loudspeaker" (some (.list [3, 10])) none 1 none)]

theorem fxlms_long_run (n : Nat) (hn : n = 8 ∨ n = 11) : ∃ st0 fin : FxS,
    FxRun (fxSc.lasting n) (fxDemo 1 2 2 .sample) (fxSec [1, -1]) (fun _ => 0) () demoFilt (fxlmsLongDs n) st0 fin := by
  have h : (match (fxSc.lasting n).runWith fxPrepare (fun _ => 0) () (fxInit (fxDemo 1 2 2 .sample) (fxSec [1, -1])) demoFilt (fxlmsLongDs n) with
      | .error _ => false
      | .ok _ => true) = true := by
    rcases hn with rfl | rfl <;> decide +kernel
  split at h
  · cases h
  · rename_i fin hr
    have hr' := hr
    unfold SimCfg.runWith at hr'
    split at hr'
    · cases hr'
    · rename_i st0 hi
      have hs : FxScene fxSc (fxDemo 1 2 2 .sample) := fxCfg_scene (by decide) (by decide) (by decide) (by decide) (by decide)
      exact ⟨st0, fin, ⟨⟨hs.proc, hs.ref, hs.err, hs.ls, hs.own, hs.nr, hs.nl, hs.ne, hs.L, hs.bs, hs.ub, hs.chunk, hs.buffer, hs.regular⟩, rfl, by simp [fxlmsLongDs], hi, hr⟩⟩

/-- Runs with 8 and 11 samples. -/
example : ∃ st0 st0' fin fin' : FxS, FxRun (fxSc.lasting 8) (fxDemo 1 2 2 .sample) (fxSec [1, -1]) (fun _ => 0) () demoFilt (fxlmsLongDs 8) st0 fin ∧
    FxRun (fxSc.lasting 11) (fxDemo 1 2 2 .sample) (fxSec [1, -1]) (fun _ => 0) () demoFilt (fxlmsLongDs 11) st0' fin' ∧
    (∃ d1 ∈ fin.diags, ∃ d2 ∈ fin'.diags, ∃ s1 s2 : Mat (Option ℚ), d1.data = .recSignal "loudspeaker" none s1 ∧
      d2.data = .recSignal "loudspeaker" none s2 ∧ s1 = s2.map (List.take 8) ∧ ∀ r ∈ s2, r.length = 11) ∧
    (evOf "ls" fin.log).map (fun ev => (ev.time, ev.out)) =
      ((evOf "ls" fin'.log).filter fun ev => ev.time ≤ (8 : Int)).map fun ev => (ev.time, ev.out) := by
  obtain ⟨st0, fin, h⟩ := fxlms_long_run 8 (.inl rfl)
  obtain ⟨st0', fin', h'⟩ := fxlms_long_run 11 (.inr rfl)
  refine ⟨st0, st0', fin, fin', h, h', ?_, ?_⟩
  · obtain ⟨d1, a1, a2, d2, b1, b2, s1, s2, c1, c2, _, _, _, c4, c3⟩ := C192_recordings_fxlms (cfg := fxSc.lasting 8) (tot' := 11) h h' (by decide)
      (info := ⟨8, 4, 1⟩) (info' := ⟨11, 4, 1⟩) (name := "ls") (sig := "loudspeaker") (sv := none) (numCh := 1) (chan := none)
      (ex := some (.list [3, 10])) (ex' := some (.list [3, 10])) (rows := [0]) rfl List.mem_cons_self rfl rfl List.mem_cons_self rfl
      (show Increasing 0 [(0, 8)] from ⟨le_refl _, by decide, trivial⟩) (by decide) (by rfl) (by decide) (by rfl) rfl
    exact ⟨d1, a1, d2, b1, s1, s2, c1, c2, c3, c4⟩
  · exact C192_exports_fxlms (cfg := fxSc.lasting 8) (tot' := 11) h h' (by decide) rfl
      (info := ⟨8, 4, 1⟩) (info' := ⟨11, 4, 1⟩) (sig := "loudspeaker") (l := [3, 10]) (numCh := 1) (chan := none) (rows := [0])
      rfl List.mem_cons_self rfl rfl List.mem_cons_self rfl (by decide) (by decide) (by decide) (by rfl) (by decide) (by rfl) rfl (by decide)

/-- A recording of the loudspeaker in a run with `n` samples. -/
def fastLongDs (n : Nat) : List (Diag (DData ℚ (FastSt ℚ) ℚ)) :=
  [fastD (mkRecordSignal ⟨n, 4, 1⟩ "ls" "loudspeaker" (some (.list [3, 10])) none 1 none)]

theorem fast_long_run (n : Nat) (hn : n = 8 ∨ n = 11) : ∃ st0 fin : FastS,
    FastRun (fastSc.lasting n) (fxDemo 1 2 2 .block) (fxSec [2]) (fun _ => 0) () demoFilt (fastLongDs n) st0 fin := by
  have h : (match (fastSc.lasting n).runWith (fastPrepare (fxDemo 1 2 2 .block)) (fun _ => 0) () (fastInit (fxDemo 1 2 2 .block) (fxSec [2])) demoFilt (fastLongDs n) with
      | .error _ => false
      | .ok _ => true) = true := by
    rcases hn with rfl | rfl <;> decide +kernel
  split at h
  · cases h
  · rename_i fin hr
    have hr' := hr
    unfold SimCfg.runWith at hr'
    split at hr'
    · cases hr'
    · rename_i st0 hi
      have hs : FastScene fastSc (fxDemo 1 2 2 .block) := fastCfg_scene (by decide) (by decide) (by decide) (by decide)
      exact ⟨st0, fin, ⟨⟨hs.proc, hs.ref, hs.err, hs.ls, hs.own, hs.nr, hs.nl, hs.ne, hs.L, hs.bs, hs.ub, hs.chunk, hs.buffer, hs.regular⟩, rfl, by simp [fastLongDs], hi, hr⟩⟩

/-- Runs with 8 and 11 samples. -/
example : ∃ st0 st0' fin fin' : FastS, FastRun (fastSc.lasting 8) (fxDemo 1 2 2 .block) (fxSec [2]) (fun _ => 0) () demoFilt (fastLongDs 8) st0 fin ∧
    FastRun (fastSc.lasting 11) (fxDemo 1 2 2 .block) (fxSec [2]) (fun _ => 0) () demoFilt (fastLongDs 11) st0' fin' ∧
    (∃ d1 ∈ fin.diags, ∃ d2 ∈ fin'.diags, ∃ s1 s2 : Mat (Option ℚ), d1.data = .recSignal "loudspeaker" none s1 ∧
      d2.data = .recSignal "loudspeaker" none s2 ∧ s1 = s2.map (List.take 8) ∧ ∀ r ∈ s2, r.length = 11) ∧
    (evOf "ls" fin.log).map (fun ev => (ev.time, ev.out)) =
      ((evOf "ls" fin'.log).filter fun ev => ev.time ≤ (8 : Int)).map fun ev => (ev.time, ev.out) := by
  obtain ⟨st0, fin, h⟩ := fast_long_run 8 (.inl rfl)
  obtain ⟨st0', fin', h'⟩ := fast_long_run 11 (.inr rfl)
  refine ⟨st0, st0', fin, fin', h, h', ?_, ?_⟩
  · obtain ⟨d1, a1, a2, d2, b1, b2, s1, s2, c1, c2, _, _, _, c4, c3⟩ := C192_recordings_fast (cfg := fastSc.lasting 8) (tot' := 11) h h' (by decide)
      (info := ⟨8, 4, 1⟩) (info' := ⟨11, 4, 1⟩) (name := "ls") (sig := "loudspeaker") (sv := none) (numCh := 1) (chan := none)
      (ex := some (.list [3, 10])) (ex' := some (.list [3, 10])) (rows := [0]) rfl List.mem_cons_self rfl rfl List.mem_cons_self rfl
      (show Increasing 0 [(0, 8)] from ⟨le_refl _, by decide, trivial⟩) (by decide) (by rfl) (by decide) (by rfl) rfl
    exact ⟨d1, a1, d2, b1, s1, s2, c1, c2, c3, c4⟩
  · exact C192_exports_fast (cfg := fastSc.lasting 8) (tot' := 11) h h' (by decide) rfl
      (info := ⟨8, 4, 1⟩) (info' := ⟨11, 4, 1⟩) (sig := "loudspeaker") (l := [3, 10]) (numCh := 1) (chan := none) (rows := [0])
      rfl List.mem_cons_self rfl rfl List.mem_cons_self rfl (by decide) (by decide) (by decide) (by rfl) (by decide) (by rfl) rfl (by decide)


end Verif

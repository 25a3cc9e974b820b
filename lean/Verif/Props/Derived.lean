/-
C93: diagnostics computed from the state of the processor.
-/
import Verif.Props.State
namespace Verif

section
variable {R IR F S A P V : Type} [Field R] [DecidableEq R]
  {cfg : SimCfg R IR F S A P (DData R P V) (DOut R V)} {lp : ProcView R P}
  {srcs : String → S} {arr : A} {proc : P} {f0 : F} {ds0 : List (Diag (DData R P V))}
  {st0 fin : SimSt R F S A P (DData R P V) (DOut R V)}

/-- The exported row and time indices: `x k` is the value for the `k`-th multiple of `f`
(counted from 1), for all multiples up to the export index. -/
def ExportsSeries (o : DOut R V) (e f : Nat) (x : Nat → R → Prop) : Prop :=
  ∃ row : List R, o = .series [row] ((List.range (e / f)).map fun k => (((k + 1) * f : Nat) : Int) - 1) ∧
    row.length = e / f ∧ ∀ k < e / f, ∃ v, row[k]? = some v ∧ x (k + 1) v

theorem one_row (h : CompletedRun cfg lp srcs arr proc f0 ds0 st0 fin) (hp : cfg.proc.isSome)
    {info : DiagInfo} {name : String} {get : P → Except PyErr (List R)} {ex : Option IdxSel}
    {f : Nat} {junk : Int} {d : Diag (DData R P V)}
    (hd : mkRecordState info name get 1 ex (some (.every f)) junk = .ok d) (hmem : d ∈ ds0)
    (htot : info.tot = cfg.tot) (hdim : ∀ p v, get p = .ok v → v.length = 1)
    {ev : Event (DOut R V)} (hev : ev ∈ evOf name fin.log) (hfirst : (f : Int) ≤ ev.time) :
    ExportsSeries ev.out ev.time.toNat f fun k v => ∃ s, cfg.StateAt st0 (k * f) s ∧ get s = .ok [v] := by
  obtain ⟨sg, h1, h2, h3⟩ := C21_export_partial h hp hd hmem htot hdim (by omega) hev hfirst
  obtain ⟨row, rfl⟩ : ∃ row, sg = [row] := by
    match sg, h2 with
    | [row], _ => exact ⟨row, rfl⟩
  have hlen : row.length = ev.time.toNat / f := by
    by_cases h0 : 0 < ev.time.toNat / f
    · obtain ⟨s, v, _, _, hv⟩ := h3 0 h0
      exact (hv 0 row rfl).1
    · obtain ⟨hf, _⟩ := mkRecordState_ok hd
      exfalso
      apply h0
      exact Nat.div_pos (by omega) hf
  refine ⟨row, h1, hlen, fun k hk => ?_⟩
  obtain ⟨s, v, hs, hg, hv⟩ := h3 k hk
  have hv0 := (hv 0 row rfl).2
  obtain ⟨x, rfl⟩ : ∃ x, v = [x] := by
    match v, hdim s v hg with
    | [x], _ => exact ⟨x, rfl⟩
  exact ⟨x, hv0, s, hs, hg⟩

/-- C93, `StateComparison`: every export from the first save on contains, for each multiple of
the save frequency up to it, the value of the comparison function for the two states as that
iteration left them.  (Exports before the first save: see C21.) -/
theorem C93_comparison {X Y : Type} (h : CompletedRun cfg lp srcs arr proc f0 ds0 st0 fin) (hp : cfg.proc.isSome)
    {info : DiagInfo} {name : String} {cmp : X → Y → Except PyErr R} {get1 : P → Except PyErr X}
    {get2 : P → Except PyErr Y} {ex : Option IdxSel} {f : Nat} {junk : Int} {d : Diag (DData R P V)}
    (hd : mkStateComparison info name cmp get1 get2 ex (some (.every f)) junk = .ok d) (hmem : d ∈ ds0)
    (htot : info.tot = cfg.tot) {ev : Event (DOut R V)} (hev : ev ∈ evOf name fin.log)
    (hfirst : (f : Int) ≤ ev.time) :
    ExportsSeries ev.out ev.time.toNat f fun k v => ∃ s a b, cfg.StateAt st0 (k * f) s ∧
      get1 s = .ok a ∧ get2 s = .ok b ∧ cmp a b = .ok v := by
  have hget : ∀ p v, (do
        let s1 ← get1 p
        let s2 ← get2 p
        let x ← cmp s1 s2
        pure [x] : Except PyErr (List R)) = .ok v →
      ∃ a b x, get1 p = .ok a ∧ get2 p = .ok b ∧ cmp a b = .ok x ∧ v = [x] := by
    intro p v hv
    cases h1 : get1 p with
    | error x => rw [h1] at hv; cases hv
    | ok a =>
      cases h2 : get2 p with
      | error x => rw [h1, h2] at hv; cases hv
      | ok b =>
        cases h3 : cmp a b with
        | error x => rw [h1, h2] at hv; simp only [bind, Except.bind, h3] at hv; cases hv
        | ok x =>
          rw [h1, h2] at hv
          simp only [bind, Except.bind, h3] at hv
          exact ⟨a, b, x, rfl, rfl, h3, (Except.ok.inj hv).symm⟩
  obtain ⟨row, h1, h2, h3⟩ := one_row h hp (get := fun p => do
      let s1 ← get1 p
      let s2 ← get2 p
      let x ← cmp s1 s2
      pure [x]) hd hmem htot (by
    intro p v hv
    obtain ⟨_, _, _, _, _, _, rfl⟩ := hget p v hv
    rfl) hev hfirst
  refine ⟨row, h1, h2, fun k hk => ?_⟩
  obtain ⟨v, hv, s, hs, hg⟩ := h3 k hk
  obtain ⟨a, b, x, g1, g2, g3, g4⟩ := hget s [v] hg
  cases g4
  exact ⟨v, hv, s, a, b, hs, g1, g2, g3⟩

/-- C93, `StateSummary`: the same for a function of one state. -/
theorem C93_summary {X : Type} (h : CompletedRun cfg lp srcs arr proc f0 ds0 st0 fin) (hp : cfg.proc.isSome)
    {info : DiagInfo} {name : String} {func : X → Except PyErr R} {get : P → Except PyErr X}
    {ex : Option IdxSel} {f : Nat} {junk : Int} {d : Diag (DData R P V)}
    (hd : mkStateSummary info name func get ex (some (.every f)) junk = .ok d) (hmem : d ∈ ds0)
    (htot : info.tot = cfg.tot) {ev : Event (DOut R V)} (hev : ev ∈ evOf name fin.log)
    (hfirst : (f : Int) ≤ ev.time) :
    ExportsSeries ev.out ev.time.toNat f fun k v => ∃ s a, cfg.StateAt st0 (k * f) s ∧
      get s = .ok a ∧ func a = .ok v := by
  have hget : ∀ p v, (do
        let s ← get p
        let x ← func s
        pure [x] : Except PyErr (List R)) = .ok v →
      ∃ a x, get p = .ok a ∧ func a = .ok x ∧ v = [x] := by
    intro p v hv
    cases h1 : get p with
    | error x => rw [h1] at hv; cases hv
    | ok a =>
      cases h3 : func a with
      | error x => rw [h1] at hv; simp only [bind, Except.bind, h3] at hv; cases hv
      | ok x =>
        rw [h1] at hv
        simp only [bind, Except.bind, h3] at hv
        exact ⟨a, x, rfl, h3, (Except.ok.inj hv).symm⟩
  obtain ⟨row, h1, h2, h3⟩ := one_row h hp (get := fun p => do
      let s ← get p
      let x ← func s
      pure [x]) hd hmem htot (by
    intro p v hv
    obtain ⟨_, _, _, _, rfl⟩ := hget p v hv
    rfl) hev hfirst
  refine ⟨row, h1, h2, fun k hk => ?_⟩
  obtain ⟨v, hv, s, hs, hg⟩ := h3 k hk
  obtain ⟨a, x, g1, g3, g4⟩ := hget s [v] hg
  cases g4
  exact ⟨v, hv, s, a, hs, g1, g3⟩

/-- C93, `EigenvaluesOverTime`: every export from the first save on contains, in row `j`, the
eigenvalue number `lo + j` in ascending order (with `abs_value`: its absolute value) of the
matrix as each multiple of the save frequency left it. -/
theorem C93_eigenvalues (h : CompletedRun cfg lp srcs arr proc f0 ds0 st0 fin) (hp : cfg.proc.isSome)
    {info : DiagInfo} {name : String} {symm : Mat R → Bool} {eigh : Mat R → Except PyErr (List R)}
    {absVal : R → R} {get : P → Except PyErr (Mat R)} {lo hi : Nat} (hlo : lo ≤ hi)
    {ex : Option IdxSel} {f : Nat} {junk : Int} {d : Diag (DData R P V)}
    (hd : mkEigenvaluesOverTime info name symm eigh absVal get lo hi ex (some (.every f)) junk = .ok d)
    (hmem : d ∈ ds0) (htot : info.tot = cfg.tot) {ev : Event (DOut R V)} (hev : ev ∈ evOf name fin.log)
    (hfirst : (f : Int) ≤ ev.time) :
    ∃ sg : Mat R, ev.out = .series sg ((List.range (ev.time.toNat / f)).map fun k =>
        (((k + 1) * f : Nat) : Int) - 1) ∧ sg.length = hi + 1 - lo ∧
      ∀ k < ev.time.toNat / f, ∃ s m evs, cfg.StateAt st0 ((k + 1) * f) s ∧ get s = .ok m ∧ symm m = true ∧
        eigh m = .ok evs ∧ ∀ (j : Nat) row, sg[j]? = some row →
          ∃ x, evs[lo + j]? = some x ∧ row[k]? = some (absVal x) := by
  have hget : ∀ p v, (do
        let m ← get p
        eigenvaluesOf symm eigh absVal lo hi m : Except PyErr (List R)) = .ok v →
      ∃ m evs, get p = .ok m ∧ symm m = true ∧ eigh m = .ok evs ∧ hi < evs.length ∧
        v = ((evs.drop lo).take (hi - lo + 1)).map absVal := by
    intro p v hv
    cases h1 : get p with
    | error x => rw [h1] at hv; cases hv
    | ok m =>
      rw [h1] at hv
      simp only [bind, Except.bind] at hv
      unfold eigenvaluesOf at hv
      split at hv
      · rename_i hs
        split at hv
        · cases hv
        · rename_i evs he
          split at hv
          · rename_i hr
            exact ⟨m, evs, rfl, hs, he, hr.2, (Except.ok.inj hv).symm⟩
          · cases hv
      · cases hv
  obtain ⟨sg, h1, h2, h3⟩ := C21_export_partial h hp (get := fun p => do
      let m ← get p
      eigenvaluesOf symm eigh absVal lo hi m) (dim := hi + 1 - lo) hd hmem htot (by
    intro p v hv
    obtain ⟨m, evs, _, _, _, h4, rfl⟩ := hget p v hv
    simp only [List.length_map, List.length_take, List.length_drop]
    omega) (by omega) hev hfirst
  refine ⟨sg, h1, h2, fun k hk => ?_⟩
  obtain ⟨s, v, hs, hg, hv⟩ := h3 k hk
  obtain ⟨m, evs, g1, g2, g3, g4, rfl⟩ := hget s v hg
  refine ⟨s, m, evs, hs, g1, g2, g3, fun j row hrow => ?_⟩
  have hj : j < sg.length := (List.getElem?_eq_some_iff.1 hrow).1
  have hlt : lo + j < evs.length := by omega
  refine ⟨evs[lo + j], List.getElem?_eq_getElem hlt, ?_⟩
  rw [(hv j row hrow).2, List.getElem?_map, List.getElem?_take_of_lt (by omega), List.getElem?_drop,
    List.getElem?_eq_getElem hlt]
  rfl

/-- C93, `RecordFilterDifference`: exported at each chosen time index is the difference of the
two properties as that iteration left them. -/
theorem C93_difference (h : CompletedRun cfg lp srcs arr proc f0 ds0 st0 fin) (hp : cfg.proc.isSome)
    (hplot : cfg.plotNone = false) {info : DiagInfo} {name : String} {sub : V → V → Except PyErr V}
    {get1 get2 : P → Except PyErr V} {l : List Int} {d : Diag (DData R P V)}
    (hd : mkRecordFilterDifference info name sub get1 get2 (some (.list l)) = .ok d) (hmem : d ∈ ds0)
    (hl : l.Pairwise (· < ·)) (hpos : ∀ x ∈ l, 1 ≤ x) :
    (evOf name fin.log).map Event.time = l.filter (· < ((cfg.tot + cfg.mbs : Nat) : Int)) ∧
    ∀ ev ∈ evOf name fin.log, ∃ s a b v, cfg.StateAt st0 ev.time.toNat s ∧ get1 s = .ok a ∧ get2 s = .ok b ∧
      sub a b = .ok v ∧ ev.out = .value (some v) := by
  obtain ⟨h1, h2⟩ := C22_instants h hp hplot hd hmem hl hpos
  refine ⟨h1, fun ev hev => ?_⟩
  obtain ⟨s, v, hs, hg, ho⟩ := h2 ev hev
  cases g1 : get1 s with
  | error x => rw [g1] at hg; cases hg
  | ok a =>
    cases g2 : get2 s with
    | error x => rw [g1, g2] at hg; cases hg
    | ok b =>
      rw [g1, g2] at hg
      exact ⟨s, a, b, v, hs, g1, g2, hg, ho⟩

/-- C93, `Eigenvalues`: exported at each chosen time index are all the eigenvalues (with
`abs_value`: their absolute values), in ascending order, of the matrix as that iteration left it. -/
theorem C93_eigenvalues_at (h : CompletedRun cfg lp srcs arr proc f0 ds0 st0 fin) (hp : cfg.proc.isSome)
    (hplot : cfg.plotNone = false) {info : DiagInfo} {name : String} {symm : Mat R → Bool}
    {eigh : Mat R → Except PyErr (List R)} {absVal : R → R} {wrap : List R → V}
    {get : P → Except PyErr (Mat R)} {l : List Int} {d : Diag (DData R P V)}
    (hd : mkEigenvalues info name symm eigh absVal wrap get (some (.list l)) = .ok d) (hmem : d ∈ ds0)
    (hl : l.Pairwise (· < ·)) (hpos : ∀ x ∈ l, 1 ≤ x) :
    (evOf name fin.log).map Event.time = l.filter (· < ((cfg.tot + cfg.mbs : Nat) : Int)) ∧
    ∀ ev ∈ evOf name fin.log, ∃ s m evs, cfg.StateAt st0 ev.time.toNat s ∧ get s = .ok m ∧ symm m = true ∧
      eigh m = .ok evs ∧ ev.out = .value (some (wrap (evs.map absVal))) := by
  obtain ⟨h1, h2⟩ := C22_instants h hp hplot hd hmem hl hpos
  refine ⟨h1, fun ev hev => ?_⟩
  obtain ⟨s, v, hs, hg, ho⟩ := h2 ev hev
  cases g1 : get s with
  | error x => rw [g1] at hg; cases hg
  | ok m =>
    rw [g1] at hg
    simp only [bind, Except.bind] at hg
    split at hg
    · rename_i g2
      cases g3 : eigh m with
      | error x => rw [g3] at hg; cases hg
      | ok evs =>
        rw [g3] at hg
        cases hg
        exact ⟨s, m, evs, hs, g1, g2, g3, ho⟩
    · cases hg

end

/-! ### A run with these diagnostics -/

def getPair (p : DebugSt ℚ) : Except PyErr (Mat ℚ) := .ok [[(p.processed : ℚ), 0], [0, 1]]
/-- The eigenvalues of a diagonal matrix of the form `[[a, 0], [0, 1]]` with `a ≥ 1`. -/
def diagEigh : Mat ℚ → Except PyErr (List ℚ)
  | [[a, _], [_, b]] => .ok [b, a]
  | _ => .error .value

def derCmp : Except PyErr (Diag DemoD) :=
  mkStateComparison ⟨6, 3, 1⟩ "cmp" (fun a b => .ok (a - 2 * b)) getCount getCount none (some (.every 2)) 0
def derEig : Except PyErr (Diag DemoD) :=
  mkEigenvaluesOverTime ⟨6, 3, 1⟩ "eig" (fun _ => true) diagEigh id getPair 1 1 none (some (.every 2)) 0
def derDif : Except PyErr (Diag DemoD) :=
  mkRecordFilterDifference ⟨6, 3, 1⟩ "dif" (fun a b => .ok (a - b)) getCount (fun _ => .ok 1) (some (.list [2, 5]))
theorem derCmp_ok : mkStateComparison ⟨6, 3, 1⟩ "cmp" (fun a b => .ok (a - 2 * b)) getCount getCount none
    (some (.every 2)) 0 = .ok (okD derCmp) := rfl
theorem derEig_ok : mkEigenvaluesOverTime ⟨6, 3, 1⟩ "eig" (fun _ => true) diagEigh id getPair 1 1 none
    (some (.every 2)) 0 = .ok (okD derEig) := rfl
theorem derDif_ok : mkRecordFilterDifference ⟨6, 3, 1⟩ "dif" (fun a b => .ok (a - b)) getCount (fun _ => .ok 1)
    (some (.list [2, 5])) = .ok (okD derDif) := rfl
def derEvs : Except PyErr (Diag DemoD) :=
  mkEigenvalues ⟨6, 3, 1⟩ "evs" (fun _ => true) diagEigh id List.sum getPair (some (.list [2, 5]))
theorem derEvs_ok : mkEigenvalues ⟨6, 3, 1⟩ "evs" (fun _ => true) diagEigh id List.sum getPair
    (some (.list [2, 5])) = .ok (okD derEvs) := rfl
def derDs : List (Diag DemoD) := [okD derCmp, okD derEig, okD derDif, okD derEvs]

theorem der_completed : ∃ st0 fin, CompletedRun (demoCfg 4 2 6) ((debugProc 6 2).view 2)
    (fun _ => 0) () demoProc demoFilt derDs st0 fin ∧
    fin.log.map (fun ev => (ev.diag, ev.time, showOut ev.out)) =
      [("dif", 2, [[1]], []), ("evs", 2, [[3]], []), ("cmp", 3, [[-2]], [1]), ("eig", 3, [[2]], [1]), ("dif", 5, [[5]], []), ("evs", 5, [[7]], []),
       ("cmp", 6, [[-2, -4, -6]], [1, 3, 5]), ("eig", 6, [[2, 4, 6]], [1, 3, 5])] := by
  have h0 : ∃ st0, (demoCfg 4 2 6).init (fun _ => 0) () demoProc demoFilt derDs = .ok st0 :=
    ⟨_, by rfl⟩
  have h1 : ((demoCfg 4 2 6).run (fun _ => 0) () demoProc demoFilt derDs).toOption.map
      (fun fin => fin.log.map fun ev => (ev.diag, ev.time, showOut ev.out)) = some
      [("dif", 2, [[1]], []), ("evs", 2, [[3]], []), ("cmp", 3, [[-2]], [1]), ("eig", 3, [[2]], [1]), ("dif", 5, [[5]], []), ("evs", 5, [[7]], []),
       ("cmp", 6, [[-2, -4, -6]], [1, 3, 5]), ("eig", 6, [[2, 4, 6]], [1, 3, 5])] := by
    decide +kernel
  cases h2 : (demoCfg 4 2 6).run (fun _ => 0) () demoProc demoFilt derDs with
  | error x => rw [h2] at h1; cases h1
  | ok fin =>
    rw [h2] at h1
    obtain ⟨st0, h0⟩ := h0
    exact ⟨st0, fin, ⟨demo_admissible, rfl, by decide, h0, h2⟩, Option.some.inj h1⟩

/-- C93 for this run. -/
example : ∃ st0 fin, CompletedRun (demoCfg 4 2 6) ((debugProc 6 2).view 2)
      (fun _ => 0) () demoProc demoFilt derDs st0 fin ∧
    (∃ ev ∈ evOf "cmp" fin.log, ev.time = 6 ∧
      ExportsSeries ev.out 6 2 fun k v => ∃ s a b, (demoCfg 4 2 6).StateAt st0 (k * 2) s ∧
        getCount s = .ok a ∧ getCount s = .ok b ∧ (Except.ok (a - 2 * b) : Except PyErr ℚ) = .ok v) ∧
    (evOf "dif" fin.log).map Event.time = [2, 5] ∧ (evOf "evs" fin.log).map Event.time = [2, 5] := by
  obtain ⟨st0, fin, h, hlog⟩ := der_completed
  refine ⟨st0, fin, h, ?_, (C93_difference h rfl rfl derDif_ok (by simp [derDs]) (by decide) (by decide)).1,
    (C93_eigenvalues_at h rfl rfl derEvs_ok (by simp [derDs]) (by decide) (by decide)).1⟩
  have hm : ("cmp", (6 : Int), [[(-2 : ℚ), -4, -6]], [(1 : Int), 3, 5]) ∈
      fin.log.map (fun ev => (ev.diag, ev.time, showOut ev.out)) := by rw [hlog]; simp
  obtain ⟨ev, hev, he⟩ := List.mem_map.1 hm
  simp only [Prod.mk.injEq] at he
  have hmem : ev ∈ evOf "cmp" fin.log := by
    unfold evOf
    rw [List.mem_filter]
    exact ⟨hev, by simp [he.1]⟩
  have := C93_comparison h rfl derCmp_ok (by simp [derDs]) rfl hmem (by rw [he.2.1]; decide)
  rw [he.2.1] at this
  exact ⟨ev, hmem, he.2.1, this⟩

end Verif

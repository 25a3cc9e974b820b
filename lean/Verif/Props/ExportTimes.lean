/-
C05 for every diagnostic: which exports happen.
-/
import Verif.Lemmas.State
import Verif.Props.Recording
namespace Verif

theorem Increasing.ends_sorted {lo : Int} {ivs : List (Int × Int)} (h : Increasing lo ivs) :
    (ivs.map Prod.snd).Pairwise (· < ·) := by
  induction ivs generalizing lo with
  | nil => exact List.Pairwise.nil
  | cons q ivs ih =>
    rw [List.map_cons, List.pairwise_cons]
    refine ⟨?_, ih h.2.2⟩
    intro x hx
    obtain ⟨p, hp, rfl⟩ := List.mem_map.1 hx
    exact h.2.2.ends p hp

/-- Longer prefixes end later. -/
theorem lastEnd_prefix {ps qs rs : List (Int × Int)} (hs : (ps.map Prod.snd).Pairwise (· < ·))
    (h0 : ∀ q ∈ ps, 0 < q.2) (hrs : rs <+: ps) (h : qs <+: rs) : lastEnd 0 qs ≤ lastEnd 0 rs := by
  have hs' : (rs.map Prod.snd).Pairwise (· < ·) := by
    obtain ⟨t, rfl⟩ := hrs
    rw [List.map_append] at hs
    exact (List.pairwise_append.1 hs).1
  refine lastEnd_le ?_ fun q hq => ends_le_lastEnd hs' q (h.subset hq)
  cases rs with
  | nil => exact le_refl _
  | cons p rs =>
    have h1 := h0 p (hrs.subset (by simp))
    have h2 := ends_le_lastEnd (lo := 0) hs' p (by simp)
    omega

theorem Chain.inc_append {a b : Int} : ∀ {ps rest : List (Int × Int)}, Chain a ps b → Increasing b rest →
    Increasing a (ps ++ rest)
  | [], rest, h, hr => by
    have : a = b := h
    subst this
    exact hr
  | q :: ps, rest, h, hr => ⟨by rw [h.1], h.2.1, h.2.2.inc_append hr⟩

theorem Refine.inc_end {ivs ps : List (Int × Int)} (h : Refine ivs ps) :
    ∀ {lo : Int}, Increasing lo ivs → Increasing lo ps ∧ lastEnd lo ps = lastEnd lo ivs := by
  induction h with
  | nil => intro lo h; exact ⟨h, rfl⟩
  | @cons a b ivs ps qs hc _ ih =>
    intro lo hlo
    obtain ⟨h1, h2⟩ := ih hlo.2.2
    refine ⟨(hc.inc_append h1).mono hlo.1, ?_⟩
    have hne : ps ≠ [] := by
      rintro rfl
      have : a = b := hc
      have := hlo.2.1
      simp only at this
      omega
    rw [lastEnd_append, hc.lastEnd_eq lo hne, h2]
    rfl

section
variable {R IR F S A P V : Type} [Field R] [DecidableEq R]
  {cfg : SimCfg R IR F S A P (DData R P V) (DOut R V)} {lp : ProcView R P}
  {srcs : String → S} {arr : A} {proc : P} {f0 : F} {ds0 : List (Diag (DData R P V))}
  {st0 fin : SimSt R F S A P (DData R P V) (DOut R V)}

theorem DiagRun.intervals {ok : String → Prop} {T : Tape R} {pf : Nat → Option P}
    (h : DiagRun cfg ds0 st0 fin ok T pf) (hplot : cfg.plotNone = false)
    {d : Diag (DData R P V)} (hmem : d ∈ ds0) {ivs : List (Int × Int)}
    (hiv : d.saveAt = IvCounter.init ivs) (hinc : Increasing 0 ivs) (hend : ∀ q ∈ ivs, q.2 ≤ cfg.tot)
    {l : List Int} (hex : d.exportAt = IxCounter.init l) (hl : l.Pairwise (· < ·))
    (hok : ∀ name ∈ d.data.reads, ok name) :
    (evOf d.name fin.log).map Event.time = l.filter (· ≤ lastEnd 0 ivs) := by
  obtain ⟨d', hd', hn, ps, xs, href, hsave, hleft, htimes, hout, hnext⟩ := h.spec d hmem hok ivs hiv hinc hend
  have hex' : d.exportAt.left = l := by rw [hex, IxCounter.left_init]
  obtain ⟨hpi, hpe⟩ := href.inc_end hinc
  rw [htimes]
  rw [hex'] at hleft
  refine served_eq hleft ?_ ?_
  · intro x hx
    rw [← htimes] at hx
    obtain ⟨ev, hev, rfl⟩ := List.mem_map.1 hx
    obtain ⟨qs, hqs, _, _, _, hle, _⟩ := hout ev hev
    rw [← hpe]
    exact hle.trans (lastEnd_prefix hpi.ends_sorted hpi.ends List.prefix_rfl hqs)
  · intro y hy
    cases hc : d'.exportAt.left with
    | nil => rw [hc] at hy; cases hy
    | cons x rest =>
      have h1 := hnext hplot x rest hc
      rw [hc] at hy
      rcases List.mem_cons.1 hy with rfl | hy
      · exact h1
      · rw [hc] at hleft
        rw [hleft] at hl
        have := (List.pairwise_cons.1 (List.pairwise_append.1 hl).2.1).1 y hy
        omega

/-- C05, any class of diagnostic with any save intervals inside the run: it has
been exported for precisely the requested indices that are at most the end of
its last save interval, each once and in the requested order. -/
theorem C05_intervals (h : CompletedRun cfg lp srcs arr proc f0 ds0 st0 fin) (hplot : cfg.plotNone = false)
    {d : Diag (DData R P V)} (hmem : d ∈ ds0) {ivs : List (Int × Int)}
    (hiv : d.saveAt = IvCounter.init ivs) (hinc : Increasing 0 ivs) (hend : ∀ q ∈ ivs, q.2 ≤ cfg.tot)
    {l : List Int} (hex : d.exportAt = IxCounter.init l) (hl : l.Pairwise (· < ·)) :
    (evOf d.name fin.log).map Event.time = l.filter (· ≤ lastEnd 0 ivs) := by
  obtain ⟨_, _, hR⟩ := h.diagRun
  exact hR.intervals hplot hmem hiv hinc hend hex hl fun _ _ => trivial

/-- C05 for a `RecordSignal` with save intervals. -/
theorem C05_recording_intervals (h : CompletedRun cfg lp srcs arr proc f0 ds0 st0 fin)
    (hplot : cfg.plotNone = false) {info : DiagInfo} {name sig : String} {l : List Int}
    {sv : Option (List (Int × Int))} {numCh : Nat} {chan : Option (List Int)} {d : Diag (DData R P V)}
    (hd : mkRecordSignal info name sig (some (.list l)) sv numCh chan = .ok d) (hmem : d ∈ ds0)
    (htot : info.tot = cfg.tot) (hinc : Increasing 0 (savedIvs cfg.tot sv))
    (hend : ∀ q ∈ savedIvs cfg.tot sv, q.2 ≤ cfg.tot) (hl : l.Pairwise (· < ·)) :
    (evOf name fin.log).map Event.time = l.filter (· ≤ lastEnd 0 (savedIvs cfg.tot sv)) := by
  obtain ⟨h1, h2, h3, h4, h5⟩ := mkRecordSignal_ok hd
  have hex : d.exportAt = IxCounter.init l := by
    unfold exportCounter IdxSel.counter at h3
    simp only [Option.getD_some, Except.ok.injEq] at h3
    exact h3.symm
  have hsv : d.saveAt = IvCounter.init (savedIvs cfg.tot sv) := by
    cases sv with
    | none => unfold signalSaveAt at h2; rw [htot] at h2; exact (Except.ok.inj h2).symm
    | some l => exact signalSaveAt_some h2
  rw [← h1]
  exact C05_intervals h hplot hmem hsv hinc hend hex hl

end

/-- "ivs" saves from 1 to 2 and from 3 to 6 and is to be exported at 3 and 6. -/
example : ∃ fin : DemoSt, (evOf "ivs" fin.log).map Event.time = [3, 6] := by
  obtain ⟨st0, fin, h, _⟩ := demo_completed
  exact ⟨fin, C05_intervals h rfl (d := okD demoIvs) (by simp [demoDs]) (ivs := [(1, 2), (3, 6)]) rfl
    (by simp [Increasing]) (by decide) (l := [3, 6]) rfl (by decide)⟩

end Verif

/-
C127: silent sources.
-/
import Verif.Lemmas.MuteRun
import Verif.Model.Sources
import Verif.Props.Observe
namespace Verif

section
variable {K R S P V G : Type} [Field K] [LinearOrder K] [Field R] [DecidableEq R]

/-- **C127** Leaving out silent sources changes nothing else.  If a simulation completes, then it completes as well
without the sources `M`, provided that those of them that are free sources deliver nothing but zeros, that the processor
writes nothing but zeros to the others, that processor and diagnostics do not use the signals of these sources, and
that another source is left.  All other signals, sources, filters and impulse responses, the processor, the diagnostics
and the exported results are the same. -/
theorem C127_run (base : SimCfg R (IrMat R) (Fir R) S (G × Coll (K × K × K) (IrMat R)) P (DData R P V) (DOut R V))
    (hfilt : base.filt = firOps R) (hdiag : base.diag = diagOps R P V) (ext : RoomExt K R G) (i : RoomInfo K) (g : G)
    (c : Coll (K × K × K) (IrMat R)) (srcs : String → S) (proc : P) (f0 : Fir R) (ds : List (Diag (DData R P V)))
    (M : List String) (hc : c.Consistent) (hM : ∀ s ∈ M, s ∈ c.srcs) (hne : ∃ s ∈ c.srcs, s ∉ M)
    (hsil : ∀ s ∈ M, s ∈ c.frees → Silent base.srcGet (srcs s))
    (hrir : ∀ b g g' ss ms, (ext.rir b g ss ms).2 = (ext.rir b g' ss ms).2)
    (hrand : ∀ s m, s ∉ M → c.types s m ≠ some "random")
    (hproc : ∀ p, base.proc = some p →
      p.Ignores (signalFrom base.contrib c.infos M) ∧ p.Mutes (signalFrom base.contrib c.infos M))
    (hds : ∀ d ∈ ds, ∀ k ∈ d.data.reads, signalFrom base.contrib c.infos M k = false)
    {fin : SimSt R (Fir R) S (G × Coll (K × K × K) (IrMat R)) P (DData R P V) (DOut R V)}
    (h : simulate base ext i g c srcs proc f0 ds = .ok fin) :
    ∃ fin', simulate base ext i g (c.withoutSrc M) srcs proc f0 ds = .ok fin' ∧
      (∀ k, signalFrom base.contrib c.infos M k = false → fin'.eng.sig k = fin.eng.sig k) ∧
      (∀ k m, signalFrom base.contrib c.infos M k = true → fin.eng.sig k = some m → Zeros m) ∧
      (∀ s m, signalFrom base.contrib c.infos M s = false → fin'.eng.filts s m = fin.eng.filts s m) ∧
      (∀ s m, s ∉ M → fin'.eng.arr.2.paths s m = fin.eng.arr.2.paths s m) ∧
      (∀ s, signalFrom base.contrib c.infos M s = false → fin'.eng.srcs s = fin.eng.srcs s) ∧
      fin'.eng.proc = fin.eng.proc ∧ fin'.idx = fin.idx ∧ fin'.n = fin.n ∧
      fin'.diags = fin.diags ∧ fin'.log = fin.log := by
  obtain ⟨fin', h1, hr⟩ := simulate_withoutSrc hfilt hc hM hne hrir hrand (I := Silent base.srcGet)
    (by
      rintro s n s' v ⟨I, h1, h2⟩ hg
      obtain ⟨h3, h4⟩ := h2 s n s' v h1 hg
      exact ⟨⟨I, h3, h2⟩, h4⟩)
    hsil hproc (by rw [hdiag]; exact diagOps_blind _) hds h
  exact ⟨fin', h1, fun k hk => (hr.eng.sig k hk).symm, hr.eng.quiet, fun s m hm => (hr.eng.filts s m hm).symm,
    fun s m hm => (hr.eng.arr.1.paths s m (by simpa using hm)).symm, fun s hs => (hr.eng.srcs s hs).symm, hr.eng.proc.symm,
    hr.idx.symm, hr.n.symm, hr.diags.symm, hr.log.symm⟩

/-- **C127** The collection without the sources `M` is the one that is made by adding only the other arrays. -/
theorem C127_setup {Pt H : Type} (f : Nat) (as : List (Arr Pt)) (t : String) (M : List String)
    (h : ∀ a ∈ as, a.name ∈ M → a.kind ≠ some .mic) :
    (((Coll.empty f : Coll Pt H).addAll as).setDefault t).withoutSrc M =
      ((Coll.empty f).addAll (as.filter fun a => !M.contains a.name)).setDefault t := by
  rw [setDefault_withoutSrc, addAll_withoutSrc as _ (fun a ha hm => h a ha (by simpa using hm)), withoutSrc_empty]

end

section
variable {R : Type} [MulZeroClass R]

theorem scale2_zeros {m : List (List R)} {a : R} (h : a = 0 ∨ Zeros m) : Zeros (scale2 m a) := by
  intro r hr x hx
  unfold scale2 at hr
  obtain ⟨r0, h0, rfl⟩ := List.mem_map.1 hr
  obtain ⟨x0, hx0, rfl⟩ := List.mem_map.1 hx
  rcases h with rfl | h
  · exact mul_zero _
  · rw [h r0 h0 x0 hx0, zero_mul]

omit [MulZeroClass R] in
theorem seqLoop_zeros [Zero R] {audio : List (List R)} (ha : Zeros audio) (tot : Nat) : ∀ (bs : List Int)
    (sig sig' : List (List R)) (i cur cur' : Int), Zeros sig → seqLoop audio tot bs sig i cur = .ok (sig', cur') → Zeros sig'
  | [], sig, sig', i, cur, cur', hs, h => by
    unfold seqLoop at h
    cases h
    exact hs
  | b :: bs, sig, sig', i, cur, cur', hs, h => by
    unfold seqLoop at h
    split at h
    · cases h
    · rename_i s2 h2
      refine seqLoop_zeros ha tot bs _ _ _ _ _ (pyAssign2_zeros hs ?_ h2) h
      intro r hr x hx
      unfold pySlice2 at hr
      obtain ⟨r0, hr0, rfl⟩ := List.mem_map.1 hr
      unfold pySlice at hx
      exact ha r0 hr0 x (List.mem_of_mem_take (List.mem_of_mem_drop hx))

/-- **C127** A `Sequence` is silent if its audio is zero, and in the mode "repeat" also if its amplitude is zero. -/
theorem C127_sequence (s : SeqSt R) (h : Zeros s.audio ∨ (s.amp = 0 ∧ s.mode = .repeat)) : Silent SeqSt.get s := by
  refine ⟨fun s => Zeros s.audio ∨ (s.amp = 0 ∧ s.mode = .repeat), h, ?_⟩
  intro s n s' v hs hg
  unfold SeqSt.get at hg
  split at hg
  · rename_i hm
    split at hg
    · cases hg
    · split at hg
      · cases hg
      · rename_i sig cur hl
        cases hg
        refine ⟨hs, scale2_zeros ?_⟩
        rcases hs with hs | hs
        · refine .inr (seqLoop_zeros hs _ _ _ _ _ _ _ ?_ hl)
          intro r hr x hx
          unfold zeros2 at hr
          rw [(List.mem_replicate.1 hr).2] at hx
          exact (List.mem_replicate.1 hx).2
        · exact .inl hs.1
  · cases hg
  · rename_i hm
    split at hg
    · cases hg
    · cases hg
      rcases hs with hs | hs
      · refine ⟨.inl hs, ?_⟩
        intro r hr x hx
        unfold pySlice2 at hr
        obtain ⟨r0, hr0, rfl⟩ := List.mem_map.1 hr
        unfold pySlice at hx
        exact hs r0 hr0 x (List.mem_of_mem_take (List.mem_of_mem_drop hx))
      · rw [hs.2] at hm; cases hm
  · cases hg

/-- **C127** A `WhiteNoiseSource` with power 0 is silent. -/
theorem C127_noise (s : WhiteSt R) (h : ∀ c, s.std c = 0) : Silent WhiteSt.get s := by
  refine ⟨fun s => ∀ c, s.std c = 0, h, ?_⟩
  intro s n s' v hs hg
  unfold WhiteSt.get at hg
  dsimp only at hg
  cases hg
  refine ⟨hs, ?_⟩
  intro r hr x hx
  unfold transposeT at hr
  obtain ⟨c, -, rfl⟩ := List.mem_map.1 hr
  obtain ⟨row, h1, h2⟩ := List.mem_filterMap.1 hx
  obtain ⟨row0, -, rfl⟩ := List.mem_map.1 h1
  obtain ⟨q, -, rfl⟩ := List.mem_map.1 (List.mem_of_getElem? h2)
  rw [hs, zero_mul]

end

/-! ### the concrete room with a silent source -/

/-- The simulation of the box in which sources can be switched off; contributions are saved. -/
def muteBase : SimCfg ℚ (IrMat ℚ) (Fir ℚ) (Option Nat) (Nat × Coll (ℚ × ℚ × ℚ) (IrMat ℚ)) Unit (DData ℚ Unit ℚ) (DOut ℚ ℚ) where
  B := 4
  C := 2
  tot := 6
  warm := true
  contrib := true
  plotNone := false
  arrays := []
  srcGet := fun s n => match s with
    | none => .ok (none, [List.replicate n 0])
    | some p => .ok (some (p + n), [(List.range n).map fun (k : Nat) => ((p + k + 1 : Nat) : ℚ)])
  filt := firOps ℚ
  arrUpdate := fun _ _ => .error .key
  arrPath := fun _ _ _ => .error .key
  proc := none
  diag := diagOps ℚ Unit ℚ

/-- A moving microphone. -/
def walkMic : Arr (ℚ × ℚ × ℚ) :=
  ⟨"walk", some .mic, 1, [(1, 1, 3)], none, 1, some fun n => [(1, 1 + (n : ℚ) / 4, 3)], true, []⟩

/-- A silent moving source, a silent loudspeaker and a moving microphone with the arrays of the box. -/
def muteArrays : List (Arr (ℚ × ℚ × ℚ)) :=
  [⟨"off", some .free, 1, [(1, 2, 3)], none, 1, some fun n => [(1, 2 + (n : ℚ) / 8, 3)], true, []⟩] ++
  boxArrays ++ [walkMic, ⟨"speaker", some .ctrl, 1, [(0, 2, 3)], none, 1, none, true, []⟩]

/-- Their collection. -/
def muteColl (t : String) : Coll (ℚ × ℚ × ℚ) (IrMat ℚ) := ((Coll.empty 2).addAll muteArrays).setDefault t

/-- The simulation with the given collection; only the source "src" is switched on. -/
def muteSim (c : Coll (ℚ × ℚ × ℚ) (IrMat ℚ)) :=
  simulate muteBase boxExt boxInfo 0 c (fun s => if s = "src" then some 0 else none) () demoFilt []

theorem muteColl_without (t : String) : (muteColl t).withoutSrc ["off", "speaker"] =
    ((Coll.empty 2).addAll (boxArrays ++ [walkMic])).setDefault t :=
  C127_setup 2 muteArrays t ["off", "speaker"] (by
    intro a ha hm
    simp only [muteArrays, boxArrays, List.mem_cons, List.mem_append, List.not_mem_nil, or_false] at ha hm
    rcases ha with (rfl | rfl | rfl) | rfl | rfl <;> first | exact absurd hm (by decide) | (intro h; cases h))

theorem muteColl_consistent (t : String) : (muteColl t).Consistent :=
  Coll.setDefault_consistent (Coll.addAll_spec _ (Coll.empty_consistent 2) (by
    intro a ha
    simp only [muteArrays, boxArrays, List.mem_cons, List.mem_append, List.not_mem_nil, or_false] at ha
    rcases ha with (rfl | rfl | rfl) | rfl | rfl <;> simp [walkMic])).1 t

/-- The simulation completes, and the moving microphone records the same without the two silent sources. -/
example : ∃ fin fin', muteSim (muteColl "ism") = .ok fin ∧
    muteSim (((Coll.empty 2).addAll (boxArrays ++ [walkMic])).setDefault "ism") = .ok fin' ∧
    fin'.eng.sig "walk" = fin.eng.sig "walk" ∧ (fin.eng.sig "walk").any (fun m => m.any fun r => r.any (· ≠ 0)) = true ∧
    fin.eng.sig "off~walk" ≠ none ∧ fin'.eng.sig "off~walk" = none := by
  have hx : (match muteSim (muteColl "ism"), muteSim (((Coll.empty 2).addAll (boxArrays ++ [walkMic])).setDefault "ism") with
      | .ok fin, .ok fin' => (fin.eng.sig "walk").any (fun m => m.any fun r => r.any (· ≠ 0)) &&
        (fin.eng.sig "off~walk").isSome && (fin'.eng.sig "off~walk").isNone
      | _, _ => false) = true := by decide +kernel
  cases h : muteSim (muteColl "ism") with
  | error x => rw [h] at hx; cases hx
  | ok fin =>
    obtain ⟨fin', h1, h2, -⟩ := C127_run muteBase rfl rfl boxExt boxInfo 0 (muteColl "ism")
      (fun s => if s = "src" then some 0 else none) () demoFilt [] ["off", "speaker"]
      (muteColl_consistent _) (by decide +kernel) ⟨"src", by decide +kernel, by decide⟩
      (by
        intro s hs _
        have hne : s ≠ "src" := by rintro rfl; exact absurd hs (by decide)
        rw [if_neg hne]
        refine ⟨fun s => s = none, rfl, ?_⟩
        rintro s n s' v rfl hg
        cases hg
        refine ⟨rfl, ?_⟩
        intro r hr x hx
        rw [List.mem_singleton.1 hr] at hx
        exact (List.mem_replicate.1 hx).2)
      (fun _ _ _ _ _ => rfl)
      (by
        intro s m hm
        obtain ⟨-, h2⟩ := setDefault_types "ism" ((Coll.empty 2).addAll muteArrays : Coll (ℚ × ℚ × ℚ) (IrMat ℚ)).combos
          ((Coll.empty 2).addAll muteArrays)
        have h3 : (muteColl "ism").types s m = _ := h2 s m
        rw [h3]
        split
        · split
          · decide
          · have e : ((Coll.empty 2).addAll muteArrays : Coll (ℚ × ℚ × ℚ) (IrMat ℚ)).types s m = none := rfl
            rw [e]
            decide
        · exact fun h => by cases h)
      (by intro p hp; cases hp) (by simp) h
    rw [muteColl_without] at h1
    have h1 : muteSim (((Coll.empty 2).addAll (boxArrays ++ [walkMic])).setDefault "ism") = .ok fin' := h1
    rw [h, h1] at hx
    simp only [Bool.and_eq_true, Option.isNone_iff_eq_none] at hx
    exact ⟨fin, fin', rfl, h1, h2 "walk" (by decide +kernel), hx.1.1, fun e => by rw [e] at hx; simp at hx, hx.2⟩

/-- C127, the exception: without any source left a simulation with a moving microphone raises. -/
theorem C127_last : (muteSim (muteColl "ism")).toBool = true ∧
    ((muteColl "ism").withoutSrc ["off", "src", "speaker"]).srcs = [] ∧
    muteSim ((muteColl "ism").withoutSrc ["off", "src", "speaker"]) matches .error .unbound :=
  ⟨by decide +kernel, by decide +kernel, by decide +kernel⟩

end Verif

/-
C09: a simulation with the `DebugProcessor`.
-/
import Verif.Lemmas.Debug
import Verif.Demo.Small
namespace Verif

section
variable {R IR F S A V : Type} [Field R] [DecidableEq R]
  {cfg : SimCfg R IR F S A (DebugSt R) (DData R (DebugSt R) V) (DOut R V)}
  {srcs : String → S} {arr : A} {f0 : F} {ds0 : List (Diag (DData R (DebugSt R) V))}
  {st0 st : SimSt R F S A (DebugSt R) (DData R (DebugSt R) V) (DOut R V)} {k tot bs nm : Nat}

/-- C09. With the `DebugProcessor` the loudspeaker signal is silent for the first
`block_size` time indices and equals the microphone signal `block_size` samples
earlier from then on. -/
theorem C09_delay
    (h : Started cfg ((debugProc tot bs).view bs) srcs arr (DebugSt.init nm nm tot) f0 ds0 st0)
    (hk : cfg.steps k st0 = .ok st) (hproc : cfg.proc = some (debugProc tot bs))
    {m l : ArrInfo} (hm : m ∈ cfg.arrays) (hmn : m.name = "mic") (hmm : m.num = nm)
    (hl : l ∈ cfg.arrays) (hlk : l.kind = .ctrl) (hln : l.name = "loudspeaker") (hlm : l.num = nm) :
    ∀ t ≤ k, ∀ c < nm, ∃ v, cfg.Produced st0 "loudspeaker" c t v ∧
      (t < bs → v = 0) ∧ (bs ≤ t → cfg.Produced st0 "mic" c (t - bs) v) := by
  obtain ⟨e0, te, he0, _, hte, _, hprod⟩ := h.tape hk
  have hI := debugInv_steps h.nm hproc hm hmn hmm hl hlk hln hlm
    (debugInv_init h.nm hl hlk hln he0) k hte
  have hb : 1 ≤ bs := by
    have := h.sizes.block; unfold SimCfg.mbs at this; rw [hproc] at this; exact this
  have hdm : cfg.dims "mic" = some nm := by rw [← hmn, h.nm.arr m hm, hmm]
  have hdl : cfg.dims "loudspeaker" = some nm := by rw [← hln, h.nm.arr l hl, hlm]
  intro t ht c hc
  have hlt : k < k / bs * bs + bs := by
    have h1 := Nat.div_add_mod k bs
    have h2 := Nat.mod_lt k (show bs > 0 by omega)
    rw [Nat.mul_comm] at h1; omega
  have hls := hI.ls c hc ((t : Int) - 1) (by omega)
  refine ⟨te.sig "loudspeaker" c ((t : Int) - 1), ?_, ?_, ?_⟩
  · rw [hprod t ht]; exact ⟨nm, hdl, hc, rfl⟩
  · intro h1
    rw [hls, if_pos (by omega)]
  · intro h1
    rw [hprod _ (by omega), hls, if_neg (by omega)]
    exact ⟨nm, hdm, hc, congrArg (te.sig "mic" c) (by omega)⟩

/-- C09, log: the processor has logged exactly the microphone and loudspeaker
samples of the complete blocks, each at its time index, as long as they fit. -/
theorem C09_log
    (h : Started cfg ((debugProc tot bs).view bs) srcs arr (DebugSt.init nm nm tot) f0 ds0 st0)
    (hk : cfg.steps k st0 = .ok st) (hproc : cfg.proc = some (debugProc tot bs))
    {m l : ArrInfo} (hm : m ∈ cfg.arrays) (hmn : m.name = "mic") (hmm : m.num = nm)
    (hl : l ∈ cfg.arrays) (hlk : l.kind = .ctrl) (hln : l.name = "loudspeaker") (hlm : l.num = nm) :
    st.eng.proc.processed = k / bs * bs ∧
    ∀ c < nm, ∃ mrow lrow, st.eng.proc.mic[c]? = some mrow ∧ st.eng.proc.ls[c]? = some lrow ∧
      mrow.length = tot ∧ lrow.length = tot ∧
      ∀ i < tot, ∃ v w, mrow[i]? = some v ∧ lrow[i]? = some w ∧
        if i < k / bs * bs then cfg.Produced st0 "mic" c i v ∧ cfg.Produced st0 "loudspeaker" c i w
        else v = 0 ∧ w = 0 := by
  obtain ⟨e0, te, he0, _, hte, hp, hprod⟩ := h.tape hk
  have hI := debugInv_steps h.nm hproc hm hmn hmm hl hlk hln hlm
    (debugInv_init h.nm hl hlk hln he0) k hte
  have hdm : cfg.dims "mic" = some nm := by rw [← hmn, h.nm.arr m hm, hmm]
  have hdl : cfg.dims "loudspeaker" = some nm := by rw [← hln, h.nm.arr l hl, hlm]
  rw [hp]
  refine ⟨hI.processed, ?_⟩
  intro c hc
  rw [hI.micLog, hI.lsLog]
  refine ⟨_, _, matOf_row _ hc, matOf_row _ hc, by simp, by simp, ?_⟩
  intro i hi
  refine ⟨_, _, by rw [List.getElem?_map, List.getElem?_range hi]; rfl,
    by rw [List.getElem?_map, List.getElem?_range hi]; rfl, ?_⟩
  have hle : k / bs * bs ≤ k := Nat.div_mul_le_self k bs
  by_cases h1 : i < k / bs * bs
  · simp only [if_pos h1]
    rw [hprod i (by omega), hprod i (by omega)]
    exact ⟨⟨nm, hdm, hc, rfl⟩, ⟨nm, hdl, hc, rfl⟩⟩
  · simp only [if_neg h1]
    exact ⟨trivial, trivial⟩

end

example : ∃ st0 : DemoSt, ∀ t ≤ 8, ∃ v, (demoCfg 4 2 6).Produced st0 "loudspeaker" 0 t v ∧
    (t < 2 → v = 0) ∧ (2 ≤ t → (demoCfg 4 2 6).Produced st0 "mic" 0 (t - 2) v) := by
  obtain ⟨st0, st, h, hk⟩ := demo_started
  exact ⟨st0, fun t ht => C09_delay h hk rfl (m := ⟨"mic", 1, .mic, false⟩)
    (l := ⟨"loudspeaker", 1, .ctrl, false⟩) (by simp [demoCfg]) rfl rfl (by simp [demoCfg]) rfl rfl rfl
    t ht 0 (by decide)⟩

example : ∃ st0 st : DemoSt, (demoCfg 4 2 6).steps 8 st0 = .ok st ∧ st.eng.proc.processed = 8 := by
  obtain ⟨st0, st, h, hk⟩ := demo_started
  exact ⟨st0, st, hk, (C09_log h hk rfl (m := ⟨"mic", 1, .mic, false⟩)
    (l := ⟨"loudspeaker", 1, .ctrl, false⟩) (by simp [demoCfg]) rfl rfl (by simp [demoCfg]) rfl rfl rfl).1⟩

end Verif

/-
C13: what the sources do later does not influence what happened before.
-/
import Verif.Lemmas.Causal
import Verif.Lemmas.Produced
import Verif.Demo.Small
namespace Verif

section
variable {R IR F S A P D O : Type} [Zero R] [Add R] {cfg : SimCfg R IR F S A P D O}
  {srcs srcs' : String → S} {arr : A} {proc : P} {f0 : F} {ds0 : List (Diag D)}
  {st0 st : SimSt R F S A P D O} {k N : Nat}

theorem causal_steps (hnm : Names cfg) {x x' : String → Nat → Nat → R} {s : String → S}
    (ht : Twin cfg x x' cfg.prepNum st0.eng s)
    (hag : ∀ m ≤ cfg.prepNum + k, ∀ a ∈ freeOf cfg.arrays, ∀ c < a.num, ∀ j < m, x a.name c j = x' a.name c j)
    (hk : cfg.steps k st0 = .ok st) :
    ∃ st', cfg.steps k (st0.withSrcs s) = .ok st' ∧
      (∀ t ≤ k, ∀ name c v, cfg.Produced (st0.withSrcs s) name c t v ↔ cfg.Produced st0 name c t v) ∧
      st'.eng.sig = st.eng.sig ∧ st'.eng.proc = st.eng.proc ∧ st'.diags = st.diags ∧ st'.log = st.log := by
  obtain ⟨s', g1, _⟩ := steps_causal hnm ht k (hag _ (le_refl _)) hk
  refine ⟨_, g1, ?_, rfl, rfl, rfl, rfl⟩
  intro t ht' name c v
  cases t with
  | zero => exact Iff.rfl
  | succ n =>
    obtain ⟨st1, h1⟩ := steps_prefix cfg (n := n + 1) (k - (n + 1)) (st := st) (by rw [Nat.add_sub_cancel' ht']; exact hk)
    simp only [SimCfg.steps] at h1
    cases h2 : cfg.steps n st0 with
    | error y => rw [h2] at h1; cases h1
    | ok stn =>
      rw [h2] at h1
      obtain ⟨sn, r1, r2⟩ := steps_causal hnm ht n (hag _ (by omega)) h2
      dsimp only at h1
      unfold SimCfg.step at h1
      cases h3 : cfg.engine stn.n stn.idx stn.eng with
      | error y => rw [h3] at h1; cases h1
      | ok e =>
        obtain ⟨sm, q1, _⟩ := engine_causal hnm (hag _ (by omega)) r2 h3
        constructor
        · rintro ⟨sta, ea, b1, b2, b3, b4⟩
          rw [r1] at b1
          cases b1
          have : cfg.engine stn.n stn.idx (stn.eng.withSrcs sn) = .ok ea := b2
          rw [q1] at this
          cases this
          exact ⟨stn, e, h2, h3, b3, b4⟩
        · rintro ⟨sta, ea, b1, b2, b3, b4⟩
          rw [h2] at b1
          cases b1
          rw [h3] at b2
          cases b2
          exact ⟨_, _, r1, q1, b3, b4⟩

/-- C13. Two simulations that differ in their source objects only.  If the
sources deliver the same first `N` samples, then the second simulation gets
through the same number of iterations, produces the same samples of every
signal, leaves the processor and the diagnostics in the same state and makes the
same exports, as long as no more than `N` samples have been requested: one
(or `sim_buffer` with `start_sources_before_0`) for the preparation and one per
iteration.  The processor, its block size, the paths and the diagnostics are
arbitrary. -/
theorem C13_causality {x x' : String → Nat → Nat → R}
    (hx : ∀ a ∈ cfg.arrays, a.kind = .free → IsStream cfg.srcGet (srcs a.name) a.num (x a.name))
    (hx' : ∀ a ∈ cfg.arrays, a.kind = .free → IsStream cfg.srcGet (srcs' a.name) a.num (x' a.name))
    (hagree : ∀ a ∈ cfg.arrays, a.kind = .free → ∀ c < a.num, ∀ j < N, x a.name c j = x' a.name c j)
    (h : cfg.init srcs arr proc f0 ds0 = .ok st0) (hk : cfg.steps k st0 = .ok st)
    (hN : (if cfg.warm then cfg.B else 1) + k ≤ N) :
    ∃ st0' st', cfg.init srcs' arr proc f0 ds0 = .ok st0' ∧ cfg.steps k st0' = .ok st' ∧
      (∀ t ≤ k, ∀ name c v, cfg.Produced st0' name c t v ↔ cfg.Produced st0 name c t v) ∧
      st'.eng.sig = st.eng.sig ∧ st'.eng.proc = st.eng.proc ∧ st'.diags = st.diags ∧ st'.log = st.log := by
  have hnm : Names cfg := names_of cfg (init_nodup cfg h)
  have hmem : ∀ a ∈ freeOf cfg.arrays, a ∈ cfg.arrays ∧ a.kind = .free := by
    intro a ha
    unfold freeOf at ha
    rw [List.mem_filter] at ha
    exact ⟨ha.1, by simpa using ha.2⟩
  have hag : ∀ m ≤ N, ∀ a ∈ freeOf cfg.arrays, ∀ c < a.num, ∀ j < m, x a.name c j = x' a.name c j :=
    fun m hm a ha c hc j hj => hagree a (hmem a ha).1 (hmem a ha).2 c hc j (by omega)
  have hN' : cfg.prepNum + k ≤ N := hN
  obtain ⟨s, i1, i2⟩ := init_causal (hag _ (by omega)) (fun a ha => hx a (hmem a ha).1 (hmem a ha).2)
    (fun a ha => hx' a (hmem a ha).1 (hmem a ha).2) hnm h
  obtain ⟨st', g⟩ := causal_steps hnm i2 (fun m hm => hag m (by omega)) hk
  exact ⟨_, st', i1, g⟩

end

/-! ### A case that meets the hypotheses -/

/-- Like `demoCfg`, with sources that count or that count up to 5 and are silent
afterwards, depending on the parity of their state. -/
def twoCfg : SimCfg ℚ (IrMat ℚ) (Fir ℚ) Nat Unit (DebugSt ℚ) DemoD DemoO :=
  { demoCfg 4 2 6 with
    srcGet := fun p n => .ok (p + 2 * n, [(List.range n).map fun k =>
      if p % 2 = 1 ∧ 5 ≤ p / 2 + k then 0 else ((p / 2 + k + 1 : Nat) : ℚ)]) }

theorem two_stream (r : Nat) (hr : r < 2) : IsStream twoCfg.srcGet r 1 fun _ j =>
    if r = 1 ∧ 5 ≤ j then 0 else ((j + 1 : Nat) : ℚ) := by
  refine isStream_of_inv (fun off s => s = r + 2 * off) (by omega) ?_
  rintro off s n rfl
  refine ⟨r + 2 * (off + n), ?_, rfl⟩
  have e1 : (r + 2 * off) / 2 = off := by omega
  have e2 : (r + 2 * off) % 2 = r := by omega
  simp only [twoCfg, blockOf, e1, e2, List.range_one, List.map_cons, List.map_nil]
  rw [show r + 2 * off + 2 * n = r + 2 * (off + n) by ring]

/-- A closed loop with a processor of block size 2: after four iterations nothing
differs, although the sources differ from sample 5 on. -/
example : ∃ (st0 st st0' st' : DemoSt),
    twoCfg.init (fun _ => 0) () demoProc demoFilt demoDs = .ok st0 ∧ twoCfg.steps 4 st0 = .ok st ∧
    twoCfg.init (fun _ => 1) () demoProc demoFilt demoDs = .ok st0' ∧ twoCfg.steps 4 st0' = .ok st' ∧
    st'.eng.sig = st.eng.sig ∧ st'.log = st.log := by
  obtain ⟨st0, h0⟩ : ∃ st0, twoCfg.init (fun _ => 0) () demoProc demoFilt demoDs = .ok st0 := ⟨_, rfl⟩
  obtain ⟨st, hk⟩ : ∃ st, twoCfg.steps 4 st0 = .ok st := by
    cases h0
    exact ⟨_, rfl⟩
  obtain ⟨st0', st', h1, h2, _, h3, _, _, h4⟩ := C13_causality (k := 4) (N := 5)
    (x := fun _ _ j => if 0 = 1 ∧ 5 ≤ j then 0 else ((j + 1 : Nat) : ℚ))
    (x' := fun _ _ j => if 1 = 1 ∧ 5 ≤ j then 0 else ((j + 1 : Nat) : ℚ)) (srcs' := fun _ => 1)
    (by intro a ha hf
        change a ∈ (demoCfg 4 2 6).arrays at ha
        simp only [demoCfg, List.mem_cons, List.not_mem_nil, or_false] at ha
        rcases ha with rfl | rfl | rfl
        · cases hf
        · exact two_stream 0 (by decide)
        · cases hf)
    (by intro a ha hf
        change a ∈ (demoCfg 4 2 6).arrays at ha
        simp only [demoCfg, List.mem_cons, List.not_mem_nil, or_false] at ha
        rcases ha with rfl | rfl | rfl
        · cases hf
        · exact two_stream 1 (by decide)
        · cases hf)
    (by intro a _ _ c _ j hj
        rw [if_neg (by omega), if_neg (by omega)]) h0 hk (by decide)
  exact ⟨st0, st, st0', st', h0, hk, h1, h2, h3, h4⟩

end Verif

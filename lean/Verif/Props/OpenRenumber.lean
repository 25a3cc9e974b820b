/-
C155 without processors, and for the impulse responses the image-source paths are filled with.
-/
import Verif.Props.OpenLoop
import Verif.Props.Array
import Verif.Lemmas.AdaptiveRenumber
namespace Verif

section
variable {R S A P V : Type} [Field R] [DecidableEq R] {cfg : SimCfg R (IrMat R) (Fir R) S A P (DData R P V) (DOut R V)}
  {lp lp' : ProcView R P} {srcs srcs' : String → S} {arr : A} {proc proc' : P} {f0 : Fir R}
  {ds ds' : List (Diag (DData R P V))} {st0 st st0' st' : SimSt R (Fir R) S A P (DData R P V) (DOut R V)} {k : Nat}
  {π : String → Nat → Nat}

/-- C155 without processors: with the channels of every array numbered in another order, every
channel of every microphone signal and of every contribution is that of the first simulation with
its old number. -/
theorem C155_open (hπ : ∀ b ∈ cfg.arrays, Renumbers (π b.name) b.num)
    (h : Started cfg lp srcs arr proc f0 ds st0) (h' : Started (cfg.renumbered π) lp' srcs' arr proc' f0 ds' st0')
    (hk : cfg.steps k st0 = .ok st) (hk' : (cfg.renumbered π).steps k st0' = .ok st')
    (hproc : cfg.proc = none) (hfilt : cfg.filt = firOps R) (hpos : ∀ a ∈ cfg.arrays, 0 < a.num)
    (hsh : cfg.PathShape arr) {x : String → Nat → Nat → R}
    (hx : ∀ a ∈ cfg.arrays, a.kind = .free → IsStream cfg.srcGet (srcs a.name) a.num (x a.name))
    (hx' : ∀ a ∈ cfg.arrays, a.kind = .free → IsStream cfg.srcGet (srcs' a.name) a.num fun c j => x a.name (π a.name c) j)
    {m : ArrInfo} (hm : m ∈ cfg.arrays) (hmic : m.kind = .mic) : ∀ t ≤ k, ∀ c < m.num,
      (∃ v, cfg.Produced st0 m.name (π m.name c) t v ∧ (cfg.renumbered π).Produced st0' m.name c t v) ∧
      (cfg.contrib = true → ∀ s ∈ cfg.arrays, s.kind ≠ .mic → ∃ v,
        cfg.Produced st0 (s.name ++ "~" ++ m.name) (π m.name c) t v ∧
        (cfg.renumbered π).Produced st0' (s.name ++ "~" ++ m.name) c t v) := by
  intro t ht c hc
  obtain ⟨ir, g1, g2⟩ := C18_open_loop h hk hproc hfilt hpos hsh hx hm hmic t ht
  obtain ⟨ir', g1', g2'⟩ := C18_open_loop h' hk' hproc hfilt hpos (renumbered_shape hsh)
    (x := fun s c j => x s (π s c) j) hx' hm hmic t ht
  obtain ⟨p1, p2⟩ := g2 (π m.name c) ((hπ m hm).1 c hc)
  obtain ⟨p1', p2'⟩ := g2' c hc
  have hir : ∀ s ∈ cfg.arrays, s.kind ≠ .mic → ∀ i, (ir' s.name).ir i c = (ir s.name).ir (π s.name i) (π m.name c) := by
    intro s hs hsk i
    obtain ⟨h0, a1, a2⟩ := renumbered_irAt (g1' s hs hsk)
    rw [a2, IrAt.unique a1 (g1 s hs hsk)]
    rfl
  refine ⟨⟨_, p1, ?_⟩, fun hcon s hs hsk => ⟨_, p2 hcon s hs hsk, ?_⟩⟩
  · rw [← convSum_renumber (π := π) (ir' := ir') (c := c) (v := (cfg.renumbered π).played fun s c j => x s (π s c) j)
      (fun s hs => hπ s (List.mem_filter.1 hs).1)
      (fun s hs i _ => hir s (List.mem_filter.1 hs).1 (by simpa using (List.mem_filter.1 hs).2) i)
      (fun _ _ _ _ _ _ => rfl)]
    exact p1'
  · rw [← convSum_renumber (π := π) (ir' := ir') (c := c) (v := (cfg.renumbered π).played fun s c j => x s (π s c) j)
      (fun s' hs' => ?_) (fun s' hs' i _ => ?_) (fun _ _ _ _ _ _ => rfl)]
    · exact p2' hcon s hs hsk
    · rw [List.mem_singleton.1 hs']; exact hπ s hs
    · rw [List.mem_singleton.1 hs']; exact hir s hs hsk i

end

section
variable {R Pt G : Type} [Zero R]

/-- Listing the positions of two arrays in another order renumbers the impulse responses simulated
between them, whatever the batches they are simulated in. -/
theorem C155_paths {c : RirCfg R Pt G} (hc : c.Lawful) {resp : Pt → Pt → List R}
    (hr : ∀ g ss ms, (c.roomRir g ss ms).2 = ms.map fun m => ss.map fun s => resp s m)
    (hd : c.minDly = 0) {src mic src' mic' : Geo Pt} (ho : mic.omni = true) (ho' : mic'.omni = true) (g g' : G)
    {πs πm : Nat → Nat} (hs : src'.pos.length = src.pos.length) (hm : mic'.pos.length = mic.pos.length)
    (hps : ∀ i < src.pos.length, src'.pos[i]? = src.pos[πs i]?) (hpm : ∀ j < mic.pos.length, mic'.pos[j]? = mic.pos[πm j]?) :
    ∃ r r' h h', ismPath c g src mic = .ok (r, h) ∧ ismPath c g' src' mic' = .ok (r', h') ∧
      h'.numIn = h.numIn ∧ h'.numOut = h.numOut ∧
      ∀ i < src.pos.length, ∀ j < mic.pos.length, h'.ir i j = (h.renumber πs πm).ir i j := by
  obtain ⟨r, h, a1, a2, a3, a4⟩ := C45_pointwise hc hr hd (src := src) ho g
  obtain ⟨r', h', b1, b2, b3, b4⟩ := C45_pointwise hc hr hd (src := src') ho' g'
  refine ⟨r, r', h, h', a1, b1, by rw [a2, b2, hs], by rw [a3, b3, hm], fun i hi j hj => ?_⟩
  have e1 : src'.pos[i]? = some (src'.pos[i]'(by omega)) := List.getElem?_eq_getElem _
  have e2 : mic'.pos[j]? = some (mic'.pos[j]'(by omega)) := List.getElem?_eq_getElem _
  obtain ⟨f1, f2⟩ := a4 (πs i) (πm j) _ _ ((hps i hi).symm.trans e1) ((hpm j hj).symm.trans e2)
  obtain ⟨k1, k2⟩ := b4 i j _ _ e1 e2
  refine List.ext_getElem? fun n => ?_
  by_cases hn : n < c.irLen
  · rw [k2 n hn]
    exact (f2 n hn).symm
  · rw [List.getElem?_eq_none (by omega)]
    exact (List.getElem?_eq_none (by show (h.ir (πs i) (πm j)).length ≤ n; omega)).symm

end

/-! ### Cases that meet the hypotheses -/

/-- A moving source and two microphones, without processor. -/
def twinCfg : SimCfg ℚ (IrMat ℚ) (Fir ℚ) Nat Nat Unit (DData ℚ Unit ℚ) (DOut ℚ ℚ) :=
  { openCfg with
    arrays := [⟨"mic", 2, .mic, false⟩, ⟨"src", 1, .free, true⟩]
    arrPath := fun a _ m => .ok ⟨1, if m = "mic" then 2 else 1, fun _ c => [(a : ℚ), (c : ℚ) + 1]⟩ }

/-- The microphones exchanged. -/
def swapMics (s : String) (i : Nat) : Nat := if s = "mic" then 1 - i else i

theorem twin_free {a : ArrInfo} (ha : a ∈ twinCfg.arrays) (hf : a.kind = .free) : a = ⟨"src", 1, .free, true⟩ := by
  simp only [twinCfg, List.mem_cons, List.not_mem_nil, or_false] at ha
  rcases ha with rfl | rfl
  · cases hf
  · rfl

/-- Both runs, and what the two microphones of the first one record at time index 3. -/
example : ∃ st0 st0' : SimSt ℚ (Fir ℚ) Nat Nat Unit (DData ℚ Unit ℚ) (DOut ℚ ℚ),
    (∃ v, twinCfg.Produced st0 "mic" 1 3 v ∧ (twinCfg.renumbered swapMics).Produced st0' "mic" 0 3 v) ∧
    ∃ v, twinCfg.Produced st0 "src~mic" 0 3 v ∧ (twinCfg.renumbered swapMics).Produced st0' "src~mic" 1 3 v := by
  have h1 : ∃ st0 st, Started twinCfg ⟨0, fun p _ => .ok (p, fun _ _ _ => 0)⟩ (fun _ => 0) 0 () demoFilt [] st0 ∧
      twinCfg.steps 3 st0 = .ok st := by
    refine ⟨_, _, ⟨⟨by decide, by decide, by decide, ?_, ?_⟩, rfl, by decide, rfl⟩, rfl⟩
    · rintro p ⟨⟩
    · rintro p ⟨⟩
  have h2 : ∃ st0 st, Started (twinCfg.renumbered swapMics) ⟨0, fun p _ => .ok (p, fun _ _ _ => 0)⟩ (fun _ => 0) 0 ()
      demoFilt [] st0 ∧ (twinCfg.renumbered swapMics).steps 3 st0 = .ok st := by
    refine ⟨_, _, ⟨⟨by decide, by decide, by decide, ?_, ?_⟩, rfl, by decide, rfl⟩, rfl⟩
    · rintro p ⟨⟩
    · rintro p ⟨⟩
  obtain ⟨s1, e1, h1, k1⟩ := h1
  obtain ⟨s2, e2, h2, k2⟩ := h2
  have hx : ∀ a ∈ twinCfg.arrays, a.kind = .free → IsStream twinCfg.srcGet 0 a.num fun _ t => ((0 + t + 1 : Nat) : ℚ) := by
    intro a ha hf; rw [twin_free ha hf]; exact open_stream 0
  have := C155_open (π := swapMics) (x := fun _ _ t => ((0 + t + 1 : Nat) : ℚ))
    (by intro b hb
        simp only [twinCfg, List.mem_cons, List.not_mem_nil, or_false] at hb
        rcases hb with rfl | rfl <;> exact ⟨by decide, by decide⟩) h1 h2 k1 k2 rfl rfl
    (by intro a ha
        simp only [twinCfg, List.mem_cons, List.not_mem_nil, or_false] at ha
        rcases ha with rfl | rfl <;> decide)
    (by intro n a _ s m h hs hm hp
        cases hp
        simp only [twinCfg, List.mem_cons, List.not_mem_nil, or_false] at hs hm
        rcases hm with rfl | rfl <;> rcases hs with rfl | rfl <;> first | exact ⟨rfl, rfl⟩ | rfl | skip) hx hx
    (m := ⟨"mic", 2, .mic, false⟩) (by simp [twinCfg]) rfl 3 (le_refl 3)
  exact ⟨s1, s2, (this 0 (by decide)).1, (this 1 (by decide)).2 rfl ⟨"src", 1, .free, true⟩ (by simp [twinCfg]) (by decide)⟩

/-- Two microphones listed in the other order. -/
example : ∃ r r' h h', ismPath lineRoom 0 ⟨1, [0], true⟩ ⟨2, [3, 5], true⟩ = .ok (r, h) ∧
    ismPath lineRoom 7 ⟨1, [0], true⟩ ⟨2, [5, 3], true⟩ = .ok (r', h') ∧ h'.ir 0 0 = h.ir 0 1 ∧ h'.ir 0 1 = h.ir 0 0 := by
  obtain ⟨r, r', h, h', a, b, -, -, e⟩ := C155_paths lineRoom_lawful (resp := fun s m => [m - s, 1]) (fun g ss ms => rfl) rfl
    (src := ⟨1, [0], true⟩) (src' := ⟨1, [0], true⟩) (mic := ⟨2, [3, 5], true⟩) (mic' := ⟨2, [5, 3], true⟩) rfl rfl 0 7
    (πs := id) (πm := fun j => 1 - j) rfl rfl (by decide) (by decide)
  exact ⟨r, r', h, h', a, b, e 0 (by decide) 0 (by decide), e 0 (by decide) 1 (by decide)⟩

end Verif

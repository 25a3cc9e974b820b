/-
C122: what a microphone records depends on its place, not on the array it belongs to.
-/
import Verif.Props.Array
import Verif.Lemmas.Resize
namespace Verif

section
variable {R Pt G : Type} [Field R]

/-- Two fitted responses of the same simulated response are equal. -/
theorem Fitted.unique {d n : Nat} {r x y : List R} (hx : Fitted d n r x) (hy : Fitted d n r y) : x = y := by
  refine List.ext_getElem? fun i => ?_
  by_cases hi : i < n
  · rw [hx.2 i hi, hy.2 i hi]
  · rw [List.getElem?_eq_none (by rw [hx.1]; omega), List.getElem?_eq_none (by rw [hy.1]; omega)]

/-- The image-source path needs omnidirectional microphones. -/
theorem ismPath_omni {c : RirCfg R Pt G} {g : G} {src mic : Geo Pt} {x : G × IrMat R} (h : ismPath c g src mic = .ok x)
    (hm : mic.pos ≠ []) : mic.omni = true := by
  by_contra ho
  have ho : mic.omni = false := by simpa using ho
  obtain ⟨p, l, hp⟩ := List.exists_cons_of_ne_nil hm
  unfold ismPath at h
  rw [hp, List.length_cons] at h
  unfold ismLoop at h
  rw [hp] at h
  rw [if_neg (by simp)] at h
  simp only [ho, if_true] at h
  cases h

/-- Two calls of `create_path` with the same type, and the same place for the microphones `c1` and `c2`,
give these microphones the same responses. -/
theorem createPath_place {rc : RirCfg R Pt G} (hl : rc.Lawful) {resp : Pt → Pt → List R}
    (hr : ∀ g ss ms, (rc.roomRir g ss ms).2 = ms.map fun m => ss.map fun s => resp s m) (hd : rc.minDly = 0)
    {g1 g2 g1' g2' : G} {src mic1 mic2 : Geo Pt} {ty : String} (hty : ty = "ism" ∨ ty = "none") {x1 x2 : IrMat R}
    (h1 : createPath rc g1 src mic1 ty = .ok (g1', x1)) (h2 : createPath rc g2 src mic2 ty = .ok (g2', x2))
    {c1 c2 : Nat} {p : Pt} (hp1 : mic1.pos[c1]? = some p) (hp2 : mic2.pos[c2]? = some p) {i : Nat} (hi : i < src.pos.length) :
    x1.ir i c1 = x2.ir i c2 := by
  have key : ∀ {a b : G × IrMat R} {y1 y2 : G × IrMat R}, a.2.ir i c1 = b.2.ir i c2 →
      (if rc.highpass then (a.1, { a.2 with ir := fun i j => filterRow rc.pad rc.sos (a.2.ir i j) }) else a) = y1 →
      (if rc.highpass then (b.1, { b.2 with ir := fun i j => filterRow rc.pad rc.sos (b.2.ir i j) }) else b) = y2 →
      y1.2.ir i c1 = y2.2.ir i c2 := by
    intro a b y1 y2 hab e1 e2
    subst e1 e2
    split
    · dsimp only; rw [hab]
    · exact hab
  unfold createPath at h1 h2
  rcases hty with rfl | rfl
  · simp only [String.reduceEq, if_false, if_true] at h1 h2
    split at h1
    · rename_i hdim
      rw [if_pos hdim] at h2
      split at h1
      · cases h1
      · rename_i a ha
        split at h2
        · cases h2
        · rename_i b hb
          obtain ⟨g', ha1, k1, -, -, k2⟩ := C45_pointwise hl hr hd (src := src)
            (ismPath_omni ha (by rintro h; rw [h] at hp1; cases hp1)) g1
          obtain ⟨g'', hb1, k3, -, -, k4⟩ := C45_pointwise hl hr hd (src := src)
            (ismPath_omni hb (by rintro h; rw [h] at hp2; cases hp2)) g2
          rw [k1] at ha
          rw [k3] at hb
          cases ha
          cases hb
          have hs : src.pos[i]? = some src.pos[i] := List.getElem?_eq_getElem hi
          exact key ((k2 i c1 _ _ hs hp1).unique (k4 i c2 _ _ hs hp2)) (Except.ok.inj h1) (Except.ok.inj h2)
    · cases h1
  · simp only [if_true] at h1 h2
    exact key rfl (Except.ok.inj h1) (Except.ok.inj h2)

end

section
variable {R S P V Pt G : Type} [Field R] [DecidableEq R]
  {cfg : SimCfg R (IrMat R) (Fir R) S (G × Coll Pt (IrMat R)) P (DData R P V) (DOut R V)} {lp : ProcView R P}
  {srcs : String → S} {proc : P} {f0 : Fir R} {ds0 : List (Diag (DData R P V))}
  {st0 st : SimSt R (Fir R) S (G × Coll Pt (IrMat R)) P (DData R P V) (DOut R V)} {k : Nat}

theorem SimCfg.Emitted.unique {name : String} {c : Nat} {t : Int} {v w : R} (h : cfg.Emitted st0 name c t v)
    (h' : cfg.Emitted st0 name c t w) : v = w := by
  unfold SimCfg.Emitted at h h'
  split at h
  · rename_i h0
    rw [if_pos h0] at h'
    exact h.unique h'
  · rename_i h0
    rw [if_neg h0] at h'
    split at h
    · rename_i h1
      rw [if_pos h1] at h'
      exact Sigs.At.unique h h'
    · rename_i h1
      rw [if_neg h1] at h'
      rw [h, h']

/-- The responses in force come from the geometry of the last update. -/
theorem ir_created {rc : RirCfg R Pt G} {c c0 : Coll Pt (IrMat R)} {g g0 : G}
    (hset : c.setupIr (createPath rc) g = .ok (g0, c0)) (hc : c.Consistent) (hpos : ∀ a ∈ c.arrays, 0 < a.num)
    (hi : ∀ a ∈ c.arrays, a.Initial) {m : Arr Pt} (hm : m ∈ c.arrays) (hmic : m.kind = some .mic) {s : Arr Pt}
    (hs : s ∈ c.arrays) (hsk : s.kind ≠ some .mic) {ty : String} (hor : ty = "ism" ∨ ty = "none")
    (htype : c.types s.name m.name = some ty) {t : Nat} {x : IrMat R}
    (hx : if (s.dynamic = true ∨ m.dynamic = true) ∧ 1 ≤ t then
        GeneratedAt (createPath rc) c0 s.name m.name (c0.freq * ((t - 1) / c0.freq)) x
      else c0.paths s.name m.name = some x) :
    ∃ g g', createPath rc g (s.geoAt (c.freq * ((t - 1) / c.freq))) (m.geoAt (c.freq * ((t - 1) / c.freq))) ty = .ok (g', x) := by
  obtain ⟨e0, e1, e2⟩ := setupIr_spec hc.names hi hset
  have ha0 : c0.arrays = c.arrays := by rw [e0]; rfl
  have hf0 : c0.freq = c.freq := by rw [e0]; rfl
  have hty0 : c0.types = c.types := by rw [e0]; rfl
  split at hx
  · obtain ⟨a, ha, b, hb, n1, n2, ty', g, g', q1, q2⟩ := hx
    rw [ha0] at ha hb
    obtain rfl := hc.inj ha hs n1
    obtain rfl := hc.inj hb hm n2
    rw [hty0, htype] at q1
    cases q1
    rw [hf0] at q2
    exact ⟨g, g', q2⟩
  · rename_i hstat
    have hss : s.name ∈ c.srcs := hc.mem_srcs.2 ⟨s, hs, by
      rcases hka : s.kind with _ | kk
      · exact absurd hka (hc.kinds s hs)
      · cases kk
        · exact absurd hka hsk
        · exact .inl rfl
        · exact .inr rfl, rfl⟩
    have hmm : m.name ∈ c.mics := hc.mem_mics.2 ⟨m, hm, hmic, rfl⟩
    have huse : c.useType s.name m.name = some ty := by
      rw [useType_eq hc.names hs hm, if_neg, htype]
      rintro (h0 | h0)
      · have := hpos s hs; omega
      · have := hpos m hm; omega
    obtain ⟨a, ha, b, hb, n1, n2, ty', g1, g2, y, q1, q2, q3⟩ := e2.new (s := s.name) (m := m.name)
      (List.mem_filter.2 ⟨Coll.mem_combos.2 ⟨hss, hmm⟩, by rw [huse]; rcases hor with rfl | rfl <;> simp⟩)
    obtain rfl := hc.inj ha hs n1
    obtain rfl := hc.inj hb hm n2
    rw [huse] at q1
    cases q1
    rw [q3] at hx
    cases hx
    refine ⟨g1, g2, ?_⟩
    by_cases ht : 1 ≤ t
    · have hns : ¬ (a.dynamic = true ∨ b.dynamic = true) := fun hh => hstat ⟨hh, ht⟩
      have hst : ∀ z : Arr Pt, ¬ z.dynamic = true → ∀ u, z.geoAt u = z.geoAt 0 := by
        intro z hz u
        unfold Arr.geoAt
        unfold Arr.dynamic at hz
        cases hzt : z.traj with
        | none => rfl
        | some f => rw [hzt] at hz; exact absurd rfl hz
      rw [hst a (fun hh => hns (.inl hh)), hst b (fun hh => hns (.inr hh))]
      exact q2
    · have : t = 0 := by omega
      subst this
      have : c.freq * ((0 - 1) / c.freq) = 0 := by simp
      rw [this]
      exact q2

/-- **C122** A simulation in a room, with an image-source method whose responses depend on the positions of source
and microphone: two microphones that are at the same place at every update record the same signal,
whether they belong to the same array or not, whatever other microphones there are, and whether
their arrays stand still or move.  The paths from each source to the two arrays are both of
type "ism" or both of type "none". -/
theorem C122_same_place {rc : RirCfg R Pt G} (hl : rc.Lawful) {resp : Pt → Pt → List R}
    (hr : ∀ g ss ms, (rc.roomRir g ss ms).2 = ms.map fun m => ss.map fun s => resp s m) (hd : rc.minDly = 0)
    {c c0 : Coll Pt (IrMat R)} {g g0 : G} (hset : c.setupIr (createPath rc) g = .ok (g0, c0))
    (h : Started cfg lp srcs (g0, c0) proc f0 ds0 st0) (hk : cfg.steps k st0 = .ok st)
    (hfilt : cfg.filt = firOps R) (hc : c.Consistent) (harr : cfg.arrays = c.infos)
    (hupd : cfg.arrUpdate = Coll.update (createPath rc)) (hpath : cfg.arrPath = Coll.path)
    (hpos : ∀ a ∈ c.arrays, 0 < a.num) (hi : ∀ a ∈ c.arrays, a.Initial) (hsz : ∀ a ∈ c.arrays, a.Sized)
    (hfit : c0.PathsFit)
    {m1 m2 : Arr Pt} (hm1 : m1 ∈ c.arrays) (hmic1 : m1.kind = some .mic) (hm2 : m2 ∈ c.arrays) (hmic2 : m2.kind = some .mic)
    (hkeep1 : ∀ p, cfg.proc = some p → p.Keeps m1.name) (hkeep2 : ∀ p, cfg.proc = some p → p.Keeps m2.name)
    (hty : ∀ s ∈ c.arrays, s.kind ≠ some .mic → ∃ ty, (ty = "ism" ∨ ty = "none") ∧ c.types s.name m1.name = some ty ∧
      c.types s.name m2.name = some ty)
    {c1 c2 : Nat} (hc1 : c1 < m1.num) (hc2 : c2 < m2.num)
    (hplace : ∀ u, c.freq ∣ u → (m1.geoAt u).pos[c1]? = (m2.geoAt u).pos[c2]?) :
    ∀ t ≤ k, ∀ v, cfg.Produced st0 m1.name c1 t v ↔ cfg.Produced st0 m2.name c2 t v := by
  obtain ⟨e0, e1, e2⟩ := setupIr_spec hc.names hi hset
  have hc0 : c0.Consistent := by rw [e0]; exact hc.with _ _
  have ha0 : c0.arrays = c.arrays := by rw [e0]; rfl
  have hf0 : c0.freq = c.freq := by rw [e0]; rfl
  have hty0 : c0.types = c.types := by rw [e0]; rfl
  have hin0 : c0.infos = c.infos := by unfold Coll.infos; rw [ha0]
  have hgen : ∀ g a b t g' x, createPath rc g a b t = .ok (g', x) → a.pos.length = a.num → b.pos.length = b.num →
      x.numIn = a.num ∧ x.numOut = b.num := fun g a b t g' x he h1 h2 =>
    let hs := createPath_shaped (fun _ => hl) h1 h2 he
    ⟨hs.1, hs.2.1⟩
  -- the responses in force come from the geometry of the last update
  have key : ∀ {m : Arr Pt}, m ∈ c.arrays → m.kind = some .mic → ∀ s ∈ c.arrays, s.kind ≠ some .mic → ∀ ty, ty = "ism" ∨ ty = "none" →
      c.types s.name m.name = some ty → ∀ (t : Nat) (x : IrMat R),
      (if (s.dynamic = true ∨ m.dynamic = true) ∧ 1 ≤ t then
        GeneratedAt (createPath rc) c0 s.name m.name (c0.freq * ((t - 1) / c0.freq)) x
      else c0.paths s.name m.name = some x) →
      ∃ g g', createPath rc g (s.geoAt (c.freq * ((t - 1) / c.freq))) (m.geoAt (c.freq * ((t - 1) / c.freq))) ty = .ok (g', x) :=
    fun hm hmic s hs hsk ty hor htype t x hx => ir_created hset hc hpos hi hm hmic hs hsk hor htype hx
  obtain ⟨u1, a1, a2⟩ := C14_moving_arrays h hk hfilt hc0 (harr.trans hin0.symm) hupd hpath (by rw [ha0]; exact hpos)
    (by rw [ha0]; exact hsz) hfit hgen (m := m1) (by rw [ha0]; exact hm1) hmic1 hkeep1
  obtain ⟨u2, b1, b2⟩ := C14_moving_arrays h hk hfilt hc0 (harr.trans hin0.symm) hupd hpath (by rw [ha0]; exact hpos)
    (by rw [ha0]; exact hsz) hfit hgen (m := m2) (by rw [ha0]; exact hm2) hmic2 hkeep2
  intro t ht v
  obtain ⟨ir1, p1, q1⟩ := a2 t ht
  obtain ⟨ir2, p2, q2⟩ := b2 t ht
  rw [ha0] at a1 b1 p1 p2
  have heq : convSum (cfg.arrays.filter fun s => s.kind != .mic) ir1 u1 c1 t =
      convSum (cfg.arrays.filter fun s => s.kind != .mic) ir2 u2 c2 t := by
    unfold convSum
    congr 1
    refine List.map_congr_left fun s hs => ?_
    rw [List.mem_filter, harr] at hs
    obtain ⟨hs1, hs2⟩ := hs
    unfold Coll.infos at hs1
    obtain ⟨a, ha, he⟩ := List.mem_filterMap.1 hs1
    have hka : a.kind = some s.kind ∧ a.name = s.name ∧ a.num = s.num := by
      rcases hka : a.kind with _ | kk
      · rw [hka] at he; cases he
      · rw [hka] at he; cases he; exact ⟨rfl, rfl, rfl⟩
    have hsk : a.kind ≠ some .mic := by
      rw [hka.1]
      intro hh
      rw [Option.some.inj hh] at hs2
      simp at hs2
    obtain ⟨ty, hor, y1, y2⟩ := hty a ha hsk
    obtain ⟨ga, ga', r1⟩ := key hm1 hmic1 a ha hsk ty hor y1 t _ (p1 a ha hsk)
    obtain ⟨gb, gb', r2⟩ := key hm2 hmic2 a ha hsk ty hor y2 t _ (p2 a ha hsk)
    rw [← hka.2.1]
    congr 1
    refine List.map_congr_left fun i hi => ?_
    have hin : i < a.num := by rw [hka.2.2]; exact List.mem_range.1 hi
    have hpl := hplace _ (Nat.dvd_mul_right c.freq ((t - 1) / c.freq))
    have hlen : c1 < (m1.geoAt (c.freq * ((t - 1) / c.freq))).pos.length := by rw [hsz m1 hm1]; exact hc1
    rw [List.getElem?_eq_getElem hlen] at hpl
    rw [createPath_place hl hr hd hor r1 r2 (List.getElem?_eq_getElem hlen) hpl.symm (i := i) (by rw [hsz a ha]; exact hin)]
    congr 1
    refine List.map_congr_left fun j _ => ?_
    rw [(a1 a ha hsk i hin (t - j) (by omega)).unique (b1 a ha hsk i hin (t - j) (by omega))]
  have v1 := q1 c1 hc1
  have v2 := q2 c2 hc2
  rw [heq] at v1
  exact ⟨fun hv => by rw [hv.unique v1]; exact v2, fun hv => by rw [hv.unique v2]; exact v1⟩

end

/-- A pair of standing microphones, a pair of which the first moves while the second stands at the place of
the second one of the other pair, and a moving source. -/
def pairArrays : List (Arr ℚ) :=
  [⟨"mic", some .mic, 2, [3, 5], none, 1, none, true, []⟩,
   ⟨"boom", some .mic, 2, [0, 5], none, 1, some fun u => [-(u : ℚ), 5], true, []⟩,
   ⟨"src", some .free, 1, [0], none, 1, some fun u => [(u : ℚ)], true, []⟩]

def pairColl : Coll ℚ (IrMat ℚ) := ((Coll.empty 2).addAll pairArrays).setDefault "ism"

def pairSetup : Except PyErr (Nat × Coll ℚ (IrMat ℚ)) := pairColl.setupIr (createPath lineRoom) 0

def pairC0 : Coll ℚ (IrMat ℚ) :=
  match pairSetup with
  | .ok gc => gc.2
  | .error _ => pairColl

def pairCfg : SimCfg ℚ (IrMat ℚ) (Fir ℚ) Nat (Nat × Coll ℚ (IrMat ℚ)) Unit (DData ℚ Unit ℚ) (DOut ℚ ℚ) :=
  { lineCfg with arrays := pairColl.infos }

theorem pairColl_consistent : pairColl.Consistent := by
  have := (Coll.addAll_spec pairArrays (Coll.empty_consistent (H := IrMat ℚ) 2) (by simp [pairArrays])).1
  exact ⟨this.names, this.kinds, this.mics, this.srcs, this.frees⟩

theorem pair_started : ∃ st0 st, pairSetup = .ok (2, pairC0) ∧
    Started pairCfg ⟨0, fun p _ => .ok (p, fun _ _ _ => 0)⟩ (fun _ => 0) (2, pairC0) () demoFilt [] st0 ∧
    pairCfg.steps 4 st0 = .ok st := by
  have hok : ((pairCfg.init (fun _ => 0) (2, pairC0) () demoFilt []).bind (pairCfg.steps 4)).isOk = true := by
    decide +kernel
  cases hi : pairCfg.init (fun _ => 0) (2, pairC0) () demoFilt [] with
  | error e => rw [hi] at hok; cases hok
  | ok st0 =>
  cases hs : pairCfg.steps 4 st0 with
  | error e => rw [hi] at hok; simp only [Except.bind, hs] at hok; cases hok
  | ok st =>
  refine ⟨st0, st, rfl, ⟨⟨by decide, by decide, by decide, ?_, ?_⟩, rfl, by decide, hi⟩, hs⟩
  · rintro p ⟨⟩
  · rintro p ⟨⟩

/-- The second microphones of the two pairs record the same signal. -/
example : ∃ st0, ∀ t ≤ (4 : Nat), ∀ v, pairCfg.Produced st0 "mic" 1 t v ↔ pairCfg.Produced st0 "boom" 1 t v := by
  obtain ⟨st0, st, h1, h2, h3⟩ := pair_started
  refine ⟨st0, ?_⟩
  have harr : pairColl.arrays = pairArrays := rfl
  refine C122_same_place lineRoom_lawful (resp := fun s m => [m - s, 1]) (fun g ss ms => rfl) rfl h1 h2 h3 rfl
    pairColl_consistent rfl rfl rfl ?_ ?_ ?_ ?_
    (m1 := ⟨"mic", some .mic, 2, [3, 5], none, 1, none, true, []⟩)
    (m2 := ⟨"boom", some .mic, 2, [0, 5], none, 1, some fun u => [-(u : ℚ), 5], true, []⟩)
    (by rw [harr]; simp [pairArrays]) rfl (by rw [harr]; simp [pairArrays]) rfl (by rintro p ⟨⟩) (by rintro p ⟨⟩)
    ?_ (by decide) (by decide) (fun u _ => rfl)
  · rw [harr]
    intro a ha
    simp only [pairArrays, List.mem_cons, List.not_mem_nil, or_false] at ha
    rcases ha with rfl | rfl | rfl <;> simp
  · rw [harr]
    intro a ha f hf
    simp only [pairArrays, List.mem_cons, List.not_mem_nil, or_false] at ha
    rcases ha with rfl | rfl | rfl
    · cases hf
    · cases hf; simp
    · cases hf; rfl
  · rw [harr]
    intro a ha u
    simp only [pairArrays, List.mem_cons, List.not_mem_nil, or_false] at ha
    rcases ha with rfl | rfl | rfl <;> rfl
  · intro a ha b hb x hx
    have ha' : a ∈ pairArrays := ha
    have hb' : b ∈ pairArrays := hb
    simp only [pairArrays, List.mem_cons, List.not_mem_nil, or_false] at ha' hb'
    rcases ha' with rfl | rfl | rfl <;> rcases hb' with rfl | rfl | rfl <;> cases hx <;> exact ⟨rfl, rfl⟩
  · rw [harr]
    intro s hs hk
    simp only [pairArrays, List.mem_cons, List.not_mem_nil, or_false] at hs
    rcases hs with rfl | rfl | rfl
    · exact absurd rfl hk
    · exact absurd rfl hk
    · exact ⟨"ism", .inl rfl, rfl, rfl⟩

end Verif

/-
C130: how loudspeakers and microphones are grouped into arrays does not matter.
-/
import Verif.Props.SamePlace
import Verif.Props.OpenLoop
import Verif.Spec.Grouping
namespace Verif

section
variable {R Pt G : Type} [Field R]

/-- The entry of a created path for a loudspeaker and a microphone depends on their places only. -/
theorem createPath_between {rc : RirCfg R Pt G} (hl : rc.Lawful) {resp : Pt → Pt → List R}
    (hr : ∀ g ss ms, (rc.roomRir g ss ms).2 = ms.map fun m => ss.map fun s => resp s m) (hd : rc.minDly = 0)
    {g g' : G} {src mic : Geo Pt} {ty : String} (hty : ty = "ism" ∨ ty = "none") {x : IrMat R}
    (h : createPath rc g src mic ty = .ok (g', x)) {i j : Nat} (hi : i < src.pos.length) (hj : j < mic.pos.length) :
    x.ir i j = rc.between resp (some ty) src.pos[i]? mic.pos[j]? := by
  have key : ∀ {a : G × IrMat R} {y : G × IrMat R} {r : List R}, a.2.ir i j = r →
      (if rc.highpass then (a.1, { a.2 with ir := fun i j => filterRow rc.pad rc.sos (a.2.ir i j) }) else a) = y →
      y.2.ir i j = if rc.highpass then filterRow rc.pad rc.sos r else r := by
    intro a y r hab e
    subst e hab
    split <;> rfl
  unfold createPath at h
  rcases hty with rfl | rfl
  · simp only [String.reduceEq, if_false, if_true] at h
    split at h
    · split at h
      · cases h
      · rename_i a ha
        obtain ⟨g', ha1, k1, -, -, k2⟩ := C45_pointwise hl hr hd (src := src)
          (ismPath_omni ha (by rintro h0; rw [h0] at hj; cases hj)) g
        rw [k1] at ha
        cases ha
        have hs : src.pos[i]? = some src.pos[i] := List.getElem?_eq_getElem hi
        have hm : mic.pos[j]? = some mic.pos[j] := List.getElem?_eq_getElem hj
        rw [hs, hm]
        refine (key ?_ (Except.ok.inj h) :)
        refine (k2 i j _ _ hs hm).unique ⟨by simp [fitted], fun n hn => ?_⟩
        change ((List.range rc.irLen).map fun (n : Nat) => (resp src.pos[i] mic.pos[j]).getD n 0)[n]? = _
        rw [List.getElem?_map, List.getElem?_range hn]
        simp only [Option.map_some, Nat.add_zero]
        congr 1
        split
        · rfl
        · rename_i h0
          exact List.getD_eq_default _ _ (by omega)
    · cases h
  · simp only [if_true] at h
    exact key rfl (Except.ok.inj h)

end

section
variable {R S P V Pt G : Type} [Field R] [DecidableEq R]
  {cfg : SimCfg R (IrMat R) (Fir R) S (G × Coll Pt (IrMat R)) P (DData R P V) (DOut R V)} {lp : ProcView R P}
  {srcs : String → S} {proc : P} {f0 : Fir R} {ds0 : List (Diag (DData R P V))}
  {st0 st : SimSt R (Fir R) S (G × Coll Pt (IrMat R)) P (DData R P V) (DOut R V)} {k : Nat}

theorem Started.played (h : Started cfg lp srcs arr proc f0 ds0 st0) (hk : cfg.steps k st0 = .ok st)
    (hproc : cfg.proc = none) {x : String → Nat → Nat → R}
    (hx : ∀ a ∈ cfg.arrays, a.kind = .free → IsStream cfg.srcGet (srcs a.name) a.num (x a.name))
    {s : ArrInfo} (hs : s ∈ cfg.arrays) (hsk : s.kind ≠ .mic) {i : Nat} (hi : i < s.num) {t : Int} (ht : t ≤ k) :
    cfg.Emitted st0 s.name i t (cfg.played x s.name i t) := by
  obtain ⟨e0, te, he0, h0, hte, _, hprod⟩ := h.tape hk
  have := h.emitted h0 hte hprod (h.nm.arr s hs) hi ht
  rwa [tape_played cfg h.nm hproc he0 hx hte (by
    unfold sourcesOf; rw [List.mem_filter]; exact ⟨hs, by simpa using hsk⟩) hi ht] at this

/-- **C130** A simulation in a room without processors: every microphone hears the sum of the single loudspeakers, each
through the response between the places that the two have at the last update. -/
theorem C130_each {rc : RirCfg R Pt G} (hl : rc.Lawful) {resp : Pt → Pt → List R}
    (hr : ∀ g ss ms, (rc.roomRir g ss ms).2 = ms.map fun m => ss.map fun s => resp s m) (hd : rc.minDly = 0)
    {c c0 : Coll Pt (IrMat R)} {g g0 : G} (hset : c.setupIr (createPath rc) g = .ok (g0, c0))
    (h : Started cfg lp srcs (g0, c0) proc f0 ds0 st0) (hk : cfg.steps k st0 = .ok st)
    (hfilt : cfg.filt = firOps R) (hc : c.Consistent) (harr : cfg.arrays = c.infos)
    (hupd : cfg.arrUpdate = Coll.update (createPath rc)) (hpath : cfg.arrPath = Coll.path)
    (hpos : ∀ a ∈ c.arrays, 0 < a.num) (hi : ∀ a ∈ c.arrays, a.Initial) (hsz : ∀ a ∈ c.arrays, a.Sized)
    (hfit : c0.PathsFit) (hproc : cfg.proc = none) {x : String → Nat → Nat → R}
    (hx : ∀ a ∈ c.arrays, a.kind = some .free → IsStream cfg.srcGet (srcs a.name) a.num (x a.name))
    {m : Arr Pt} (hm : m ∈ c.arrays) (hmic : m.kind = some .mic)
    (hty : ∀ s ∈ c.arrays, s.kind = some .free → c.types s.name m.name = some "ism" ∨ c.types s.name m.name = some "none")
    {j : Nat} (hj : j < m.num) {t : Nat} (ht : t ≤ k) :
    cfg.Produced st0 m.name j t ((c.speakers m.name x).map fun s =>
      heard (if cfg.warm then cfg.B else 1) (rc.between resp s.1 (s.2.1 (c.freq * ((t - 1) / c.freq)))
        (m.geoAt (c.freq * ((t - 1) / c.freq))).pos[j]?) s.2.2 t).sum := by
  obtain ⟨e0, e1, e2⟩ := setupIr_spec hc.names hi hset
  have hc0 : c0.Consistent := by rw [e0]; exact hc.with _ _
  have ha0 : c0.arrays = c.arrays := by rw [e0]; rfl
  have hin0 : c0.infos = c.infos := by unfold Coll.infos; rw [ha0]
  have hgen : ∀ g a b t g' x, createPath rc g a b t = .ok (g', x) → a.pos.length = a.num → b.pos.length = b.num →
      x.numIn = a.num ∧ x.numOut = b.num := fun g a b t g' x he h1 h2 =>
    let hs := createPath_shaped (fun _ => hl) h1 h2 he
    ⟨hs.1, hs.2.1⟩
  obtain ⟨u, a1, a2⟩ := C14_moving_arrays h hk hfilt hc0 (harr.trans hin0.symm) hupd hpath (by rw [ha0]; exact hpos)
    (by rw [ha0]; exact hsz) hfit hgen (m := m) (by rw [ha0]; exact hm) hmic (by intro p hp; rw [hproc] at hp; cases hp)
  obtain ⟨ir, p1, q1⟩ := a2 t ht
  rw [ha0] at a1 p1
  have hinfo : ∀ s ∈ cfg.arrays, ∃ a ∈ c.arrays, a.kind = some s.kind ∧ a.name = s.name ∧ a.num = s.num := by
    intro s hs
    rw [harr] at hs
    obtain ⟨a, ha, he⟩ := List.mem_filterMap.1 hs
    rcases hka : a.kind with _ | kk
    · rw [hka] at he; cases he
    · rw [hka] at he; cases he; exact ⟨a, ha, hka, rfl, rfl⟩
  have hx' : ∀ a ∈ cfg.arrays, a.kind = .free → IsStream cfg.srcGet (srcs a.name) a.num (x a.name) := by
    intro s hs hf
    obtain ⟨a, ha, k1, k2, k3⟩ := hinfo s hs
    rw [← k2, ← k3]
    exact hx a ha (by rw [k1, hf])
  have hval := q1 j hj
  convert hval using 1
  -- the sum over arrays and channels
  have hrow : ∀ s ∈ c.arrays, s.kind ≠ some .mic → ∀ i < s.num, ∀ n : Nat, u s.name i ((t : Int) - n) =
      if s.kind = some .free ∧ -((if cfg.warm then cfg.B else 1 : Nat) : Int) < (t : Int) - n then
        x s.name i ((t : Int) - n + (if cfg.warm then cfg.B else 1 : Nat) - 1).toNat else 0 := by
    intro s hs hsk i hin n
    obtain ⟨kk, hkk⟩ := Option.ne_none_iff_exists'.1 (hc.kinds s hs)
    have hmem : (⟨s.name, s.num, kk, s.dynamic⟩ : ArrInfo) ∈ cfg.arrays := by
      rw [harr]
      exact List.mem_filterMap.2 ⟨s, hs, by rw [hkk]; rfl⟩
    have hpl := Started.played h hk hproc hx' hmem (by rintro rfl; exact hsk hkk) hin (t := (t : Int) - n) (by omega)
    rw [(a1 s hs hsk i hin ((t : Int) - n) (by omega)).unique hpl]
    unfold SimCfg.played
    congr 1
    rw [eq_iff_iff]
    refine and_congr_left fun _ => ?_
    constructor
    · rintro ⟨b, hb, hb1, hb2⟩
      obtain ⟨a, ha, k1, k2, k3⟩ := hinfo b hb
      rw [← hc.inj ha hs (k2.trans hb1), k1, hb2]
    · intro hf
      refine ⟨_, hmem, rfl, ?_⟩
      rw [hf] at hkk
      exact (Option.some.inj hkk).symm
  unfold convSum Coll.speakers
  rw [List.map_flatMap, List.flatMap_def, List.sum_flatten, List.map_map, harr]
  unfold Coll.infos
  generalize (if cfg.warm = true then cfg.B else 1) = d at hrow ⊢
  have hgo : ∀ l : List (Arr Pt), (∀ a ∈ l, a ∈ c.arrays) →
      (((l.filter fun a => decide (a.kind = some .free)).map fun s =>
        (((List.range s.num).map fun i => (c.types s.name m.name, (fun u => (s.geoAt u).pos[i]?), x s.name i)).map fun s =>
          heard d (rc.between resp s.1 (s.2.1 (c.freq * ((t - 1) / c.freq)))
            (m.geoAt (c.freq * ((t - 1) / c.freq))).pos[j]?) s.2.2 t).sum).sum =
      (((l.filterMap fun a => a.kind.map fun k => (⟨a.name, a.num, k, a.dynamic⟩ : ArrInfo)).filter fun s => s.kind != .mic).map fun s =>
        ((List.range s.num).map fun i => ((List.range ((ir s.name).ir i j).length).map fun k =>
          ((ir s.name).ir i j).getD k 0 * u s.name i (t - k)).sum).sum).sum) := by
    intro l
    induction l with
    | nil => intro _; rfl
    | cons a l ih =>
      intro hall
      have ha := hall a List.mem_cons_self
      have ih' := ih fun b hb => hall b (List.mem_cons_of_mem _ hb)
      obtain ⟨kk, hkk⟩ := Option.ne_none_iff_exists'.1 (hc.kinds a ha)
      rw [List.filterMap_cons, hkk]
      simp only [Option.map_some]
      rw [List.filter_cons, List.filter_cons, hkk]
      cases kk with
      | mic => simpa using ih'
      | ctrl =>
        simp only [reduceCtorEq, Option.some.injEq, decide_false, Bool.false_eq_true, if_false]
        rw [if_pos (by decide), List.map_cons, List.sum_cons, ih']
        refine (zero_add _).symm.trans (congrArg (· + _) (Eq.symm (List.sum_eq_zero ?_)))
        intro v hv
        obtain ⟨i, hin, rfl⟩ := List.mem_map.1 hv
        refine List.sum_eq_zero fun v hv => ?_
        obtain ⟨n, hn, rfl⟩ := List.mem_map.1 hv
        rw [hrow a ha (by rw [hkk]; simp) i (List.mem_range.1 hin), if_neg (by rw [hkk]; simp), mul_zero]
      | free =>
        rw [if_pos (by simp), if_pos (by rfl), List.map_cons, List.map_cons, List.sum_cons, List.sum_cons, ih']
        congr 1
        rw [List.map_map]
        congr 1
        refine List.map_congr_left fun i hin => ?_
        have hin := List.mem_range.1 hin
        have hsk : a.kind ≠ some .mic := by rw [hkk]; simp
        obtain ⟨ty, hor, htyp⟩ : ∃ ty, (ty = "ism" ∨ ty = "none") ∧ c.types a.name m.name = some ty := by
          rcases hty a ha hkk with h1 | h1
          · exact ⟨_, .inl rfl, h1⟩
          · exact ⟨_, .inr rfl, h1⟩
        obtain ⟨ga, ga', r1⟩ := ir_created hset hc hpos hi hm hmic ha hsk hor htyp (p1 a ha hsk)
        have hb := createPath_between hl hr hd hor r1 (i := i) (j := j) (by rw [hsz a ha]; exact hin) (by rw [hsz m hm]; exact hj)
        dsimp only [Function.comp]
        rw [htyp, ← hb]
        unfold heard
        congr 1
        refine List.map_congr_left fun n _ => ?_
        rw [hrow a ha hsk i hin n]
        congr 1
        simp only [hkk, true_and]
  exact hgo c.arrays fun a ha => ha

/-- **C130** Two simulations in the same room without processors, in which the same single loudspeakers play the same
signals at the same places, whatever arrays they belong to, whatever these are called and in whatever order they are
listed: microphones at the same place record the same signal. -/
theorem C130_grouping {S' P' V' : Type}
    {cfg' : SimCfg R (IrMat R) (Fir R) S' (G × Coll Pt (IrMat R)) P' (DData R P' V') (DOut R V')} {lp' : ProcView R P'}
    {srcs' : String → S'} {proc' : P'} {f0' : Fir R} {ds0' : List (Diag (DData R P' V'))}
    {st0' st' : SimSt R (Fir R) S' (G × Coll Pt (IrMat R)) P' (DData R P' V') (DOut R V')} {k' : Nat}
    {rc : RirCfg R Pt G} (hl : rc.Lawful) {resp : Pt → Pt → List R}
    (hr : ∀ g ss ms, (rc.roomRir g ss ms).2 = ms.map fun m => ss.map fun s => resp s m) (hd : rc.minDly = 0)
    -- the first simulation
    {c c0 : Coll Pt (IrMat R)} {g g0 : G} (hset : c.setupIr (createPath rc) g = .ok (g0, c0))
    (h : Started cfg lp srcs (g0, c0) proc f0 ds0 st0) (hk : cfg.steps k st0 = .ok st)
    (hfilt : cfg.filt = firOps R) (hc : c.Consistent) (harr : cfg.arrays = c.infos)
    (hupd : cfg.arrUpdate = Coll.update (createPath rc)) (hpath : cfg.arrPath = Coll.path)
    (hpos : ∀ a ∈ c.arrays, 0 < a.num) (hi : ∀ a ∈ c.arrays, a.Initial) (hsz : ∀ a ∈ c.arrays, a.Sized)
    (hfit : c0.PathsFit) (hproc : cfg.proc = none) {x : String → Nat → Nat → R}
    (hx : ∀ a ∈ c.arrays, a.kind = some .free → IsStream cfg.srcGet (srcs a.name) a.num (x a.name))
    {m : Arr Pt} (hm : m ∈ c.arrays) (hmic : m.kind = some .mic)
    (hty : ∀ s ∈ c.arrays, s.kind = some .free → c.types s.name m.name = some "ism" ∨ c.types s.name m.name = some "none")
    {j : Nat} (hj : j < m.num)
    -- the second simulation
    {c' c0' : Coll Pt (IrMat R)} {g' g0' : G} (hset' : c'.setupIr (createPath rc) g' = .ok (g0', c0'))
    (h' : Started cfg' lp' srcs' (g0', c0') proc' f0' ds0' st0') (hk' : cfg'.steps k' st0' = .ok st')
    (hfilt' : cfg'.filt = firOps R) (hc' : c'.Consistent) (harr' : cfg'.arrays = c'.infos)
    (hupd' : cfg'.arrUpdate = Coll.update (createPath rc)) (hpath' : cfg'.arrPath = Coll.path)
    (hpos' : ∀ a ∈ c'.arrays, 0 < a.num) (hi' : ∀ a ∈ c'.arrays, a.Initial) (hsz' : ∀ a ∈ c'.arrays, a.Sized)
    (hfit' : c0'.PathsFit) (hproc' : cfg'.proc = none) {x' : String → Nat → Nat → R}
    (hx' : ∀ a ∈ c'.arrays, a.kind = some .free → IsStream cfg'.srcGet (srcs' a.name) a.num (x' a.name))
    {m' : Arr Pt} (hm' : m' ∈ c'.arrays) (hmic' : m'.kind = some .mic)
    (hty' : ∀ s ∈ c'.arrays, s.kind = some .free →
      c'.types s.name m'.name = some "ism" ∨ c'.types s.name m'.name = some "none")
    {j' : Nat} (hj' : j' < m'.num)
    -- the same loudspeakers and the same place of the microphone at the times of the updates
    (hfreq : c'.freq = c.freq) (hwarm : cfg'.warm = cfg.warm) (hB : cfg.warm = true → cfg'.B = cfg.B)
    (hsame : ∀ u, c.freq ∣ u → ((c.speakers m.name x).map fun s => (s.1, s.2.1 u, s.2.2)).Perm
      ((c'.speakers m'.name x').map fun s => (s.1, s.2.1 u, s.2.2)))
    (hplace : ∀ u, c.freq ∣ u → (m.geoAt u).pos[j]? = (m'.geoAt u).pos[j']?)
    {t : Nat} (ht : t ≤ k) (ht' : t ≤ k') (v : R) :
    cfg.Produced st0 m.name j t v ↔ cfg'.Produced st0' m'.name j' t v := by
  have v1 := C130_each hl hr hd hset h hk hfilt hc harr hupd hpath hpos hi hsz hfit hproc hx hm hmic hty hj ht
  have v2 := C130_each hl hr hd hset' h' hk' hfilt' hc' harr' hupd' hpath' hpos' hi' hsz' hfit' hproc' hx' hm' hmic' hty' hj' ht'
  have hB' : (if cfg'.warm then cfg'.B else 1) = (if cfg.warm then cfg.B else 1) := by
    rw [hwarm]
    split
    · exact hB ‹_›
    · rfl
  have hdvd := Nat.dvd_mul_right c.freq ((t - 1) / c.freq)
  rw [hB', hfreq, ← hplace _ hdvd] at v2
  have e := ((hsame _ hdvd).map fun s => heard (if cfg.warm then cfg.B else 1)
    (rc.between resp s.1 s.2.1 (m.geoAt (c.freq * ((t - 1) / c.freq))).pos[j]?) s.2.2 t).sum_eq
  rw [List.map_map, List.map_map] at e
  have v2 : cfg'.Produced st0' m'.name j' t _ := v2
  refine ⟨fun hv => ?_, fun hv => ?_⟩
  · rw [hv.unique v1]
    exact e ▸ v2
  · rw [hv.unique v2]
    exact e ▸ v1

end

/-- Sources of which every channel counts upwards from its own number. -/
def countGet (p : List Nat) (n : Nat) : Except PyErr (List Nat × List (List ℚ)) :=
  .ok (p.map (· + n), p.map fun q => (List.range n).map fun k => ((q + k : Nat) : ℚ))

theorem count_stream (p : List Nat) : IsStream countGet p p.length fun i t => ((p.getD i 0 + t : Nat) : ℚ) := by
  have key : ∀ ns (q : Nat), ∃ s', runRequests countGet (p.map (· + q)) ns =
      .ok (s', blocksOf (fun i t => ((p.getD i 0 + t : Nat) : ℚ)) p.length q ns) := by
    intro ns
    induction ns with
    | nil => intro q; exact ⟨_, rfl⟩
    | cons n ns ih =>
      intro q
      obtain ⟨s', hs⟩ := ih (q + n)
      refine ⟨s', ?_⟩
      simp only [runRequests, countGet, List.map_map]
      have e1 : ((fun x => x + n) ∘ fun x => x + q) = fun (x : Nat) => x + (q + n) := by
        funext x; simp; omega
      rw [e1, hs]
      simp only [blocksOf, blockOf]
      congr 3
      refine List.ext_getElem (by simp) fun i h1 h2 => ?_
      simp only [List.length_map] at h1
      simp only [List.getElem_map, List.getElem_range, Function.comp]
      refine List.map_congr_left fun k _ => ?_
      rw [List.getD_eq_getElem _ _ h1, Nat.add_assoc]
  intro ns
  have := key ns 0
  simpa using this

/-- Two loudspeakers that move apart, in one array, and two microphones. -/
def joinArrays : List (Arr ℚ) :=
  [⟨"mic", some .mic, 2, [3, 5], none, 1, none, true, []⟩,
   ⟨"pair", some .free, 2, [0, 0], none, 1, some fun u => [(u : ℚ), -(u : ℚ)], true, []⟩]

/-- The same loudspeakers in arrays of their own, and the second of the microphones. -/
def splitArrays : List (Arr ℚ) :=
  [⟨"left", some .free, 1, [0], none, 1, some fun u => [-(u : ℚ)], true, []⟩,
   ⟨"ear", some .mic, 1, [5], none, 1, none, true, []⟩,
   ⟨"right", some .free, 1, [0], none, 1, some fun u => [(u : ℚ)], true, []⟩]

def groupColl (as : List (Arr ℚ)) : Coll ℚ (IrMat ℚ) := ((Coll.empty 2).addAll as).setDefault "ism"

def groupC0 (as : List (Arr ℚ)) : Nat × Coll ℚ (IrMat ℚ) :=
  match (groupColl as).setupIr (createPath lineRoom) 0 with
  | .ok gc => gc
  | .error _ => (0, groupColl as)

def groupCfg (as : List (Arr ℚ)) :
    SimCfg ℚ (IrMat ℚ) (Fir ℚ) (List Nat) (Nat × Coll ℚ (IrMat ℚ)) Unit (DData ℚ Unit ℚ) (DOut ℚ ℚ) :=
  { B := 4, C := 2, tot := 6, warm := true, contrib := false, plotNone := false, arrays := (groupColl as).infos,
    srcGet := countGet, filt := firOps ℚ, arrUpdate := Coll.update (createPath lineRoom), arrPath := Coll.path,
    proc := none, diag := diagOps ℚ Unit ℚ }

/-- The first samples of the sources of the arrays. -/
def groupSrcs (a : String) : List Nat :=
  if a = "pair" then [1, 7] else if a = "left" then [7] else if a = "right" then [1] else []

/-- The samples of the arrays. -/
def groupX (a : String) (i t : Nat) : ℚ := (((groupSrcs a).getD i 0 + t : Nat) : ℚ)

theorem groupColl_consistent {as : List (Arr ℚ)} (h1 : as = joinArrays ∨ as = splitArrays) : (groupColl as).Consistent := by
  have : ((Coll.empty 2).addAll as : Coll ℚ (IrMat ℚ)).Consistent := by
    refine (Coll.addAll_spec as (Coll.empty_consistent (H := IrMat ℚ) 2) ?_).1
    rcases h1 with rfl | rfl <;> simp [joinArrays, splitArrays]
  rcases h1 with rfl | rfl <;> exact ⟨this.names, this.kinds, this.mics, this.srcs, this.frees⟩

theorem group_started {as : List (Arr ℚ)} (h1 : as = joinArrays ∨ as = splitArrays) : ∃ st0 st,
    Started (groupCfg as) ⟨0, fun p _ => .ok (p, fun _ _ _ => 0)⟩ groupSrcs (groupC0 as) () demoFilt [] st0 ∧
    (groupCfg as).steps 4 st0 = .ok st := by
  have hok : (((groupCfg as).init groupSrcs (groupC0 as) () demoFilt []).bind ((groupCfg as).steps 4)).isOk = true := by
    rcases h1 with rfl | rfl <;> decide +kernel
  cases hi : (groupCfg as).init groupSrcs (groupC0 as) () demoFilt [] with
  | error e => rw [hi] at hok; cases hok
  | ok st0 =>
  cases hs : (groupCfg as).steps 4 st0 with
  | error e => rw [hi] at hok; simp only [Except.bind, hs] at hok; cases hok
  | ok st =>
  refine ⟨st0, st, ⟨⟨by rcases h1 with rfl | rfl <;> decide, by rcases h1 with rfl | rfl <;> decide,
    by rcases h1 with rfl | rfl <;> decide, ?_, ?_⟩, rfl, by rcases h1 with rfl | rfl <;> decide, hi⟩, hs⟩
  · rintro p ⟨⟩
  · rintro p ⟨⟩

theorem group_rest {as : List (Arr ℚ)} (h1 : as = joinArrays ∨ as = splitArrays) :
    (groupColl as).setupIr (createPath lineRoom) 0 = .ok ((groupC0 as).1, (groupC0 as).2) ∧
    (∀ a ∈ (groupColl as).arrays, 0 < a.num) ∧ (∀ a ∈ (groupColl as).arrays, a.Initial) ∧
    (∀ a ∈ (groupColl as).arrays, a.Sized) ∧ (groupC0 as).2.PathsFit ∧
    (∀ a ∈ (groupColl as).arrays, a.kind = some .free → IsStream countGet (groupSrcs a.name) a.num (groupX a.name)) ∧
    (∀ s ∈ (groupColl as).arrays, ∀ m ∈ (groupColl as).arrays, s.kind = some .free → m.kind = some .mic →
      (groupColl as).types s.name m.name = some "ism") := by
  have hst : ∀ a n, (groupSrcs a).length = n → IsStream countGet (groupSrcs a) n (groupX a) := by
    rintro a n rfl
    exact count_stream _
  rcases h1 with rfl | rfl
  · have harr : (groupColl joinArrays).arrays = joinArrays := rfl
    rw [harr]
    refine ⟨rfl, ?_, ?_, ?_, ?_, ?_, ?_⟩
    · intro a ha
      simp only [joinArrays, List.mem_cons, List.not_mem_nil, or_false] at ha
      rcases ha with rfl | rfl <;> simp
    · intro a ha f hf
      simp only [joinArrays, List.mem_cons, List.not_mem_nil, or_false] at ha
      rcases ha with rfl | rfl
      · cases hf
      · cases hf; simp
    · intro a ha u
      simp only [joinArrays, List.mem_cons, List.not_mem_nil, or_false] at ha
      rcases ha with rfl | rfl <;> rfl
    · intro a ha b hb x hx
      have ha' : a ∈ joinArrays := ha
      have hb' : b ∈ joinArrays := hb
      simp only [joinArrays, List.mem_cons, List.not_mem_nil, or_false] at ha' hb'
      rcases ha' with rfl | rfl <;> rcases hb' with rfl | rfl <;> cases hx <;> exact ⟨rfl, rfl⟩
    · intro a ha hk
      simp only [joinArrays, List.mem_cons, List.not_mem_nil, or_false] at ha
      rcases ha with rfl | rfl
      · cases hk
      · exact hst _ _ rfl
    · intro a ha b hb hk1 hk2
      simp only [joinArrays, List.mem_cons, List.not_mem_nil, or_false] at ha hb
      rcases ha with rfl | rfl <;> rcases hb with rfl | rfl <;> first | (cases hk1; done) | (cases hk2; done) | rfl
  · have harr : (groupColl splitArrays).arrays = splitArrays := rfl
    rw [harr]
    refine ⟨rfl, ?_, ?_, ?_, ?_, ?_, ?_⟩
    · intro a ha
      simp only [splitArrays, List.mem_cons, List.not_mem_nil, or_false] at ha
      rcases ha with rfl | rfl | rfl <;> simp
    · intro a ha f hf
      simp only [splitArrays, List.mem_cons, List.not_mem_nil, or_false] at ha
      rcases ha with rfl | rfl | rfl
      · cases hf; simp
      · cases hf
      · cases hf; simp
    · intro a ha u
      simp only [splitArrays, List.mem_cons, List.not_mem_nil, or_false] at ha
      rcases ha with rfl | rfl | rfl <;> rfl
    · intro a ha b hb x hx
      have ha' : a ∈ splitArrays := ha
      have hb' : b ∈ splitArrays := hb
      simp only [splitArrays, List.mem_cons, List.not_mem_nil, or_false] at ha' hb'
      rcases ha' with rfl | rfl | rfl <;> rcases hb' with rfl | rfl | rfl <;> cases hx <;> exact ⟨rfl, rfl⟩
    · intro a ha hk
      simp only [splitArrays, List.mem_cons, List.not_mem_nil, or_false] at ha
      rcases ha with rfl | rfl | rfl
      · exact hst _ _ rfl
      · cases hk
      · exact hst _ _ rfl
    · intro a ha b hb hk1 hk2
      simp only [splitArrays, List.mem_cons, List.not_mem_nil, or_false] at ha hb
      rcases ha with rfl | rfl | rfl <;> rcases hb with rfl | rfl | rfl <;> first | (cases hk1; done) | (cases hk2; done) | rfl

/-- What is heard of the array is what is heard of its loudspeakers in arrays of their own. -/
example : ∃ st0 st0', ∀ t ≤ (4 : Nat), ∀ v,
    (groupCfg joinArrays).Produced st0 "mic" 1 t v ↔ (groupCfg splitArrays).Produced st0' "ear" 0 t v := by
  obtain ⟨st0, st, h1, h2⟩ := group_started (.inl rfl)
  obtain ⟨st0', st', h1', h2'⟩ := group_started (.inr rfl)
  obtain ⟨a1, a2, a3, a4, a5, a6, a7⟩ := group_rest (.inl rfl)
  obtain ⟨b1, b2, b3, b4, b5, b6, b7⟩ := group_rest (.inr rfl)
  have hm : (⟨"mic", some .mic, 2, [3, 5], none, 1, none, true, []⟩ : Arr ℚ) ∈ (groupColl joinArrays).arrays := by
    have harr : (groupColl joinArrays).arrays = joinArrays := rfl
    rw [harr]; simp [joinArrays]
  have hm' : (⟨"ear", some .mic, 1, [5], none, 1, none, true, []⟩ : Arr ℚ) ∈ (groupColl splitArrays).arrays := by
    have harr : (groupColl splitArrays).arrays = splitArrays := rfl
    rw [harr]; simp [splitArrays]
  refine ⟨st0, st0', fun t ht v => ?_⟩
  exact C130_grouping lineRoom_lawful (resp := fun s m => [m - s, 1]) (fun g ss ms => rfl) rfl (x := groupX) (x' := groupX) a1 h1 h2 rfl
    (groupColl_consistent (.inl rfl)) rfl rfl rfl a2 a3 a4 a5 rfl a6 hm rfl (fun s hs hk => .inl (a7 s hs _ hm hk rfl)) (by decide)
    b1 h1' h2' rfl (groupColl_consistent (.inr rfl)) rfl rfl rfl b2 b3 b4 b5 rfl b6 hm' rfl
    (fun s hs hk => .inl (b7 s hs _ hm' hk rfl)) (by decide) rfl rfl (fun _ => rfl)
    (fun u _ => List.Perm.swap _ _ _) (fun u _ => rfl) ht ht v

end Verif

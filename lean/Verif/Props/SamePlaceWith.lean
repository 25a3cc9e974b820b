/-
C194: microphones at the same place record the same signal, also with adaptive noise control.
-/
import Verif.Props.SamePlace
import Verif.Props.AncReal
import Verif.Props.Scripts
import Verif.Props.LengthWith
namespace Verif

section
variable {K R G S P V : Type} [Field K] [LinearOrder K] [Field R] [DecidableEq R]
  {ext : RoomExt K R G} {i : RoomInfo K} {freq : Nat} {as : List (Arr (K × K × K))} {os : List (PathOp R)} {t : String}

/-- Channel `c1` of the array `m1` and channel `c2` of `m2` are microphones at the same place at every update of the
arrays, and the paths from every source to the two arrays are both of type "ism" or both of type "none". -/
structure SamePlace (freq : Nat) (as : List (Arr (K × K × K))) (os : List (PathOp R)) (t : String) (m1 m2 : Arr (K × K × K))
    (c1 c2 : Nat) : Prop where
  mem1 : m1 ∈ as
  mem2 : m2 ∈ as
  mic1 : m1.kind = some .mic
  mic2 : m2.kind = some .mic
  chan1 : c1 < m1.num
  chan2 : c2 < m2.num
  types : ∀ s ∈ as, (s.kind = some .free ∨ s.kind = some .ctrl) →
    ∃ ty, (ty = "ism" ∨ ty = "none") ∧ HasType os t s m1 ty ∧ HasType os t s m2 ty
  place : ∀ u, freq ∣ u → (m1.geoAt u).pos[c1]? = (m2.geoAt u).pos[c2]?

/-- The responses in force are the same for both microphones. -/
theorem SamePlace.responses {m1 m2 : Arr (K × K × K)} {c1 c2 : Nat} (hp : SamePlace freq as os t m1 m2 c1 c2)
    (h : RoomPlan ext i freq as os t) {resp : ShoeBox K → K × K × K → K × K × K → List R}
    (hrir : ∀ b g ss ms, (ext.rir b g ss ms).2 = ms.map fun m => ss.map fun s => resp b s m)
    {base : SimCfg R (IrMat R) (Fir R) S (G × Coll (K × K × K) (IrMat R)) P (DData R P V) (DOut R V)} {g : G} {par : K × Nat}
    {gc : G × Coll (K × K × K) (IrMat R)} (hset : roomSetup ext i g (planned freq as os t) = .ok (par, gc))
    (hu : Usable (i.cfg ext par) (infosOf as) gc.2) {n : Nat} {ir1 ir2 : String → IrMat R}
    (h1 : ∀ s ∈ infosOf as, s.kind ≠ .mic → (roomCfg base ext i par as).IrAt gc s ⟨m1.name, m1.num, .mic, m1.dynamic⟩ n (ir1 s.name))
    (h2 : ∀ s ∈ infosOf as, s.kind ≠ .mic → (roomCfg base ext i par as).IrAt gc s ⟨m2.name, m2.num, .mic, m2.dynamic⟩ n (ir2 s.name)) :
    ∀ s ∈ infosOf as, s.kind ≠ .mic → ∀ k < s.num, (ir1 s.name).ir k c1 = (ir2 s.name).ir k c2 := by
  intro s hs hsk k hk
  have harr := h.arrays hset
  obtain ⟨a, ha, e1, e2, e3, e4⟩ := mem_infosOf.1 hs
  have hak : a.kind = some .free ∨ a.kind = some .ctrl := by
    rw [e1]
    cases hk' : s.kind
    · exact absurd hk' hsk
    · exact .inl rfl
    · exact .inr rfl
  have hinfo : s = ⟨a.name, a.num, s.kind, a.dynamic⟩ := by rw [e2, e3, e4]
  have key : ∀ {m : Arr (K × K × K)}, m ∈ as → m.kind = some .mic → ∀ {x : IrMat R},
      (roomCfg base ext i par as).IrAt gc s ⟨m.name, m.num, .mic, m.dynamic⟩ n x → ∀ {ty : String}, HasType os t a m ty →
      ∃ g g', createPath (i.cfg ext par) g (a.geoAt (freq * ((n - 1) / freq))) (m.geoAt (freq * ((n - 1) / freq))) ty = .ok (g', x) := by
    intro m hm hmk x hx ty hty
    rw [hinfo] at hx
    have hx := h.expected hset ha hm hak hmk (irAt_generated hu.con (g0 := gc.1) (cfg := roomCfg base ext i par as) rfl rfl
      (by rw [harr]; exact ha) hak (by rw [harr]; exact hm) hmk hx)
    unfold ExpectedIr at hx
    rw [hty.1] at hx
    dsimp only [List.getLast?_nil] at hx
    rw [hty.2] at hx
    exact hx
  obtain ⟨ty, hor, y1, y2⟩ := hp.types a ha hak
  obtain ⟨ga, ga', r1⟩ := key hp.mem1 hp.mic1 (h1 s hs hsk) y1
  obtain ⟨gb, gb', r2⟩ := key hp.mem2 hp.mic2 (h2 s hs hsk) y2
  have hpl := hp.place _ (Nat.dvd_mul_right freq ((n - 1) / freq))
  have hlen : c1 < (m1.geoAt (freq * ((n - 1) / freq))).pos.length := by rw [h.sized m1 hp.mem1]; exact hp.chan1
  rw [List.getElem?_eq_getElem hlen] at hpl
  refine createPath_place (h.external par) (resp := fun s m => resp
    ⟨i.size, par.1, par.2, i.samplerate, i.randomized, i.speed, 2 * (0 + i.extraDelay) + 1⟩ (offsetBy (posOffset i.size i.center) s)
    (offsetBy (posOffset i.size i.center) m)) (fun g ss ms => ?_) rfl hor r1 r2 (List.getElem?_eq_getElem hlen) hpl.symm
    (by rw [h.sized a ha, e3]; exact hk)
  unfold RoomInfo.cfg
  dsimp only
  rw [hrir, List.map_map]
  refine List.map_congr_left fun m _ => ?_
  simp only [Function.comp, List.map_map]
  rfl

omit [DecidableEq R] in
theorem convSum_place {l : List ArrInfo} {ir1 ir2 : String → IrMat R} {c1 c2 : Nat}
    (h : ∀ s ∈ l, ∀ k < s.num, (ir1 s.name).ir k c1 = (ir2 s.name).ir k c2) (u : String → Nat → Int → R) (n : Int) :
    convSum l ir1 u c1 n = convSum l ir2 u c2 n := by
  unfold convSum
  congr 1
  refine List.map_congr_left fun s hs => ?_
  congr 1
  refine List.map_congr_left fun k hk => ?_
  rw [h s hs k (List.mem_range.1 hk)]

variable {m1 m2 : Arr (K × K × K)} {c1 c2 : Nat} {srcs : String → S} {q : FxPar R} {g : G} {f0 : Fir R}
  {resp : ShoeBox K → K × K × K → K × K × K → List R} {info : DiagInfo} {ex : Option IdxSel} {name1 name2 : String}

/-- The two microphones get the same samples, together and from each source. -/
theorem SamePlace.produced (hp : SamePlace freq as os t m1 m2 c1 c2) (h : RoomPlan ext i freq as os t)
    (hrir : ∀ b g ss ms, (ext.rir b g ss ms).2 = ms.map fun m => ss.map fun s => resp b s m)
    {base : SimCfg R (IrMat R) (Fir R) S (G × Coll (K × K × K) (IrMat R)) P (DData R P V) (DOut R V)} {par : K × Nat}
    {gc : G × Coll (K × K × K) (IrMat R)} (hset : roomSetup ext i g (planned freq as os t) = .ok (par, gc))
    (hu : Usable (i.cfg ext par) (infosOf as) gc.2)
    {st0 : SimSt R (Fir R) S (G × Coll (K × K × K) (IrMat R)) P (DData R P V) (DOut R V)} {u : String → Nat → Int → R}
    (hloop : ∀ m ∈ infosOf as, m.kind = .mic → ∀ n ≤ base.tot, ∃ ir : String → IrMat R,
      (∀ s ∈ infosOf as, s.kind ≠ .mic → (roomCfg base ext i par as).IrAt gc s m n (ir s.name)) ∧ ∀ c < m.num,
        (roomCfg base ext i par as).Produced st0 m.name c n (convSum ((infosOf as).filter fun s => s.kind != .mic) ir u c n) ∧
        (base.contrib = true → ∀ s ∈ infosOf as, s.kind ≠ .mic →
          (roomCfg base ext i par as).Produced st0 (s.name ++ "~" ++ m.name) c n (convSum [s] ir u c n))) :
    ∃ ir1 ir2 : Nat → String → IrMat R,
      (∀ c < m1.num, ∀ n < base.tot, (roomCfg base ext i par as).Produced st0 m1.name c n
          (convSum ((infosOf as).filter fun s => s.kind != .mic) (ir1 n) u c n) ∧
        (base.contrib = true → ∀ s ∈ infosOf as, s.kind ≠ .mic →
          (roomCfg base ext i par as).Produced st0 (s.name ++ "~" ++ m1.name) c n (convSum [s] (ir1 n) u c n))) ∧
      (∀ c < m2.num, ∀ n < base.tot, (roomCfg base ext i par as).Produced st0 m2.name c n
          (convSum ((infosOf as).filter fun s => s.kind != .mic) (ir2 n) u c n) ∧
        (base.contrib = true → ∀ s ∈ infosOf as, s.kind ≠ .mic →
          (roomCfg base ext i par as).Produced st0 (s.name ++ "~" ++ m2.name) c n (convSum [s] (ir2 n) u c n))) ∧
      ∀ n < base.tot, ∀ l : List ArrInfo, (∀ s ∈ l, s ∈ infosOf as ∧ s.kind ≠ .mic) →
        convSum l (ir1 n) u c1 n = convSum l (ir2 n) u c2 n := by
  have hmi1 : (⟨m1.name, m1.num, .mic, m1.dynamic⟩ : ArrInfo) ∈ infosOf as := mem_infosOf.2 ⟨m1, hp.mem1, hp.mic1, rfl, rfl, rfl⟩
  have hmi2 : (⟨m2.name, m2.num, .mic, m2.dynamic⟩ : ArrInfo) ∈ infosOf as := mem_infosOf.2 ⟨m2, hp.mem2, hp.mic2, rfl, rfl, rfl⟩
  have choice : ∀ {Q : Nat → (String → IrMat R) → Prop}, (∀ n ≤ base.tot, ∃ ir, Q n ir) → ∃ ir : Nat → String → IrMat R,
      ∀ n < base.tot, Q n (ir n) := by
    intro Q hQ
    have : ∀ n, ∃ ir : String → IrMat R, n < base.tot → Q n ir := by
      intro n
      by_cases hn : n < base.tot
      · obtain ⟨ir, hir⟩ := hQ n (Nat.le_of_lt hn)
        exact ⟨ir, fun _ => hir⟩
      · exact ⟨fun _ => ⟨0, 0, fun _ _ => []⟩, fun h => absurd h hn⟩
    choose ir hir using this
    exact ⟨ir, hir⟩
  obtain ⟨ir1, hir1⟩ := choice (hloop _ hmi1 rfl)
  obtain ⟨ir2, hir2⟩ := choice (hloop _ hmi2 rfl)
  refine ⟨ir1, ir2, fun c hc n hn => (hir1 n hn).2 c hc, fun c hc n hn => (hir2 n hn).2 c hc, fun n hn l hl => ?_⟩
  have hresp := hp.responses h hrir hset hu (hir1 n hn).1 (hir2 n hn).1
  exact convSum_place (fun s hs k hk => hresp s (hl s hs).1 (hl s hs).2 k hk) _ _

omit [DecidableEq R] in
theorem all_streams {srcGet : S → Nat → Except PyErr (S × Mat R)} (h : RoomPlan ext i freq as os t)
    (hs : ∀ a ∈ as, a.kind = some .free → ∃ x, IsStream srcGet (srcs a.name) a.num x) :
    ∃ X : String → Nat → Nat → R, ∀ a ∈ infosOf as, a.kind = .free → IsStream srcGet (srcs a.name) a.num (X a.name) := by
  have : ∀ nm : String, ∃ X : Nat → Nat → R, ∀ a ∈ as, a.kind = some .free → a.name = nm → IsStream srcGet (srcs a.name) a.num X := by
    intro nm
    by_cases hh : ∃ a ∈ as, a.kind = some .free ∧ a.name = nm
    · obtain ⟨a, ha, hk, hnm⟩ := hh
      obtain ⟨X, hX⟩ := hs a ha hk
      exact ⟨X, fun b hb _ hbm => by rw [List.inj_on_of_nodup_map h.names hb ha (hbm.trans hnm.symm)]; exact hX⟩
    · exact ⟨fun _ _ => 0, fun a ha hk hnm => absurd ⟨a, ha, hk, hnm⟩ hh⟩
  choose X hX using this
  refine ⟨X, fun a ha hk => ?_⟩
  obtain ⟨b, hb, e1, e2, e3, -⟩ := mem_infosOf.1 ha
  rw [← e2, ← e3]
  exact hX _ b hb (by rw [e1, hk]) rfl

/-- The recordings of two microphones at the same place. -/
def SameRecordings {P : Type} (fin : List (Diag (DData R P V))) (tot : Nat) (name1 sig1 : String) (num1 c1 : Nat)
    (name2 sig2 : String) (num2 c2 : Nat) : Prop :=
  ∃ y1 y2 : Nat → Nat → R, Recording fin name1 sig1 num1 tot y1 ∧ Recording fin name2 sig2 num2 tot y2 ∧
    ∀ n < tot, y1 c1 n = y2 c2 n

/-- **C194, FxLMS**: two microphones which are at the same place at every update record the same signal, whether they
belong to the same array or not, and whether the processor uses them or not.  With
`save_source_contributions` the contributions of each source are the same, too.  The image-source package
must be a function of the two positions. -/
theorem C194_fxlms {base : SimCfg R (IrMat R) (Fir R) S (G × Coll (K × K × K) (IrMat R)) (FxSt R) (DData R (FxSt R) V) (DOut R V)}
    (h : AncScene base ext i freq as os t srcs q) (hp : SamePlace freq as os t m1 m2 c1 c2)
    (hrir : ∀ b g ss ms, (ext.rir b g ss ms).2 = ms.map fun m => ss.map fun s => resp b s m)
    {diags : Coll (K × K × K) (IrMat R) → Except PyErr (List (Diag (DData R (FxSt R) V)))}
    {fin : SimSt R (Fir R) S (G × Coll (K × K × K) (IrMat R)) (FxSt R) (DData R (FxSt R) V) (DOut R V)}
    (hfin : ancSimulate base ext i g (planned freq as os t) srcs q.bs q.ub q.L q.mu q.beta q.norm f0 diags = .ok fin)
    (hnd : ∀ c ds, c.arrays = as → diags c = .ok ds → (ds.map Diag.name).Nodup)
    (htot : info.tot = base.tot) (hpos : 0 < base.tot) :
    ((∀ c ds, c.arrays = as → diags c = .ok ds → (∃ d ∈ ds, mkRecordSignal info name1 m1.name ex none m1.num none = .ok d) ∧
        ∃ d ∈ ds, mkRecordSignal info name2 m2.name ex none m2.num none = .ok d) →
      SameRecordings fin.diags base.tot name1 m1.name m1.num c1 name2 m2.name m2.num c2) ∧
    ∀ s ∈ as, (s.kind = some .free ∨ s.kind = some .ctrl) → base.contrib = true →
      (∀ c ds, c.arrays = as → diags c = .ok ds →
        (∃ d ∈ ds, mkRecordSignal info name1 (s.name ++ "~" ++ m1.name) ex none m1.num none = .ok d) ∧
        ∃ d ∈ ds, mkRecordSignal info name2 (s.name ++ "~" ++ m2.name) ex none m2.num none = .ok d) →
      SameRecordings fin.diags base.tot name1 (s.name ++ "~" ++ m1.name) m1.num c1 name2 (s.name ++ "~" ++ m2.name) m2.num c2 := by
  obtain ⟨par, gc, sp, ds, st0, hset, harr, hu, -, hds', hrun⟩ := h.ran hfin hnd
  have hmi1 : (⟨m1.name, m1.num, .mic, m1.dynamic⟩ : ArrInfo) ∈ infosOf as := mem_infosOf.2 ⟨m1, hp.mem1, hp.mic1, rfl, rfl, rfl⟩
  have hmi2 : (⟨m2.name, m2.num, .mic, m2.dynamic⟩ : ArrInfo) ∈ infosOf as := mem_infosOf.2 ⟨m2, hp.mem2, hp.mic2, rfl, rfl, rfl⟩
  have hN := (fx_init hrun.scene sp hrun.init).1
  obtain ⟨X, hX⟩ := all_streams h.plan h.streams
  obtain ⟨st, hst⟩ := hrun.stepsTo (n := base.tot) (Nat.le_add_right _ _)
  obtain ⟨ρ, e, hρ, he'⟩ := fx_recorded hrun.scene hrun.init hst
  obtain ⟨ir1, ir2, p1, p2, p3⟩ := hp.produced (base := { base with proc := some (fxProc q) }) h.plan hrir hset hu
    fun m hmi hmk => C148_closed_loop hrun.scene hrun.init hst h.filt
      (fun a ha => by obtain ⟨b, hb, -, -, e3, -⟩ := mem_infosOf.1 ha; rw [← e3]; exact h.plan.channels b hb)
      (h.plan.shape hset hu) (x := X)
      hX hρ he' hmi hmk
  refine ⟨fun hds => ?_, fun s hs hsk hcon hds => ?_⟩
  · obtain ⟨⟨d1, e1, f1⟩, ⟨d2, e2, f2⟩⟩ := hds gc.2 ds harr hds'
    exact ⟨_, _, hrun.recording e1 f1 htot hpos (hN.arr _ hmi1) (h.own m1 hp.mem1) fun c hc n hn => (p1 c hc n hn).1,
      hrun.recording e2 f2 htot hpos (hN.arr _ hmi2) (h.own m2 hp.mem2) fun c hc n hn => (p2 c hc n hn).1,
      fun n hn => p3 n hn _ fun s hs => ⟨(List.mem_filter.1 hs).1, by simpa using (List.mem_filter.1 hs).2⟩⟩
  · obtain ⟨⟨d1, e1, f1⟩, ⟨d2, e2, f2⟩⟩ := hds gc.2 ds harr hds'
    obtain ⟨ks, hks⟩ := Option.ne_none_iff_exists'.1 (h.plan.kinds s hs)
    have hsi : (⟨s.name, s.num, ks, s.dynamic⟩ : ArrInfo) ∈ infosOf as := mem_infosOf.2 ⟨s, hs, hks, rfl, rfl, rfl⟩
    have hne : ks ≠ .mic := by
      rintro rfl
      rw [hks] at hsk
      rcases hsk with e | e <;> cases e
    have hdims : ∀ {m : Arr (K × K × K)}, (⟨m.name, m.num, .mic, m.dynamic⟩ : ArrInfo) ∈ infosOf as →
        (roomCfg { base with proc := some (fxProc q) } ext i par as).dims (s.name ++ "~" ++ m.name) = some m.num := fun {m} hmi =>
      hN.con hcon (⟨s.name, s.num, ks, s.dynamic⟩, ⟨m.name, m.num, .mic, m.dynamic⟩)
        (mem_combosOf.2 ⟨List.mem_filter.2 ⟨hsi, by simpa using hne⟩, List.mem_filter.2 ⟨hmi, rfl⟩⟩)
    have hnx : ∀ m : Arr (K × K × K), s.name ++ "~" ++ m.name ≠ "xf" := by
      intro m e
      have h1 : '~' ∈ (s.name ++ "~" ++ m.name).toList := by simp
      rw [e] at h1
      revert h1
      decide
    exact ⟨_, _, hrun.recording e1 f1 htot hpos (hdims hmi1) (hnx _) fun c hc n hn => (p1 c hc n hn).2 hcon _ hsi hne,
      hrun.recording e2 f2 htot hpos (hdims hmi2) (hnx _) fun c hc n hn => (p2 c hc n hn).2 hcon _ hsi hne,
      fun n hn => p3 n hn [_] fun s' hs' => by rw [List.mem_singleton] at hs'; subst hs'; exact ⟨hsi, hne⟩⟩

/-- **C194, FastBlockFxLMS**: the same. -/
theorem C194_fast {base : SimCfg R (IrMat R) (Fir R) S (G × Coll (K × K × K) (IrMat R)) (FastSt R) (DData R (FastSt R) V) (DOut R V)}
    (h : RealScene base ext i freq as os t srcs q) (hp : SamePlace freq as os t m1 m2 c1 c2)
    (hrir : ∀ b g ss ms, (ext.rir b g ss ms).2 = ms.map fun m => ss.map fun s => resp b s m)
    {diags : Coll (K × K × K) (IrMat R) → Except PyErr (List (Diag (DData R (FastSt R) V)))}
    {fin : SimSt R (Fir R) S (G × Coll (K × K × K) (IrMat R)) (FastSt R) (DData R (FastSt R) V) (DOut R V)}
    (hfin : realSimulate base ext i g (planned freq as os t) srcs q.bs q.L q.mu q.beta f0 diags = .ok fin)
    (hnd : ∀ c ds, c.arrays = as → diags c = .ok ds → (ds.map Diag.name).Nodup)
    (htot : info.tot = base.tot) (hpos : 0 < base.tot) :
    ((∀ c ds, c.arrays = as → diags c = .ok ds → (∃ d ∈ ds, mkRecordSignal info name1 m1.name ex none m1.num none = .ok d) ∧
        ∃ d ∈ ds, mkRecordSignal info name2 m2.name ex none m2.num none = .ok d) →
      SameRecordings fin.diags base.tot name1 m1.name m1.num c1 name2 m2.name m2.num c2) ∧
    ∀ s ∈ as, (s.kind = some .free ∨ s.kind = some .ctrl) → base.contrib = true →
      (∀ c ds, c.arrays = as → diags c = .ok ds →
        (∃ d ∈ ds, mkRecordSignal info name1 (s.name ++ "~" ++ m1.name) ex none m1.num none = .ok d) ∧
        ∃ d ∈ ds, mkRecordSignal info name2 (s.name ++ "~" ++ m2.name) ex none m2.num none = .ok d) →
      SameRecordings fin.diags base.tot name1 (s.name ++ "~" ++ m1.name) m1.num c1 name2 (s.name ++ "~" ++ m2.name) m2.num c2 := by
  obtain ⟨par, gc, sp, ds, st0, hset, harr, hu, -, hds', hrun⟩ := h.ran hfin hnd
  have hmi1 : (⟨m1.name, m1.num, .mic, m1.dynamic⟩ : ArrInfo) ∈ infosOf as := mem_infosOf.2 ⟨m1, hp.mem1, hp.mic1, rfl, rfl, rfl⟩
  have hmi2 : (⟨m2.name, m2.num, .mic, m2.dynamic⟩ : ArrInfo) ∈ infosOf as := mem_infosOf.2 ⟨m2, hp.mem2, hp.mic2, rfl, rfl, rfl⟩
  have hN := (fast_begin hrun.scene sp hrun.init).1
  obtain ⟨X, hX⟩ := all_streams h.plan h.streams
  obtain ⟨st, hst⟩ := hrun.stepsTo (n := base.tot) (Nat.le_add_right _ _)
  obtain ⟨ρ, e, hρ, he'⟩ := fast_recorded hrun.scene hrun.init hst
  obtain ⟨ir1, ir2, p1, p2, p3⟩ := hp.produced (base := { base with proc := some (fastProc q) }) h.plan hrir hset hu
    fun m hmi hmk => C175_closed_loop hrun.scene hrun.init hst h.filt
      (fun a ha => by obtain ⟨b, hb, -, -, e3, -⟩ := mem_infosOf.1 ha; rw [← e3]; exact h.plan.channels b hb)
      (h.plan.shape hset hu) (x := X)
      hX hρ he' hmi hmk
  refine ⟨fun hds => ?_, fun s hs hsk hcon hds => ?_⟩
  · obtain ⟨⟨d1, e1, f1⟩, ⟨d2, e2, f2⟩⟩ := hds gc.2 ds harr hds'
    exact ⟨_, _, hrun.recording e1 f1 htot hpos (hN.arr _ hmi1) (h.own m1 hp.mem1) fun c hc n hn => (p1 c hc n hn).1,
      hrun.recording e2 f2 htot hpos (hN.arr _ hmi2) (h.own m2 hp.mem2) fun c hc n hn => (p2 c hc n hn).1,
      fun n hn => p3 n hn _ fun s hs => ⟨(List.mem_filter.1 hs).1, by simpa using (List.mem_filter.1 hs).2⟩⟩
  · obtain ⟨⟨d1, e1, f1⟩, ⟨d2, e2, f2⟩⟩ := hds gc.2 ds harr hds'
    obtain ⟨ks, hks⟩ := Option.ne_none_iff_exists'.1 (h.plan.kinds s hs)
    have hsi : (⟨s.name, s.num, ks, s.dynamic⟩ : ArrInfo) ∈ infosOf as := mem_infosOf.2 ⟨s, hs, hks, rfl, rfl, rfl⟩
    have hne : ks ≠ .mic := by
      rintro rfl
      rw [hks] at hsk
      rcases hsk with e | e <;> cases e
    have hdims : ∀ {m : Arr (K × K × K)}, (⟨m.name, m.num, .mic, m.dynamic⟩ : ArrInfo) ∈ infosOf as →
        (roomCfg { base with proc := some (fastProc q) } ext i par as).dims (s.name ++ "~" ++ m.name) = some m.num := fun {m} hmi =>
      hN.con hcon (⟨s.name, s.num, ks, s.dynamic⟩, ⟨m.name, m.num, .mic, m.dynamic⟩)
        (mem_combosOf.2 ⟨List.mem_filter.2 ⟨hsi, by simpa using hne⟩, List.mem_filter.2 ⟨hmi, rfl⟩⟩)
    have hnx : ∀ m : Arr (K × K × K), s.name ++ "~" ++ m.name ≠ "xf" := by
      intro m e
      have h1 : '~' ∈ (s.name ++ "~" ++ m.name).toList := by simp
      rw [e] at h1
      revert h1
      decide
    exact ⟨_, _, hrun.recording e1 f1 htot hpos (hdims hmi1) (hnx _) fun c hc n hn => (p1 c hc n hn).2 hcon _ hsi hne,
      hrun.recording e2 f2 htot hpos (hdims hmi2) (hnx _) fun c hc n hn => (p2 c hc n hn).2 hcon _ hsi hne,
      fun n hn => p3 n hn [_] fun s' hs' => by rw [List.mem_singleton] at hs'; subst hs'; exact ⟨hsi, hne⟩⟩

end

/-! ### examples -/

/-- An error microphone, and a pair of microphones of which the first moves while the second stands at the place of
the error microphone. -/
def twinArrays : List (Arr (ℚ × ℚ × ℚ)) :=
  [stillArr "error" .mic [(0, 1, 3)], stillArr "ref" .mic [(3, 1, 3)], stillArr "loudspeaker" .ctrl [(1, 1, 3)],
   stillArr "noise" .free [(3, 1, 3)],
   ⟨"boom", some .mic, 2, [(0, 0, 3), (0, 1, 3)], none, 1, some fun u => [(u / 10, 0, 3), (0, 1, 3)], true, []⟩]

theorem twin_plan : RoomPlan boxExt boxInfo 2 twinArrays exampleTypes "ism" where
  names := by decide
  kinds := by
    intro a ha
    simp only [twinArrays, List.mem_cons, List.not_mem_nil, or_false] at ha
    rcases ha with rfl | rfl | rfl | rfl | rfl <;> exact Option.some_ne_none _
  channels := by
    intro a ha
    simp only [twinArrays, List.mem_cons, List.not_mem_nil, or_false] at ha
    rcases ha with rfl | rfl | rfl | rfl | rfl <;> decide
  sized := by
    intro a ha
    simp only [twinArrays, List.mem_cons, List.not_mem_nil, or_false] at ha
    rcases ha with rfl | rfl | rfl | rfl | rfl <;> exact fun _ => rfl
  initial := by
    intro a ha f hf
    simp only [twinArrays, List.mem_cons, List.not_mem_nil, or_false] at ha
    rcases ha with rfl | rfl | rfl | rfl | rfl
    · cases hf
    · cases hf
    · cases hf
    · cases hf
    · cases hf
      simp
  types := by
    intro a ha b hb hak hbk _
    simp only [twinArrays, List.mem_cons, List.not_mem_nil, or_false] at ha hb
    rcases ha with rfl | rfl | rfl | rfl | rfl
    · rcases hak with h | h <;> cases h
    · rcases hak with h | h <;> cases h
    · rcases hb with rfl | rfl | rfl | rfl | rfl
      · exact .inr (.inr (.inr ⟨rfl, rfl, rfl⟩))
      · exact .inl rfl
      · cases hbk
      · cases hbk
      · exact .inr (.inr (.inr ⟨rfl, rfl, rfl⟩))
    · rcases hb with rfl | rfl | rfl | rfl | rfl
      · exact .inr (.inr (.inr ⟨rfl, rfl, rfl⟩))
      · exact .inr (.inr (.inl ⟨rfl, rfl⟩))
      · cases hbk
      · cases hbk
      · exact .inr (.inr (.inr ⟨rfl, rfl, rfl⟩))
    · rcases hak with h | h <;> cases h
  moving := by
    intro a ha b hb _ _ _
    simp only [twinArrays, List.mem_cons, List.not_mem_nil, or_false] at ha hb
    rcases ha with rfl | rfl | rfl | rfl | rfl <;> rcases hb with rfl | rfl | rfl | rfl | rfl <;> rfl
  sources := fun _ _ _ _ => ⟨stillArr "noise" .free [(3, 1, 3)], by simp [twinArrays], .inl rfl⟩
  interval := by decide
  reverberation := plan_demo.reverberation
  external := box_lawful

def twinBoom : Arr (ℚ × ℚ × ℚ) :=
  ⟨"boom", some .mic, 2, [(0, 0, 3), (0, 1, 3)], none, 1, some fun u => [(u / 10, 0, 3), (0, 1, 3)], true, []⟩

theorem twin_place : SamePlace 2 twinArrays (exampleTypes (R := ℚ)) "ism" (stillArr "error" .mic [(0, 1, 3)]) twinBoom 0 1 where
  mem1 := by simp [twinArrays]
  mem2 := by simp [twinArrays, twinBoom]
  mic1 := rfl
  mic2 := rfl
  chan1 := by decide
  chan2 := by decide
  types := by
    intro s hs hk
    simp only [twinArrays, List.mem_cons, List.not_mem_nil, or_false] at hs
    rcases hs with rfl | rfl | rfl | rfl | rfl
    · rcases hk with h | h <;> cases h
    · rcases hk with h | h <;> cases h
    · exact ⟨"ism", .inl rfl, ⟨rfl, rfl⟩, ⟨rfl, rfl⟩⟩
    · exact ⟨"ism", .inl rfl, ⟨rfl, rfl⟩, ⟨rfl, rfl⟩⟩
    · rcases hk with h | h <;> cases h
  place := fun _ _ => rfl

def twinPar : FxPar ℚ := ⟨1, 2, 2, 1, 1, 1, 1 / 100, 1 / 1000, .block⟩

def twinDiags {P : Type} : Except PyErr (List (Diag (DData ℚ P ℚ))) :=
  (mkRecordSignal ⟨5, 2, 4⟩ "rec" "error" none none 1 none).bind fun a =>
    (mkRecordSignal ⟨5, 2, 4⟩ "twin" "boom" none none 2 none).map fun b => [a, b]

theorem twinDiags_ok {P : Type} {ds : List (Diag (DData ℚ P ℚ))} (h : twinDiags = .ok ds) : (ds.map Diag.name).Nodup ∧
    (∃ d ∈ ds, mkRecordSignal ⟨5, 2, 4⟩ "rec" "error" none none 1 none = .ok d) ∧
    ∃ d ∈ ds, mkRecordSignal ⟨5, 2, 4⟩ "twin" "boom" none none 2 none = .ok d := by
  unfold twinDiags at h
  obtain ⟨a, ha, h⟩ := bind_ok h
  rw [show ∀ x : Except PyErr (Diag (DData ℚ P ℚ)), x.map (fun b => [a, b]) = x >>= fun b => .ok [a, b] from fun x => by cases x <;> rfl] at h
  obtain ⟨b, hb, h⟩ := bind_ok h
  cases h
  refine ⟨?_, ⟨a, by simp, ha⟩, ⟨b, by simp, hb⟩⟩
  have e1 := (mkRecordSignal_ok ha).1
  have e2 := (mkRecordSignal_ok hb).1
  simp [e1, e2]

def twinFx := ancSimulate { ancBase with B := 6, C := 4, tot := 5 } boxExt boxInfo 0 (planned 2 twinArrays exampleTypes "ism")
  (fun _ => 0) 1 2 2 (1 / 100) (1 / 1000) .block demoFilt fun _ => twinDiags

def twinFast := realSimulate { realBase 5 with B := 6, C := 4 } boxExt boxInfo 0 (planned 2 twinArrays exampleTypes "ism")
  (fun _ => 0) 1 2 (1 / 100) (1 / 1000) demoFilt fun _ => twinDiags

theorem twin_streams : ∀ a ∈ twinArrays, a.kind = some .free → ∃ x, IsStream ancBase.srcGet ((fun _ => 0 : String → Nat) a.name) a.num x := by
  intro a ha hk
  simp only [twinArrays, List.mem_cons, List.not_mem_nil, or_false] at ha
  rcases ha with rfl | rfl | rfl | rfl | rfl
  · cases hk
  · cases hk
  · cases hk
  · exact ⟨_, open_stream 0⟩
  · cases hk

theorem twin_own : ∀ a ∈ twinArrays, a.name ≠ "xf" := by
  intro a ha
  simp only [twinArrays, List.mem_cons, List.not_mem_nil, or_false] at ha
  rcases ha with rfl | rfl | rfl | rfl | rfl <;> simp [stillArr]

theorem twin_fx_scene : AncScene { ancBase with B := 6, C := 4, tot := 5 } boxExt boxInfo 2 twinArrays exampleTypes "ism" (fun _ => 0) twinPar :=
  ⟨twin_plan, rfl, rfl, ⟨stillArr "ref" .mic [(3, 1, 3)], by simp [twinArrays], rfl, rfl, rfl⟩,
    ⟨stillArr "error" .mic [(0, 1, 3)], by simp [twinArrays], rfl, rfl, rfl⟩,
    ⟨stillArr "loudspeaker" .ctrl [(1, 1, 3)], by simp [twinArrays], rfl, rfl, rfl⟩, twin_own, by decide, twin_streams, by decide, by decide,
    ⟨by decide, by decide⟩, ⟨by decide, .inl (by decide)⟩, ⟨by decide, by decide⟩, .inr (regular_pos (by norm_num [twinPar]))⟩

theorem twin_fast_scene : RealScene { realBase 5 with B := 6, C := 4 } boxExt boxInfo 2 twinArrays exampleTypes "ism" (fun _ => 0) twinPar :=
  ⟨twin_plan, rfl, rfl, ⟨stillArr "ref" .mic [(3, 1, 3)], by simp [twinArrays], rfl, rfl, rfl⟩,
    ⟨stillArr "error" .mic [(0, 1, 3)], by simp [twinArrays], rfl, rfl, rfl⟩,
    ⟨stillArr "loudspeaker" .ctrl [(1, 1, 3)], by simp [twinArrays], rfl, rfl, rfl⟩, twin_own, by decide, twin_streams, by decide, by decide,
    ⟨rfl, by decide⟩, rfl, ⟨by decide, .inl (by decide)⟩, ⟨by decide, by decide⟩, regular_pos (by norm_num [twinPar])⟩

/-- The simulation with `FxLMS` completes, and the second microphone of the pair records what the error microphone records. -/
example : ∃ fin, twinFx = .ok fin ∧ SameRecordings fin.diags 5 "rec" "error" 1 0 "twin" "boom" 2 1 := by
  have hok : twinFx.isOk = true := by decide +kernel
  cases h : twinFx with
  | error x => rw [h] at hok; cases hok
  | ok fin =>
    exact ⟨fin, rfl, (C194_fxlms (info := ⟨5, 2, 4⟩) (ex := none) twin_fx_scene twin_place (fun _ _ _ _ => rfl) h
      (fun c ds _ hd => (twinDiags_ok hd).1) rfl (by decide)).1 fun c ds _ hd => (twinDiags_ok hd).2⟩

example : ∃ fin, twinFast = .ok fin ∧ SameRecordings fin.diags 5 "rec" "error" 1 0 "twin" "boom" 2 1 := by
  have hok : twinFast.isOk = true := by decide +kernel
  cases h : twinFast with
  | error x => rw [h] at hok; cases hok
  | ok fin =>
    exact ⟨fin, rfl, (C194_fast (info := ⟨5, 2, 4⟩) (ex := none) twin_fast_scene twin_place (fun _ _ _ _ => rfl) h
      (fun c ds _ hd => (twinDiags_ok hd).1) rfl (by decide)).1 fun c ds _ hd => (twinDiags_ok hd).2⟩

end Verif

/-
C202: how the noise sources are grouped into arrays does not matter for adaptive noise control.
-/
import Verif.Props.Grouping
import Verif.Props.HeardFast
import Verif.Spec.SameNoise
namespace Verif

section
variable {R Pt G : Type} [Field R]

theorem ismLoop_state {rc : RirCfg R Pt G} {resp : Pt → Pt → List R}
    (hr : ∀ g ss ms, (rc.roomRir g ss ms).2 = ms.map fun m => ss.map fun s => resp s m) (src mic : Geo Pt) :
    ∀ (fuel done : Nat) (g1 g2 : G) (ir : Nat → Nat → List R),
      (ismLoop rc src mic fuel done g1 ir).map Prod.snd = (ismLoop rc src mic fuel done g2 ir).map Prod.snd := by
  intro fuel
  induction fuel with
  | zero =>
    intro done g1 g2 ir
    unfold ismLoop
    split <;> rfl
  | succ fuel ih =>
    intro done g1 g2 ir
    rw [ismLoop, ismLoop]
    split
    · rfl
    · dsimp only
      split
      · rfl
      · rw [hr g1, hr g2]
        split
        · rfl
        · exact ih _ _ _ _

/-- A created path does not depend on the random state. -/
theorem createPath_state {rc : RirCfg R Pt G} {resp : Pt → Pt → List R}
    (hr : ∀ g ss ms, (rc.roomRir g ss ms).2 = ms.map fun m => ss.map fun s => resp s m)
    {g1 g2 g1' g2' : G} {src mic : Geo Pt} {ty : String} (hty : ty = "ism" ∨ ty = "none") {x1 x2 : IrMat R}
    (h1 : createPath rc g1 src mic ty = .ok (g1', x1)) (h2 : createPath rc g2 src mic ty = .ok (g2', x2)) : x1 = x2 := by
  have key : ∀ {a b : G × IrMat R} {y1 y2 : G × IrMat R}, a.2 = b.2 →
      (if rc.highpass then (a.1, { a.2 with ir := fun i j => filterRow rc.pad rc.sos (a.2.ir i j) }) else a) = y1 →
      (if rc.highpass then (b.1, { b.2 with ir := fun i j => filterRow rc.pad rc.sos (b.2.ir i j) }) else b) = y2 →
      y1.2 = y2.2 := by
    intro a b y1 y2 hab e1 e2
    subst e1 e2
    split
    · dsimp only; rw [hab]
    · exact hab
  unfold createPath at h1 h2
  rcases hty with rfl | rfl
  · simp only [String.reduceEq, if_false, if_true] at h1 h2
    split at h1
    · rename_i hdim
      rw [if_pos hdim] at h2
      split at h1
      · cases h1
      · rename_i a ha
        split at h2
        · cases h2
        · rename_i b hb
          refine key ?_ (Except.ok.inj h1) (Except.ok.inj h2)
          have hs := ismLoop_state hr src mic mic.pos.length 0 g1 g2 fun _ _ => List.replicate rc.irLen 0
          unfold ismPath at ha hb
          split at ha
          · cases ha
          · rename_i e1
            split at hb
            · cases hb
            · rename_i e2
              rw [e1, e2] at hs
              cases ha
              cases hb
              have := Except.ok.inj hs
              dsimp only at this ⊢
              rw [this]
    · cases h1
  · simp only [if_true] at h1 h2
    exact key (a := (g1, ⟨src.num, mic.num, fun _ _ => [0]⟩)) (b := (g2, ⟨src.num, mic.num, fun _ _ => [0]⟩)) rfl
      (Except.ok.inj h1) (Except.ok.inj h2)

end

section
variable {R S P D O Pt G : Type} [Field R] {cfg : SimCfg R (IrMat R) (Fir R) S (G × Coll Pt (IrMat R)) P D O}
  {rc : RirCfg R Pt G} {c c0 : Coll Pt (IrMat R)} {g g0 : G}

theorem InRoom.info (h : InRoom cfg rc c g c0 g0) : ∀ s ∈ cfg.arrays, ∃ a ∈ c.arrays, a.kind = some s.kind ∧ a.name = s.name ∧
    a.num = s.num ∧ a.dynamic = s.dynamic := by
  intro s hs
  rw [h.arrays] at hs
  obtain ⟨a, ha, he⟩ := List.mem_filterMap.1 hs
  rcases hka : a.kind with _ | kk
  · rw [hka] at he; cases he
  · rw [hka] at he; cases he; exact ⟨a, ha, hka, rfl, rfl, rfl⟩

theorem InRoom.mem (h : InRoom cfg rc c g c0 g0) {a : Arr Pt} (ha : a ∈ c.arrays) {kk : ArrKind} (hk : a.kind = some kk) :
    (⟨a.name, a.num, kk, a.dynamic⟩ : ArrInfo) ∈ cfg.arrays := by
  rw [h.arrays]
  exact List.mem_filterMap.2 ⟨a, ha, by rw [hk]; rfl⟩

theorem InRoom.same (h : InRoom cfg rc c g c0 g0) : c0.arrays = c.arrays ∧ c0.freq = c.freq ∧ c0.Consistent := by
  obtain ⟨e0, -, -⟩ := setupIr_spec h.cons.names h.init h.setup
  rw [e0]
  exact ⟨rfl, rfl, h.cons.with _ _⟩

theorem InRoom.after (h : InRoom cfg rc c g c0 g0) (n : Nat) :
    cfg.arrAfter (g0, c0) n = Coll.after (createPath rc) (g0, c0) n := by
  induction n with
  | zero => rfl
  | succ n ih =>
    unfold SimCfg.arrAfter Coll.after
    rw [ih, h.upd]
    cases Coll.after (createPath rc) (g0, c0) n <;> rfl

theorem InRoom.get (h : InRoom cfg rc c g c0 g0) {gc : G × Coll Pt (IrMat R)} {s m : String} {x : IrMat R}
    (hx : cfg.arrPath gc s m = .ok x) : gc.2.paths s m = some x := by
  rw [h.path] at hx
  unfold Coll.path at hx
  split at hx
  · cases hx
  · rename_i y hy
    cases hx
    exact hy

theorem InRoom.shape (h : InRoom cfg rc c g c0 g0) (hl : rc.Lawful) : cfg.PathShape (g0, c0) := by
  obtain ⟨ha0, -, hc0⟩ := h.same
  refine coll_shape hc0 (by rw [ha0]; exact h.sized) h.fit (fun g a b t g' x he h1 h2 =>
    let hs := createPath_shaped (fun _ => hl) h1 h2 he
    ⟨hs.1, hs.2.1⟩) h.after (by rw [ha0]; exact h.info) h.get

/-- The impulse response in force is created from the places at the last update. -/
theorem InRoom.created (h : InRoom cfg rc c g c0 g0) {m s : Arr Pt} (hm : m ∈ c.arrays) (hmic : m.kind = some .mic)
    (hs : s ∈ c.arrays) {ks : ArrKind} (hks : s.kind = some ks) (hsk : ks ≠ .mic) {ty : String} (hor : ty = "ism" ∨ ty = "none")
    (htype : c.types s.name m.name = some ty) {t : Nat} {x : IrMat R}
    (hx : cfg.IrAt (g0, c0) ⟨s.name, s.num, ks, s.dynamic⟩ ⟨m.name, m.num, .mic, m.dynamic⟩ t x) :
    ∃ g g', createPath rc g (s.geoAt (c.freq * ((t - 1) / c.freq))) (m.geoAt (c.freq * ((t - 1) / c.freq))) ty = .ok (g', x) := by
  obtain ⟨ha0, hf0, hc0⟩ := h.same
  have hsk' : s.kind ≠ some .mic := by rw [hks]; simpa using hsk
  classical
  refine ir_created h.setup h.cons h.pos h.init hm hmic hs hsk' hor htype ?_
  have hs0 : s ∈ c0.arrays := by rw [ha0]; exact hs
  have hm0 : m ∈ c0.arrays := by rw [ha0]; exact hm
  have hss : s.name ∈ c0.srcs := hc0.mem_srcs.2 ⟨s, hs0, by rw [hks]; cases ks <;> simp_all, rfl⟩
  have hmm : m.name ∈ c0.mics := hc0.mem_mics.2 ⟨m, hm0, hmic, rfl⟩
  cases t with
  | zero =>
    rw [if_neg (by omega)]
    exact h.get hx
  | succ n =>
    dsimp only [SimCfg.IrAt] at hx
    split at hx
    · rename_i hd
      rw [if_pos ⟨hd, by omega⟩]
      obtain ⟨gc, q1, q2⟩ := hx
      rw [h.after] at q1
      have hinv := after_spec hc0 (n + 1) (g' := gc.1) (c' := gc.2) q1
      have hmv : c0.Moving s.name m.name := by
        rcases hd with hd | hd
        · exact ⟨s, hs0, hd, .inl rfl⟩
        · exact ⟨m, hm0, hd, .inr rfl⟩
      obtain ⟨y, hy1, hy2⟩ := hinv.gen s.name m.name hss hmm hmv (by omega)
      have := h.get q2
      rw [hy1] at this
      rw [← Option.some.inj this]
      exact hy2
    · rename_i hd
      rw [if_neg fun hh => hd hh.1]
      exact h.get hx

/-- What a microphone hears of the noise is the sum of the single loudspeakers. -/
theorem noise_speakers (h : InRoom cfg rc c g c0 g0) (hl : rc.Lawful) {resp : Pt → Pt → List R}
    (hr : ∀ g ss ms, (rc.roomRir g ss ms).2 = ms.map fun m => ss.map fun s => resp s m) (hd : rc.minDly = 0)
    {m : Arr Pt} (hm : m ∈ c.arrays) (hmic : m.kind = some .mic)
    (hty : ∀ s ∈ c.arrays, s.kind = some .free → c.types s.name m.name = some "ism" ∨ c.types s.name m.name = some "none")
    {x : String → Nat → Nat → R} {j : Nat} (hj : j < m.num) {t : Int} {ir : String → IrMat R}
    (hir : ∀ s ∈ cfg.arrays, s.kind ≠ .mic → cfg.IrAt (g0, c0) s ⟨m.name, m.num, .mic, m.dynamic⟩ t.toNat (ir s.name)) :
    cfg.NoiseAt (g0, c0) x ⟨m.name, m.num, .mic, m.dynamic⟩ j t ((c.speakers m.name x).map fun s =>
      heard (if cfg.warm then cfg.B else 1) (rc.between resp s.1 (s.2.1 (c.freq * ((t.toNat - 1) / c.freq)))
        (m.geoAt (c.freq * ((t.toNat - 1) / c.freq))).pos[j]?) s.2.2 t).sum := by
  refine ⟨ir, fun s hs hf => hir s hs (by rw [hf]; decide), ?_⟩
  have hrow : ∀ s ∈ c.arrays, s.kind = some .free → ∀ (i : Nat) (r : Int), cfg.played x s.name i r =
      if -((if cfg.warm then cfg.B else 1 : Nat) : Int) < r then
        x s.name i (r + (if cfg.warm then cfg.B else 1 : Nat) - 1).toNat else 0 := by
    intro s hs hf i r
    unfold SimCfg.played
    congr 1
    rw [eq_iff_iff]
    exact ⟨fun h => h.2, fun h' => ⟨⟨_, h.mem hs hf, rfl, rfl⟩, h'⟩⟩
  unfold convSum Coll.speakers
  rw [List.map_flatMap, List.flatMap_def, List.sum_flatten, List.map_map, h.arrays]
  unfold Coll.infos
  generalize (if cfg.warm = true then cfg.B else 1) = d at hrow ⊢
  generalize hT : t.toNat = T at hir ⊢
  have hgo : ∀ l : List (Arr Pt), (∀ a ∈ l, a ∈ c.arrays) →
      (((l.filter fun a => decide (a.kind = some .free)).map fun s =>
        (((List.range s.num).map fun i => (c.types s.name m.name, (fun u => (s.geoAt u).pos[i]?), x s.name i)).map fun s =>
          heard d (rc.between resp s.1 (s.2.1 (c.freq * ((T - 1) / c.freq)))
            (m.geoAt (c.freq * ((T - 1) / c.freq))).pos[j]?) s.2.2 t).sum).sum =
      (((l.filterMap fun a => a.kind.map fun k => (⟨a.name, a.num, k, a.dynamic⟩ : ArrInfo)).filter fun s => s.kind == .free).map fun s =>
        ((List.range s.num).map fun i => ((List.range ((ir s.name).ir i j).length).map fun (k : Nat) =>
          ((ir s.name).ir i j).getD k 0 * cfg.played x s.name i (t - k)).sum).sum).sum) := by
    intro l
    induction l with
    | nil => intro _; rfl
    | cons a l ih =>
      intro hall
      have ha := hall a List.mem_cons_self
      have ih' := ih fun b hb => hall b (List.mem_cons_of_mem _ hb)
      obtain ⟨kk, hkk⟩ := Option.ne_none_iff_exists'.1 (h.cons.kinds a ha)
      rw [List.filterMap_cons, hkk]
      simp only [Option.map_some]
      rw [List.filter_cons, List.filter_cons, hkk]
      cases kk with
      | mic => simpa using ih'
      | ctrl => simpa using ih'
      | free =>
        rw [if_pos (by simp), if_pos (by rfl), List.map_cons, List.map_cons, List.sum_cons, List.sum_cons, ih']
        congr 1
        rw [List.map_map]
        congr 1
        refine List.map_congr_left fun i hin => ?_
        have hin := List.mem_range.1 hin
        obtain ⟨ty, hor, htyp⟩ : ∃ ty, (ty = "ism" ∨ ty = "none") ∧ c.types a.name m.name = some ty := by
          rcases hty a ha hkk with h1 | h1
          · exact ⟨_, .inl rfl, h1⟩
          · exact ⟨_, .inr rfl, h1⟩
        obtain ⟨ga, ga', r1⟩ := h.created hm hmic ha hkk (by decide) hor htyp (hir _ (h.mem ha hkk) (by simp))
        have hb := createPath_between hl hr hd hor r1 (i := i) (j := j) (by rw [h.sized a ha]; exact hin) (by rw [h.sized m hm]; exact hj)
        dsimp only [Function.comp]
        rw [htyp, ← hb]
        unfold heard
        congr 1
        refine List.map_congr_left fun n _ => ?_
        rw [hrow a ha hkk i _]
  exact hgo c.arrays fun a ha => ha

end

section
variable {R S P D O S' P' D' O' Pt G : Type} [Field R]
  {cfg : SimCfg R (IrMat R) (Fir R) S (G × Coll Pt (IrMat R)) P D O}
  {cfg' : SimCfg R (IrMat R) (Fir R) S' (G × Coll Pt (IrMat R)) P' D' O'}
  {rc : RirCfg R Pt G} {c c0 c' c0' : Coll Pt (IrMat R)} {g g0 g' g0' : G}

theorem SameNoise.same_heard {x x' : String → Nat → Nat → R} {m m' : Arr Pt} (hS : SameNoise c c' x x' m m')
    (h : InRoom cfg rc c g c0 g0) (h' : InRoom cfg' rc c' g' c0' g0') (hl : rc.Lawful) {resp : Pt → Pt → List R}
    (hr : ∀ g ss ms, (rc.roomRir g ss ms).2 = ms.map fun m => ss.map fun s => resp s m) (hd : rc.minDly = 0)
    (hfreq : c'.freq = c.freq) (hB : cfg'.B = cfg.B) (hw : cfg'.warm = cfg.warm)
    (hctrl : ∀ l ∈ cfg.arrays, l.name = "loudspeaker" → l.kind = .ctrl) (hctrl' : ∀ l ∈ cfg'.arrays, l.name = "loudspeaker" → l.kind = .ctrl)
    (hm : m ∈ c.arrays) (hmic : m.kind = some .mic) (hm' : m' ∈ c'.arrays) (hmic' : m'.kind = some .mic) {k : Nat}
    (hir : ∀ t ≤ k, ∃ ir : String → IrMat R, ∀ s ∈ cfg.arrays, s.kind ≠ .mic →
      cfg.IrAt (g0, c0) s ⟨m.name, m.num, .mic, m.dynamic⟩ t (ir s.name))
    (hir' : ∀ t ≤ k, ∃ ir : String → IrMat R, ∀ s ∈ cfg'.arrays, s.kind ≠ .mic →
      cfg'.IrAt (g0', c0') s ⟨m'.name, m'.num, .mic, m'.dynamic⟩ t (ir s.name)) :
    SameHeard cfg (g0, c0) x cfg' (g0', c0') x' ⟨m.name, m.num, .mic, m.dynamic⟩ ⟨m'.name, m'.num, .mic, m'.dynamic⟩ k := by
  have hnum : m'.num = m.num := congrArg Geo.num (hS.place 0 (Nat.dvd_zero _))
  refine ⟨hnum, ?_, ?_⟩
  · intro t ht j hj
    obtain ⟨ir, i1⟩ := hir t.toNat (by omega)
    obtain ⟨ir', i1'⟩ := hir' t.toNat (by omega)
    have v1 := noise_speakers h hl hr hd hm hmic hS.types (x := x) hj i1
    have v2 := noise_speakers h' hl hr hd hm' hmic' hS.types' (x := x') (j := j) (by rw [hnum]; exact hj) i1'
    refine ⟨_, v1, ?_⟩
    have hdvd := Nat.dvd_mul_right c.freq ((t.toNat - 1) / c.freq)
    rw [hB, hw, hfreq, hS.place _ hdvd] at v2
    have e := ((hS.noise _ hdvd).map fun s => heard (if cfg.warm then cfg.B else 1)
      (rc.between resp s.1 s.2.1 (m.geoAt (c.freq * ((t.toNat - 1) / c.freq))).pos[j]?) s.2.2 t).sum_eq
    rw [List.map_map, List.map_map] at e
    have v2 : cfg'.NoiseAt (g0', c0') x' _ j t _ := v2
    exact e ▸ v2
  · intro l hll l' hll' hn hn' t ht
    obtain ⟨ir, i1⟩ := hir t ht
    obtain ⟨ir', i1'⟩ := hir' t ht
    have k1 := hctrl l hll hn
    have k1' := hctrl' l' hll' hn'
    obtain ⟨a, ha, a1, a2, a3, a4⟩ := h.info l hll
    obtain ⟨a', ha', b1, b2, b3, b4⟩ := h'.info l' hll'
    obtain ⟨p1, p2, p3⟩ := hS.control a ha a' ha' (a2.trans hn) (b2.trans hn')
    obtain ⟨ty, hor, htyp⟩ : ∃ ty, (ty = "ism" ∨ ty = "none") ∧ c.types a.name m.name = some ty := by
      rcases p3 with h1 | h1
      · exact ⟨_, .inl rfl, h1⟩
      · exact ⟨_, .inr rfl, h1⟩
    have e1 := i1 l hll (by rw [k1]; decide)
    have e2 := i1' l' hll' (by rw [k1']; decide)
    have f1 : l = ⟨a.name, a.num, .ctrl, a.dynamic⟩ := by
      cases l; dsimp only at a2 a3 a4 k1; rw [a2, a3, a4, k1]
    have f2 : l' = ⟨a'.name, a'.num, .ctrl, a'.dynamic⟩ := by
      cases l'; dsimp only at b2 b3 b4 k1'; rw [b2, b3, b4, k1']
    obtain ⟨_, _, r1⟩ := h.created hm hmic ha (by rw [a1, k1]) (by decide) hor htyp (x := ir l.name) (t := t) (by rw [← f1]; exact e1)
    obtain ⟨_, _, r2⟩ := h'.created hm' hmic' ha' (by rw [b1, k1']) (by decide) hor (p2.trans htyp) (x := ir' l'.name) (t := t)
      (by rw [← f2]; exact e2)
    have hdvd := Nat.dvd_mul_right c.freq ((t - 1) / c.freq)
    rw [hfreq, p1 _ hdvd, hS.place _ hdvd] at r2
    have hxy := createPath_state hr hor r1 r2
    refine ⟨_, e1, ?_⟩
    rw [hxy]
    exact e2

end

section
variable {R S D O S' D' O' Pt G : Type} [Field R]
  {cfg : SimCfg R (IrMat R) (Fir R) S (G × Coll Pt (IrMat R)) (FxSt R) D O}
  {cfg' : SimCfg R (IrMat R) (Fir R) S' (G × Coll Pt (IrMat R)) (FxSt R) D' O'} {q : FxPar R} {Sp : IrMat R}
  {rc : RirCfg R Pt G} {c c0 c' c0' : Coll Pt (IrMat R)} {g g0 g' g0' : G}
  {srcs : String → S} {srcs' : String → S'} {f0 f0' : Fir R} {ds : List (Diag D)} {ds' : List (Diag D')}
  {st0 st : SimSt R (Fir R) S (G × Coll Pt (IrMat R)) (FxSt R) D O}
  {st0' st' : SimSt R (Fir R) S' (G × Coll Pt (IrMat R)) (FxSt R) D' O'} {k : Nat}

/-- **C202** Two simulations with `FxLMS` in the same room, in which the same single noise loudspeakers play the same
signals at the same places, whatever arrays they belong to, whatever these are called and in whatever order they are
listed.  The reference and error microphones and the loudspeakers of the processor are at the same places.  Then the
loudspeakers play the same, microphone arrays at the same places record the same and the control filters have the same
taps. -/
theorem C202_grouping (h : FxScene cfg q) (h' : FxScene cfg' q)
    (hR : InRoom cfg rc c g c0 g0) (hR' : InRoom cfg' rc c' g' c0' g0') (hl : rc.Lawful) {resp : Pt → Pt → List R}
    (hr : ∀ g ss ms, (rc.roomRir g ss ms).2 = ms.map fun m => ss.map fun s => resp s m) (hd : rc.minDly = 0)
    (hi : cfg.initWith fxPrepare srcs (g0, c0) (fxInit q Sp) f0 ds = .ok st0)
    (hi' : cfg'.initWith fxPrepare srcs' (g0', c0') (fxInit q Sp) f0' ds' = .ok st0')
    (hk : cfg.steps k st0 = .ok st) (hk' : cfg'.steps k st0' = .ok st')
    (hfilt : cfg.filt = firOps R) (hfilt' : cfg'.filt = firOps R) {x x' : String → Nat → Nat → R}
    (hx : ∀ a ∈ c.arrays, a.kind = some .free → IsStream cfg.srcGet (srcs a.name) a.num (x a.name))
    (hx' : ∀ a ∈ c'.arrays, a.kind = some .free → IsStream cfg'.srcGet (srcs' a.name) a.num (x' a.name))
    (hfreq : c'.freq = c.freq) (hB : cfg'.B = cfg.B) (hw : cfg'.warm = cfg.warm)
    (hsame : ∀ m ∈ c.arrays, ∀ m' ∈ c'.arrays, m'.name = m.name → m.name ∈ ["ref", "error"] → SameNoise c c' x x' m m') :
    (∀ t ≤ k, ∀ l < q.nl, ∃ v, cfg.Produced st0 "loudspeaker" l t v ∧ cfg'.Produced st0' "loudspeaker" l t v) ∧
    (∀ m ∈ c.arrays, ∀ m' ∈ c'.arrays, m.kind = some .mic → m'.kind = some .mic → SameNoise c c' x x' m m' →
      ∀ t ≤ k, ∀ j < m.num, ∃ v, cfg.Produced st0 m.name j t v ∧ cfg'.Produced st0' m'.name j t v) ∧
    ∀ r < q.nr, ∀ l < q.nl, st'.eng.proc.ctrl.mat.ir r l = st.eng.proc.ctrl.mat.ir r l := by
  obtain ⟨ρ, e, hρ, he⟩ := fx_recorded h hi hk
  obtain ⟨ρ', e', hρ', he'⟩ := fx_recorded h' hi' hk'
  have hsh := hR.shape hl
  have hsh' := hR'.shape hl
  have hp : ∀ a ∈ cfg.arrays, 0 < a.num := by
    intro s hs
    obtain ⟨a, ha, -, -, k3, -⟩ := hR.info s hs
    rw [← k3]
    exact hR.pos a ha
  have hp' : ∀ a ∈ cfg'.arrays, 0 < a.num := by
    intro s hs
    obtain ⟨a, ha, -, -, k3, -⟩ := hR'.info s hs
    rw [← k3]
    exact hR'.pos a ha
  have hy : ∀ b ∈ cfg.arrays, b.kind = .free → IsStream cfg.srcGet (srcs b.name) b.num (x b.name) := by
    intro s hs hf
    obtain ⟨a, ha, k1, k2, k3, -⟩ := hR.info s hs
    rw [← k2, ← k3]
    exact hx a ha (by rw [k1, hf])
  have hy' : ∀ b ∈ cfg'.arrays, b.kind = .free → IsStream cfg'.srcGet (srcs' b.name) b.num (x' b.name) := by
    intro s hs hf
    obtain ⟨a, ha, k1, k2, k3, -⟩ := hR'.info s hs
    rw [← k2, ← k3]
    exact hx' a ha (by rw [k1, hf])
  have hone : ∀ {m n : Arr Pt} {b b' : ArrInfo}, m ∈ c.arrays → n ∈ c.arrays → m.kind = some b.kind → n.kind = some b'.kind →
      m.name = n.name → b.kind = b'.kind := by
    intro m n b b' h1 h2 h3 h4 h5
    rw [hR.cons.inj h1 h2 h5, h4] at h3
    exact (Option.some.inj h3).symm
  have hone' : ∀ {m n : Arr Pt} {b b' : ArrInfo}, m ∈ c'.arrays → n ∈ c'.arrays → m.kind = some b.kind → n.kind = some b'.kind →
      m.name = n.name → b.kind = b'.kind := by
    intro m n b b' h1 h2 h3 h4 h5
    rw [hR'.cons.inj h1 h2 h5, h4] at h3
    exact (Option.some.inj h3).symm
  have hname : ∀ {b b' : ArrInfo}, b ∈ cfg.arrays → b' ∈ cfg.arrays → b.name = b'.name → b.kind = b'.kind := by
    intro b b' hb hb' hn
    obtain ⟨a, ha, k1, k2, -, -⟩ := hR.info b hb
    obtain ⟨a', ha', j1, j2, -, -⟩ := hR.info b' hb'
    exact hone ha ha' k1 j1 (by rw [k2, j2, hn])
  have hname' : ∀ {b b' : ArrInfo}, b ∈ cfg'.arrays → b' ∈ cfg'.arrays → b.name = b'.name → b.kind = b'.kind := by
    intro b b' hb hb' hn
    obtain ⟨a, ha, k1, k2, -, -⟩ := hR'.info b hb
    obtain ⟨a', ha', j1, j2, -, -⟩ := hR'.info b' hb'
    exact hone' ha ha' k1 j1 (by rw [k2, j2, hn])
  have hctrl : ∀ l ∈ cfg.arrays, l.name = "loudspeaker" → l.kind = .ctrl := by
    intro l hll hn
    obtain ⟨b, hb, hbn, hbk, -⟩ := h.ls
    rw [hname hll hb (by rw [hn, hbn]), hbk]
  have hctrl' : ∀ l ∈ cfg'.arrays, l.name = "loudspeaker" → l.kind = .ctrl := by
    intro l hll hn
    obtain ⟨b, hb, hbn, hbk, -⟩ := h'.ls
    rw [hname' hll hb (by rw [hn, hbn]), hbk]
  have hmics : ∀ b ∈ cfg.arrays, b.name ∈ ["ref", "error"] → b.kind = .mic := by
    intro b hb hn
    simp only [List.mem_cons, List.not_mem_nil, or_false] at hn
    rcases hn with hn | hn
    · obtain ⟨d, hd, hdn, hdk, -⟩ := h.ref
      rw [hname hb hd (by rw [hn, hdn]), hdk]
    · obtain ⟨d, hd, hdn, hdk, -⟩ := h.err
      rw [hname hb hd (by rw [hn, hdn]), hdk]
  have hmics' : ∀ b ∈ cfg'.arrays, b.name ∈ ["ref", "error"] → b.kind = .mic := by
    intro b hb hn
    simp only [List.mem_cons, List.not_mem_nil, or_false] at hn
    rcases hn with hn | hn
    · obtain ⟨d, hd, hdn, hdk, -⟩ := h'.ref
      rw [hname' hb hd (by rw [hn, hdn]), hdk]
    · obtain ⟨d, hd, hdn, hdk, -⟩ := h'.err
      rw [hname' hb hd (by rw [hn, hdn]), hdk]
  have heard : ∀ m ∈ c.arrays, ∀ m' ∈ c'.arrays, m.kind = some .mic → m'.kind = some .mic → SameNoise c c' x x' m m' →
      SameHeard cfg (g0, c0) x cfg' (g0', c0') x' ⟨m.name, m.num, .mic, m.dynamic⟩ ⟨m'.name, m'.num, .mic, m'.dynamic⟩ k := by
    intro m hm m' hm' hmk hmk' hS
    refine hS.same_heard hR hR' hl hr hd hfreq hB hw hctrl hctrl' hm hmk hm' hmk' (fun t ht => ?_) fun t ht => ?_
    · obtain ⟨ir, i1, -⟩ := C148_closed_loop h hi hk hfilt hp hsh hy hρ he (hR.mem hm hmk) rfl t ht
      exact ⟨ir, i1⟩
    · obtain ⟨ir, i1, -⟩ := C148_closed_loop h' hi' hk' hfilt' hp' hsh' hy' hρ' he' (hR'.mem hm' hmk') rfl t ht
      exact ⟨ir, i1⟩
  have form : ∀ {b : ArrInfo} {a : Arr Pt}, a.name = b.name → a.num = b.num → a.dynamic = b.dynamic → b.kind = .mic →
      (⟨a.name, a.num, .mic, a.dynamic⟩ : ArrInfo) = b := by
    intro b a h1 h2 h3 h4
    cases b
    dsimp only at h1 h2 h3 h4
    rw [h1, h2, h3, h4]
  obtain ⟨r1, r2, r3⟩ := C200_heard h h' hi hi' hk hk' hfilt hfilt' hp hp' hsh hsh' hy hy' hB hw (by
    intro b hb b' hb' hn hnm
    obtain ⟨a, ha, k1, k2, k3, k4⟩ := hR.info b hb
    obtain ⟨a', ha', j1, j2, j3, j4⟩ := hR'.info b' hb'
    have m1 := hmics b hb hnm
    have m2 := hmics' b' hb' (by rw [hn]; exact hnm)
    rw [m1] at k1
    rw [m2] at j1
    have := heard a ha a' ha' k1 j1 (hsame a ha a' ha' (by rw [k2, j2, hn]) (by rw [k2]; exact hnm))
    rwa [form k2 k3 k4 m1, form j2 j3 j4 m2] at this)
  refine ⟨r1, ?_, r3⟩
  intro m hm m' hm' hmk hmk' hS
  exact r2 _ (hR.mem hm hmk) _ (hR'.mem hm' hmk') rfl rfl (heard m hm m' hm' hmk hmk' hS)

end

section
variable {R S D O S' D' O' Pt G : Type} [Field R]
  {cfg : SimCfg R (IrMat R) (Fir R) S (G × Coll Pt (IrMat R)) (FastSt R) D O}
  {cfg' : SimCfg R (IrMat R) (Fir R) S' (G × Coll Pt (IrMat R)) (FastSt R) D' O'} {q : FxPar R} {Sp : IrMat R}
  {rc : RirCfg R Pt G} {c c0 c' c0' : Coll Pt (IrMat R)} {g g0 g' g0' : G}
  {srcs : String → S} {srcs' : String → S'} {f0 f0' : Fir R} {ds : List (Diag D)} {ds' : List (Diag D')}
  {st0 st : SimSt R (Fir R) S (G × Coll Pt (IrMat R)) (FastSt R) D O}
  {st0' st' : SimSt R (Fir R) S' (G × Coll Pt (IrMat R)) (FastSt R) D' O'} {k : Nat}

/-- **C202** The same for `FastBlockFxLMS`. -/
theorem C202_grouping_fast (h : FastScene cfg q) (h' : FastScene cfg' q)
    (hR : InRoom cfg rc c g c0 g0) (hR' : InRoom cfg' rc c' g' c0' g0') (hl : rc.Lawful) {resp : Pt → Pt → List R}
    (hr : ∀ g ss ms, (rc.roomRir g ss ms).2 = ms.map fun m => ss.map fun s => resp s m) (hd : rc.minDly = 0)
    (hi : cfg.initWith (fastPrepare q) srcs (g0, c0) (fastInit q Sp) f0 ds = .ok st0)
    (hi' : cfg'.initWith (fastPrepare q) srcs' (g0', c0') (fastInit q Sp) f0' ds' = .ok st0')
    (hk : cfg.steps k st0 = .ok st) (hk' : cfg'.steps k st0' = .ok st')
    (hfilt : cfg.filt = firOps R) (hfilt' : cfg'.filt = firOps R) {x x' : String → Nat → Nat → R}
    (hx : ∀ a ∈ c.arrays, a.kind = some .free → IsStream cfg.srcGet (srcs a.name) a.num (x a.name))
    (hx' : ∀ a ∈ c'.arrays, a.kind = some .free → IsStream cfg'.srcGet (srcs' a.name) a.num (x' a.name))
    (hfreq : c'.freq = c.freq) (hB : cfg'.B = cfg.B) (hw : cfg'.warm = cfg.warm)
    (hsame : ∀ m ∈ c.arrays, ∀ m' ∈ c'.arrays, m'.name = m.name → m.name ∈ ["ref", "error"] → SameNoise c c' x x' m m') :
    (∀ t ≤ k, ∀ l < q.nl, ∃ v, cfg.Produced st0 "loudspeaker" l t v ∧ cfg'.Produced st0' "loudspeaker" l t v) ∧
    (∀ m ∈ c.arrays, ∀ m' ∈ c'.arrays, m.kind = some .mic → m'.kind = some .mic → SameNoise c c' x x' m m' →
      ∀ t ≤ k, ∀ j < m.num, ∃ v, cfg.Produced st0 m.name j t v ∧ cfg'.Produced st0' m'.name j t v) ∧
    ∀ r < q.nr, ∀ l < q.nl, st'.eng.proc.ctrl.mat.ir r l = st.eng.proc.ctrl.mat.ir r l := by
  obtain ⟨ρ, e, hρ, he⟩ := fast_recorded h hi hk
  obtain ⟨ρ', e', hρ', he'⟩ := fast_recorded h' hi' hk'
  have hsh := hR.shape hl
  have hsh' := hR'.shape hl
  have hp : ∀ a ∈ cfg.arrays, 0 < a.num := by
    intro s hs
    obtain ⟨a, ha, -, -, k3, -⟩ := hR.info s hs
    rw [← k3]
    exact hR.pos a ha
  have hp' : ∀ a ∈ cfg'.arrays, 0 < a.num := by
    intro s hs
    obtain ⟨a, ha, -, -, k3, -⟩ := hR'.info s hs
    rw [← k3]
    exact hR'.pos a ha
  have hy : ∀ b ∈ cfg.arrays, b.kind = .free → IsStream cfg.srcGet (srcs b.name) b.num (x b.name) := by
    intro s hs hf
    obtain ⟨a, ha, k1, k2, k3, -⟩ := hR.info s hs
    rw [← k2, ← k3]
    exact hx a ha (by rw [k1, hf])
  have hy' : ∀ b ∈ cfg'.arrays, b.kind = .free → IsStream cfg'.srcGet (srcs' b.name) b.num (x' b.name) := by
    intro s hs hf
    obtain ⟨a, ha, k1, k2, k3, -⟩ := hR'.info s hs
    rw [← k2, ← k3]
    exact hx' a ha (by rw [k1, hf])
  have hone : ∀ {m n : Arr Pt} {b b' : ArrInfo}, m ∈ c.arrays → n ∈ c.arrays → m.kind = some b.kind → n.kind = some b'.kind →
      m.name = n.name → b.kind = b'.kind := by
    intro m n b b' h1 h2 h3 h4 h5
    rw [hR.cons.inj h1 h2 h5, h4] at h3
    exact (Option.some.inj h3).symm
  have hone' : ∀ {m n : Arr Pt} {b b' : ArrInfo}, m ∈ c'.arrays → n ∈ c'.arrays → m.kind = some b.kind → n.kind = some b'.kind →
      m.name = n.name → b.kind = b'.kind := by
    intro m n b b' h1 h2 h3 h4 h5
    rw [hR'.cons.inj h1 h2 h5, h4] at h3
    exact (Option.some.inj h3).symm
  have hname : ∀ {b b' : ArrInfo}, b ∈ cfg.arrays → b' ∈ cfg.arrays → b.name = b'.name → b.kind = b'.kind := by
    intro b b' hb hb' hn
    obtain ⟨a, ha, k1, k2, -, -⟩ := hR.info b hb
    obtain ⟨a', ha', j1, j2, -, -⟩ := hR.info b' hb'
    exact hone ha ha' k1 j1 (by rw [k2, j2, hn])
  have hname' : ∀ {b b' : ArrInfo}, b ∈ cfg'.arrays → b' ∈ cfg'.arrays → b.name = b'.name → b.kind = b'.kind := by
    intro b b' hb hb' hn
    obtain ⟨a, ha, k1, k2, -, -⟩ := hR'.info b hb
    obtain ⟨a', ha', j1, j2, -, -⟩ := hR'.info b' hb'
    exact hone' ha ha' k1 j1 (by rw [k2, j2, hn])
  have hctrl : ∀ l ∈ cfg.arrays, l.name = "loudspeaker" → l.kind = .ctrl := by
    intro l hll hn
    obtain ⟨b, hb, hbn, hbk, -⟩ := h.ls
    rw [hname hll hb (by rw [hn, hbn]), hbk]
  have hctrl' : ∀ l ∈ cfg'.arrays, l.name = "loudspeaker" → l.kind = .ctrl := by
    intro l hll hn
    obtain ⟨b, hb, hbn, hbk, -⟩ := h'.ls
    rw [hname' hll hb (by rw [hn, hbn]), hbk]
  have hmics : ∀ b ∈ cfg.arrays, b.name ∈ ["ref", "error"] → b.kind = .mic := by
    intro b hb hn
    simp only [List.mem_cons, List.not_mem_nil, or_false] at hn
    rcases hn with hn | hn
    · obtain ⟨d, hd, hdn, hdk, -⟩ := h.ref
      rw [hname hb hd (by rw [hn, hdn]), hdk]
    · obtain ⟨d, hd, hdn, hdk, -⟩ := h.err
      rw [hname hb hd (by rw [hn, hdn]), hdk]
  have hmics' : ∀ b ∈ cfg'.arrays, b.name ∈ ["ref", "error"] → b.kind = .mic := by
    intro b hb hn
    simp only [List.mem_cons, List.not_mem_nil, or_false] at hn
    rcases hn with hn | hn
    · obtain ⟨d, hd, hdn, hdk, -⟩ := h'.ref
      rw [hname' hb hd (by rw [hn, hdn]), hdk]
    · obtain ⟨d, hd, hdn, hdk, -⟩ := h'.err
      rw [hname' hb hd (by rw [hn, hdn]), hdk]
  have heard : ∀ m ∈ c.arrays, ∀ m' ∈ c'.arrays, m.kind = some .mic → m'.kind = some .mic → SameNoise c c' x x' m m' →
      SameHeard cfg (g0, c0) x cfg' (g0', c0') x' ⟨m.name, m.num, .mic, m.dynamic⟩ ⟨m'.name, m'.num, .mic, m'.dynamic⟩ k := by
    intro m hm m' hm' hmk hmk' hS
    refine hS.same_heard hR hR' hl hr hd hfreq hB hw hctrl hctrl' hm hmk hm' hmk' (fun t ht => ?_) fun t ht => ?_
    · obtain ⟨ir, i1, -⟩ := C175_closed_loop h hi hk hfilt hp hsh hy hρ he (hR.mem hm hmk) rfl t ht
      exact ⟨ir, i1⟩
    · obtain ⟨ir, i1, -⟩ := C175_closed_loop h' hi' hk' hfilt' hp' hsh' hy' hρ' he' (hR'.mem hm' hmk') rfl t ht
      exact ⟨ir, i1⟩
  have form : ∀ {b : ArrInfo} {a : Arr Pt}, a.name = b.name → a.num = b.num → a.dynamic = b.dynamic → b.kind = .mic →
      (⟨a.name, a.num, .mic, a.dynamic⟩ : ArrInfo) = b := by
    intro b a h1 h2 h3 h4
    cases b
    dsimp only at h1 h2 h3 h4
    rw [h1, h2, h3, h4]
  obtain ⟨r1, r2, r3⟩ := C200_heard_fast h h' hi hi' hk hk' hfilt hfilt' hp hp' hsh hsh' hy hy' hB hw (by
    intro b hb b' hb' hn hnm
    obtain ⟨a, ha, k1, k2, k3, k4⟩ := hR.info b hb
    obtain ⟨a', ha', j1, j2, j3, j4⟩ := hR'.info b' hb'
    have m1 := hmics b hb hnm
    have m2 := hmics' b' hb' (by rw [hn]; exact hnm)
    rw [m1] at k1
    rw [m2] at j1
    have := heard a ha a' ha' k1 j1 (hsame a ha a' ha' (by rw [k2, j2, hn]) (by rw [k2]; exact hnm))
    rwa [form k2 k3 k4 m1, form j2 j3 j4 m2] at this)
  refine ⟨r1, ?_, r3⟩
  intro m hm m' hm' hmk hmk' hS
  exact r2 _ (hR.mem hm hmk) _ (hR'.mem hm' hmk') rfl rfl (heard m hm m' hm' hmk hmk' hS)

end

/-! ### two noise loudspeakers that move apart -/

/-- Two noise loudspeakers in one array. -/
def joinAnc : List (Arr ℚ) :=
  [⟨"ref", some .mic, 1, [4], none, 1, none, true, []⟩, ⟨"error", some .mic, 1, [3], none, 1, none, true, []⟩,
   ⟨"loudspeaker", some .ctrl, 1, [1], none, 1, none, true, []⟩,
   ⟨"pair", some .free, 2, [0, 0], none, 1, some fun u => [(u : ℚ), -(u : ℚ)], true, []⟩]

/-- The same loudspeakers in arrays of their own. -/
def splitAnc : List (Arr ℚ) :=
  [⟨"left", some .free, 1, [0], none, 1, some fun u => [-(u : ℚ)], true, []⟩,
   ⟨"ref", some .mic, 1, [4], none, 1, none, true, []⟩, ⟨"error", some .mic, 1, [3], none, 1, none, true, []⟩,
   ⟨"right", some .free, 1, [0], none, 1, some fun u => [(u : ℚ)], true, []⟩,
   ⟨"loudspeaker", some .ctrl, 1, [1], none, 1, none, true, []⟩]

/-- The simulation of these arrays with `FxLMS`. -/
def groupAnc (as : List (Arr ℚ)) :
    SimCfg ℚ (IrMat ℚ) (Fir ℚ) (List Nat) (Nat × Coll ℚ (IrMat ℚ)) (FxSt ℚ) (DData ℚ (FxSt ℚ) ℚ) (DOut ℚ ℚ) :=
  { B := 5, C := 3, tot := 9, warm := true, contrib := false, plotNone := false, arrays := (groupColl as).infos,
    srcGet := countGet, filt := firOps ℚ, arrUpdate := Coll.update (createPath lineRoom), arrPath := Coll.path,
    proc := some (fxProc (fxDemo 1 2 2 .sample)), diag := diagOps ℚ (FxSt ℚ) ℚ }

theorem groupAnc_scene {as : List (Arr ℚ)} (h1 : as = joinAnc ∨ as = splitAnc) : FxScene (groupAnc as) (fxDemo 1 2 2 .sample) := by
  have h := whole_scene
  refine ⟨rfl, ⟨⟨"ref", 1, .mic, false⟩, ?_, rfl, rfl, rfl⟩, ⟨⟨"error", 1, .mic, false⟩, ?_, rfl, rfl, rfl⟩,
    ⟨⟨"loudspeaker", 1, .ctrl, false⟩, ?_, rfl, rfl, rfl⟩, ?_, h.nr, h.nl, h.ne, h.L, h.bs, h.ub, h.chunk, h.buffer, h.regular⟩
  all_goals rcases h1 with rfl | rfl <;> decide

theorem groupAnc_room {as : List (Arr ℚ)} (h1 : as = joinAnc ∨ as = splitAnc) :
    InRoom (groupAnc as) lineRoom (groupColl as) 0 (groupC0 as).2 (groupC0 as).1 := by
  have hc : ((Coll.empty 2).addAll as : Coll ℚ (IrMat ℚ)).Consistent := by
    refine (Coll.addAll_spec as (Coll.empty_consistent (H := IrMat ℚ) 2) ?_).1
    rcases h1 with rfl | rfl <;> simp [joinAnc, splitAnc]
  have hcons : (groupColl as).Consistent := by
    rcases h1 with rfl | rfl <;> exact ⟨hc.names, hc.kinds, hc.mics, hc.srcs, hc.frees⟩
  have harr : (groupColl as).arrays = as := by rcases h1 with rfl | rfl <;> rfl
  have harr0 : (groupC0 as).2.arrays = as := by rcases h1 with rfl | rfl <;> rfl
  refine ⟨by rcases h1 with rfl | rfl <;> rfl, hcons, rfl, rfl, rfl, ?_, ?_, ?_, ?_⟩
  · rw [harr]
    rcases h1 with rfl | rfl <;> simp [joinAnc, splitAnc]
  · rw [harr]
    intro a ha f hf
    rcases h1 with rfl | rfl
    · simp only [joinAnc, List.mem_cons, List.not_mem_nil, or_false] at ha
      rcases ha with rfl | rfl | rfl | rfl <;> cases hf
      simp
    · simp only [splitAnc, List.mem_cons, List.not_mem_nil, or_false] at ha
      rcases ha with rfl | rfl | rfl | rfl | rfl <;> cases hf <;> simp
  · rw [harr]
    intro a ha u
    rcases h1 with rfl | rfl
    · simp only [joinAnc, List.mem_cons, List.not_mem_nil, or_false] at ha
      rcases ha with rfl | rfl | rfl | rfl <;> rfl
    · simp only [splitAnc, List.mem_cons, List.not_mem_nil, or_false] at ha
      rcases ha with rfl | rfl | rfl | rfl | rfl <;> rfl
  · intro a ha b hb x hx
    rw [harr0] at ha hb
    rcases h1 with rfl | rfl
    · simp only [joinAnc, List.mem_cons, List.not_mem_nil, or_false] at ha hb
      rcases ha with rfl | rfl | rfl | rfl <;> rcases hb with rfl | rfl | rfl | rfl <;> cases hx <;> exact ⟨rfl, rfl⟩
    · simp only [splitAnc, List.mem_cons, List.not_mem_nil, or_false] at ha hb
      rcases ha with rfl | rfl | rfl | rfl | rfl <;> rcases hb with rfl | rfl | rfl | rfl | rfl <;> cases hx <;> exact ⟨rfl, rfl⟩

theorem groupAnc_stream {as : List (Arr ℚ)} (h1 : as = joinAnc ∨ as = splitAnc) : ∀ a ∈ (groupColl as).arrays, a.kind = some .free →
    IsStream countGet (groupSrcs a.name) a.num (groupX a.name) := by
  have hst : ∀ a n, (groupSrcs a).length = n → IsStream countGet (groupSrcs a) n (groupX a) := by
    rintro a n rfl
    exact count_stream _
  intro a ha hk
  rcases h1 with rfl | rfl
  · have ha : a ∈ joinAnc := ha
    simp only [joinAnc, List.mem_cons, List.not_mem_nil, or_false] at ha
    rcases ha with rfl | rfl | rfl | rfl <;> first | (cases hk; done) | exact hst _ _ rfl
  · have ha : a ∈ splitAnc := ha
    simp only [splitAnc, List.mem_cons, List.not_mem_nil, or_false] at ha
    rcases ha with rfl | rfl | rfl | rfl | rfl <;> first | (cases hk; done) | exact hst _ _ rfl

theorem groupAnc_same {m m' : Arr ℚ} (hm : m ∈ (groupColl joinAnc).arrays) (hm' : m' ∈ (groupColl splitAnc).arrays)
    (hn : m'.name = m.name) (hnm : m.name ∈ ["ref", "error"]) :
    SameNoise (groupColl joinAnc) (groupColl splitAnc) groupX groupX m m' := by
  have hm : m ∈ joinAnc := hm
  have hm' : m' ∈ splitAnc := hm'
  have key : (m = ⟨"ref", some .mic, 1, [4], none, 1, none, true, []⟩ ∧ m' = m) ∨
      (m = ⟨"error", some .mic, 1, [3], none, 1, none, true, []⟩ ∧ m' = m) := by
    simp only [joinAnc, List.mem_cons, List.not_mem_nil, or_false] at hm
    simp only [splitAnc, List.mem_cons, List.not_mem_nil, or_false] at hm'
    rcases hm with rfl | rfl | rfl | rfl <;> rcases hm' with rfl | rfl | rfl | rfl | rfl <;> simp_all
  rcases key with ⟨rfl, rfl⟩ | ⟨rfl, rfl⟩
  all_goals
    refine ⟨fun _ _ => rfl, fun u _ => ?_, ?_, ?_, ?_⟩
    · exact List.Perm.swap _ _ _
    · intro s hs hk
      have hs : s ∈ joinAnc := hs
      simp only [joinAnc, List.mem_cons, List.not_mem_nil, or_false] at hs
      rcases hs with rfl | rfl | rfl | rfl <;> first | (cases hk; done) | exact .inl rfl
    · intro s hs hk
      have hs : s ∈ splitAnc := hs
      simp only [splitAnc, List.mem_cons, List.not_mem_nil, or_false] at hs
      rcases hs with rfl | rfl | rfl | rfl | rfl <;> first | (cases hk; done) | exact .inl rfl
    · intro l hl l' hl' hn hn'
      have hl : l ∈ joinAnc := hl
      have hl' : l' ∈ splitAnc := hl'
      simp only [joinAnc, List.mem_cons, List.not_mem_nil, or_false] at hl
      simp only [splitAnc, List.mem_cons, List.not_mem_nil, or_false] at hl'
      rcases hl with rfl | rfl | rfl | rfl <;> first | (exact absurd hn (by decide)) | skip
      rcases hl' with rfl | rfl | rfl | rfl | rfl <;> first | (exact absurd hn' (by decide)) | skip
      exact ⟨fun _ _ => rfl, rfl, .inl rfl⟩

/-- The state before the first step. -/
def groupAncStart (as : List (Arr ℚ)) :=
  (groupAnc as).initWith fxPrepare groupSrcs (groupC0 as) (fxInit (fxDemo 1 2 2 .sample) (fxSec [2, 1])) demoFilt []

/-- The first tap of the control filter after six steps. -/
def groupAncTap (as : List (Arr ℚ)) : Option ℚ :=
  match groupAncStart as with
  | .error _ => none
  | .ok st0 =>
    match (groupAnc as).steps 6 st0 with
    | .error _ => none
    | .ok st => some ((st.eng.proc.ctrl.mat.ir 0 0).getD 0 0)

/-- The hypotheses are met, the loudspeakers play the same and the filters adapt. -/
example : ∃ st0 st0', groupAncStart joinAnc = .ok st0 ∧ groupAncStart splitAnc = .ok st0' ∧
    groupAncTap joinAnc ≠ some 0 ∧
    ∀ t ≤ 6, ∃ v, (groupAnc joinAnc).Produced st0 "loudspeaker" 0 t v ∧ (groupAnc splitAnc).Produced st0' "loudspeaker" 0 t v := by
  have n1 : groupAncTap joinAnc ≠ none ∧ groupAncTap joinAnc ≠ some 0 := by decide +kernel
  have n2 : groupAncTap splitAnc ≠ none := by decide +kernel
  have key : ∀ as, groupAncTap as ≠ none → ∃ st0 st, groupAncStart as = .ok st0 ∧ (groupAnc as).steps 6 st0 = .ok st := by
    intro as h
    unfold groupAncTap at h
    cases h0 : groupAncStart as with
    | error e => rw [h0] at h; exact absurd rfl h
    | ok st0 =>
      cases h1 : (groupAnc as).steps 6 st0 with
      | error e => rw [h0] at h; simp only [h1] at h; exact absurd rfl h
      | ok st => exact ⟨st0, st, rfl, h1⟩
  obtain ⟨st0, st, h0, hk⟩ := key _ n1.1
  obtain ⟨st0', st', h0', hk'⟩ := key _ n2
  obtain ⟨r, -, -⟩ := C202_grouping (groupAnc_scene (.inl rfl)) (groupAnc_scene (.inr rfl)) (groupAnc_room (.inl rfl)) (groupAnc_room (.inr rfl))
    lineRoom_lawful (resp := fun s m => [m - s, 1]) (fun _ _ _ => rfl) rfl h0 h0' hk hk' rfl rfl (groupAnc_stream (.inl rfl))
    (groupAnc_stream (.inr rfl)) rfl rfl rfl fun m hm m' hm' hn hnm => groupAnc_same hm hm' hn hnm
  exact ⟨st0, st0', h0, h0', n1.2, fun t ht => r t ht 0 (by decide)⟩

end Verif

/-
The short example scripts (C170, C171, C172).
-/
import Verif.Lemmas.Scripts
import Verif.Props.Signals
import Verif.Props.PassThrough
import Verif.Props.Blockwise
import Verif.Props.SamePlace
import Verif.Lemmas.Again
import Verif.Props.RoomTotal
namespace Verif

section
variable {K R G S P V : Type} [Field K] [LinearOrder K] [Field R] [DecidableEq R]
  {ext : RoomExt K R G} {i : RoomInfo K} {freq : Nat} {as : List (Arr (K × K × K))} {os : List (PathOp R)} {t : String}

/-- C170. A script in the manner of the examples, in a room without user errors: it runs to its end. -/
theorem C170_script_runs (h : RoomPlan ext i freq as os t)
    (base : SimCfg R (IrMat R) (Fir R) S (G × Coll (K × K × K) (IrMat R)) P (DData R P V) (DOut R V))
    (hdiag : base.diag = diagOps R P V) (hfilt : base.filt = firOps R)
    (hnames : ((base.withArrays as).signalList.map (·.1)).Nodup) {srcs : String → S}
    (hsrcs : ∀ a ∈ as, a.kind = some .free → ∃ x, IsStream base.srcGet (srcs a.name) a.num x)
    {lp : ProcView R P} (had : Admissible (base.withArrays as) lp) {L : P → Prop} {proc : P} (hp0 : L proc)
    (hacts : ∀ p, base.proc = some p → ∀ q T a, L q →
      ∃ q' out, lp.act q (cut (base.withArrays as).dims T a (lp.H + p.bs)) = .ok (q', out) ∧ L q')
    {info : DiagInfo} {ex : Option IdxSel} {f : Nat} (hex : ex.getD (.every info.exportFreq) = .every f) (hf : 0 < f)
    (htot : info.tot = base.tot) (hpos : 0 < base.tot) {l : List (String × String)} (hl : (l.map (·.1)).Nodup)
    (hsig : ∀ x ∈ l, (base.withArrays as).dims x.2 = some 1) (f0 : Fir R) (g : G) :
    ∃ fin, runScript base ext i g (planned freq as os t) srcs proc f0 info ex l = .ok fin := by
  obtain ⟨-, par, gc, hset, -⟩ := h.setup g
  obtain ⟨ds, hds, hfit⟩ := recordAll_fit (V := V) (cfg := base.withArrays as) hex hf htot hpos hsig L
  obtain ⟨fin, hfin⟩ := C164_room_runs h base hdiag hfilt hnames hsrcs had hp0 hacts f0
    (by rw [(recordAll_ok hds).1]; exact hl) hfit g
  exact ⟨fin, by unfold runScript; rw [hset]; dsimp only; rw [hds]; exact hfin⟩

/-- What a script that ran through consists of. -/
theorem script_ran (h : RoomPlan ext i freq as os t)
    {base : SimCfg R (IrMat R) (Fir R) S (G × Coll (K × K × K) (IrMat R)) P (DData R P V) (DOut R V)}
    (hdiag : base.diag = diagOps R P V) {srcs : String → S} {lp : ProcView R P} (had : Admissible (base.withArrays as) lp)
    {proc : P} {info : DiagInfo} {ex : Option IdxSel} {l : List (String × String)} (hl : (l.map (·.1)).Nodup) {f0 : Fir R} {g : G}
    {fin : SimSt R (Fir R) S (G × Coll (K × K × K) (IrMat R)) P (DData R P V) (DOut R V)}
    (hfin : runScript base ext i g (planned freq as os t) srcs proc f0 info ex l = .ok fin) :
    ∃ par gc ds st0, roomSetup ext i g (planned freq as os t) = .ok (par, gc) ∧ gc.2.arrays = as ∧
      Usable (i.cfg ext par) (infosOf as) gc.2 ∧ (∀ x ∈ l, ∃ d ∈ ds, mkRecordSignal info x.1 x.2 ex none 1 none = .ok d) ∧
      CompletedRun (roomCfg base ext i par as) lp srcs gc proc f0 ds st0 fin := by
  unfold runScript at hfin
  split at hfin
  · cases hfin
  · split at hfin
    · cases hfin
    · rename_i ds hds
      obtain ⟨k1, k2⟩ := recordAll_ok hds
      obtain ⟨par, gc, st0, e1, e2, e3, e4⟩ := h.ran hdiag had (by rw [k1]; exact hl) hfin
      exact ⟨par, gc, ds, st0, e1, e2, e3, k2, e4⟩

/-- C170. What the diagnostics of a script without processors hold after the run.  The recording of a
free source has what the source delivered, from its first sample on (with `start_sources_before_0` from
the `sim_buffer`-th on).  The recording of a microphone has the convolution of what all free sources
played with the responses to it: those given by the user, or else those generated with the type of the
path from the places at the last update; between arrays that stand still they never change. -/
theorem C170_script_recordings (h : RoomPlan ext i freq as os t)
    {base : SimCfg R (IrMat R) (Fir R) S (G × Coll (K × K × K) (IrMat R)) P (DData R P V) (DOut R V)}
    (hdiag : base.diag = diagOps R P V) (hfilt : base.filt = firOps R) (hproc : base.proc = none) {srcs : String → S}
    {x : String → Nat → Nat → R} (hx : ∀ a ∈ as, a.kind = some .free → IsStream base.srcGet (srcs a.name) a.num (x a.name))
    {lp : ProcView R P} (had : Admissible (base.withArrays as) lp) {proc : P} {info : DiagInfo} {ex : Option IdxSel}
    (htot : info.tot = base.tot) (hpos : 0 < base.tot) {l : List (String × String)} (hl : (l.map (·.1)).Nodup)
    {f0 : Fir R} {g : G} {fin : SimSt R (Fir R) S (G × Coll (K × K × K) (IrMat R)) P (DData R P V) (DOut R V)}
    (hfin : runScript base ext i g (planned freq as os t) srcs proc f0 info ex l = .ok fin) :
    ∃ par, i.parameters ext = .ok par ∧
      (∀ y ∈ l, ∀ a ∈ as, a.name = y.2 → a.num = 1 → a.kind = some .free →
        Recording fin.diags y.1 y.2 1 base.tot fun c t => x y.2 c ((if base.warm then base.B - 1 else 0) + t)) ∧
      ∀ y ∈ l, ∀ m ∈ as, m.name = y.2 → m.num = 1 → m.kind = some .mic → ∃ ir : Nat → String → IrMat R,
        (∀ n < base.tot, ∀ s ∈ as, s.kind = some .free ∨ s.kind = some .ctrl →
          ExpectedIr (i.cfg ext par) freq os t s m n (ir n s.name) ∧
          (¬ s.dynamic = true → ¬ m.dynamic = true → ir n s.name = ir 0 s.name)) ∧
        Recording fin.diags y.1 y.2 1 base.tot fun c n =>
          convSum ((infosOf as).filter fun s => s.kind != .mic) (ir n) ((base.withArrays as).played x) c n := by
  obtain ⟨par, gc, ds, st0, hset, harr, hu, hds, hrun⟩ := script_ran h hdiag had hl hfin
  obtain ⟨st, hst⟩ := hrun.steps
  refine ⟨par, h.params hset, fun y hy a ha han hnum hak => ?_, fun y hy m hm hmn hnum hmk => ?_⟩
  · obtain ⟨d, hd1, hd2⟩ := hds y hy
    have hai : (⟨a.name, a.num, .free, a.dynamic⟩ : ArrInfo) ∈ infosOf as := mem_infosOf.2 ⟨a, ha, hak, rfl, rfl, rfl⟩
    have hdim := hrun.started.nm.arr _ hai
    dsimp only at hdim
    rw [han, hnum] at hdim
    refine hrun.recording hd1 hd2 htot hpos hdim fun c hc t' ht => ?_
    have := (C12_source_order hrun.started hst hai rfl (hx a ha hak) t' (Nat.le_of_lt ht) c
      (x a.name c ((if base.warm then base.B - 1 else 0) + t'))).2 ⟨by dsimp only; omega, rfl⟩
    dsimp only at this
    rw [han] at this
    exact this
  · obtain ⟨d, hd1, hd2⟩ := hds y hy
    have hmi : (⟨m.name, m.num, .mic, m.dynamic⟩ : ArrInfo) ∈ infosOf as := mem_infosOf.2 ⟨m, hm, hmk, rfl, rfl, rfl⟩
    have hdim := hrun.started.nm.arr _ hmi
    dsimp only at hdim
    rw [hmn, hnum] at hdim
    have hall := C18_open_loop hrun.started hst hproc hfilt
      (fun a ha => by obtain ⟨b, hb, -, -, e3, -⟩ := mem_infosOf.1 ha; rw [← e3]; exact h.channels b hb)
      (h.shape hset hu) (x := x)
      (fun a ha hk => by
        obtain ⟨b, hb, e1, e2, e3, -⟩ := mem_infosOf.1 ha
        rw [← e2, ← e3]
        exact hx b hb (by rw [e1, hk]))
      hmi rfl
    have hex : ∀ t, ∃ ir : String → IrMat R, t < base.tot →
        (∀ s ∈ infosOf as, s.kind ≠ .mic → (roomCfg base ext i par as).IrAt gc s ⟨m.name, m.num, .mic, m.dynamic⟩ t (ir s.name)) ∧
        ∀ c < m.num, (roomCfg base ext i par as).Produced st0 m.name c t
          (convSum ((infosOf as).filter fun s => s.kind != .mic) ir ((base.withArrays as).played x) c t) := by
      intro t'
      by_cases ht : t' < base.tot
      · obtain ⟨ir, g1, g2⟩ := hall t' (Nat.le_of_lt ht)
        exact ⟨ir, fun _ => ⟨g1, fun c hc => (g2 c hc).1⟩⟩
      · exact ⟨fun _ => ⟨0, 0, fun _ _ => []⟩, fun h => absurd h ht⟩
    choose ir hir using hex
    have hgen : ∀ n < base.tot, ∀ s ∈ as, s.kind = some .free ∨ s.kind = some .ctrl →
        if (s.dynamic = true ∨ m.dynamic = true) ∧ 1 ≤ n then
          GeneratedAt (createPath (i.cfg ext par)) gc.2 s.name m.name (gc.2.freq * ((n - 1) / gc.2.freq)) (ir n s.name)
        else gc.2.paths s.name m.name = some (ir n s.name) := by
      intro t' ht s hs hsk
      obtain ⟨ks, hks⟩ := Option.ne_none_iff_exists'.1 (h.kinds s hs)
      have hsi : (⟨s.name, s.num, ks, s.dynamic⟩ : ArrInfo) ∈ infosOf as := mem_infosOf.2 ⟨s, hs, hks, rfl, rfl, rfl⟩
      have hne : ks ≠ .mic := by
        rintro rfl
        rw [hks] at hsk
        rcases hsk with e | e <;> cases e
      exact irAt_generated hu.con (g0 := gc.1) (cfg := roomCfg base ext i par as) rfl rfl (by rw [harr]; exact hs) hsk (by rw [harr]; exact hm) hmk
        ((hir t' ht).1 _ hsi hne)
    refine ⟨ir, fun n hn s hs hsk => ⟨h.expected hset hs hm hsk hmk (hgen n hn s hs hsk), fun h1 h2 => ?_⟩, ?_⟩
    · have e1 := hgen n hn s hs hsk
      have e2 := hgen 0 hpos s hs hsk
      rw [if_neg (by tauto)] at e1 e2
      rw [e1] at e2
      exact Option.some.inj e2
    · refine hrun.recording hd1 hd2 htot hpos hdim fun c hc t' ht => ?_
      have := (hir t' ht).2 c (by omega)
      rw [hmn] at this
      exact this

/-! ### The simplest simulation and the moving source -/

/-- One source and one microphone of one channel each. -/
theorem pair_plan {a : Arr (K × K × K)} (hname : a.name ≠ "mic") (hk : a.kind = some .free ∨ a.kind = some .ctrl) (hnum : a.num = 1)
    (hsz : a.Sized) (hini : a.Initial) (p : K × K × K) (hfreq : 1 ≤ freq) (hdims : i.dims = 3)
    (hrev : 0 < i.rt60 → ∃ r, ext.inverseSabine i.rt60 i.size = .ok r) (hext : ∀ par, (i.cfg ext par).Lawful) :
    RoomPlan ext i freq [a, placedArr "mic" .mic true [p]] ([] : List (PathOp R)) "ism" where
  names := by
    show [a.name, "mic"].Nodup
    simpa using hname
  kinds := by
    intro b hb
    simp only [List.mem_cons, List.not_mem_nil, or_false] at hb
    rcases hb with rfl | rfl
    · rcases hk with h | h <;> rw [h] <;> exact Option.some_ne_none _
    · exact Option.some_ne_none _
  channels := by
    intro b hb
    simp only [List.mem_cons, List.not_mem_nil, or_false] at hb
    rcases hb with rfl | rfl
    · omega
    · exact le_refl 1
  sized := by
    intro b hb
    simp only [List.mem_cons, List.not_mem_nil, or_false] at hb
    rcases hb with rfl | rfl
    · exact hsz
    · exact fun _ => rfl
  initial := by
    intro b hb
    simp only [List.mem_cons, List.not_mem_nil, or_false] at hb
    rcases hb with rfl | rfl
    · exact hini
    · intro f hf; cases hf
  types := by
    intro b hb c hc _ hck _
    simp only [List.mem_cons, List.not_mem_nil, or_false] at hc
    rcases hc with rfl | rfl
    · rcases hk with h | h <;> rw [h] at hck <;> cases hck
    · exact .inr (.inr (.inr ⟨rfl, hdims, rfl⟩))
  moving := fun _ _ _ _ _ _ _ => rfl
  sources := fun b _ _ _ => ⟨a, List.mem_cons_self, hk⟩
  interval := hfreq
  reverberation := hrev
  external := hext

omit [Field K] [LinearOrder K] [DecidableEq R] in
theorem pair_signals [Field K] [LinearOrder K] [DecidableEq R] {base : SimCfg R (IrMat R) (Fir R) S (G × Coll (K × K × K) (IrMat R)) P (DData R P V) (DOut R V)}
    (hproc : ∀ p, base.proc = some p → p.extra = []) {a : Arr (K × K × K)} (hname : a.name = "source" ∨ a.name = "ls")
    (hk : a.kind = some .free ∨ a.kind = some .ctrl) (hnum : a.num = 1) (p : K × K × K) :
    ((base.withArrays [a, placedArr "mic" .mic true [p]]).signalList.map (·.1)).Nodup ∧
    (base.withArrays [a, placedArr "mic" .mic true [p]]).dims a.name = some 1 ∧
    (base.withArrays [a, placedArr "mic" .mic true [p]]).dims "mic" = some 1 := by
  have hsl : (base.withArrays [a, placedArr "mic" .mic true [p]]).signalList =
      [(a.name, 1), ("mic", 1)] ++ if base.contrib then [(a.name ++ "~" ++ "mic", 1)] else [] := by
    have hb : (base.withArrays [a, placedArr "mic" .mic true [p]]).arrays.map (fun a => (a.name, a.num)) ++
        (if base.contrib then (combosOf (base.withArrays [a, placedArr "mic" .mic true [p]]).arrays).map
          fun p => (contribName p.1 p.2, p.2.num) else []) = [(a.name, 1), ("mic", 1)] ++ if base.contrib then [(a.name ++ "~" ++ "mic", 1)] else [] := by
      rcases hk with h | h <;> simp [SimCfg.withArrays, infosOf, placedArr, h, hnum, combosOf, sourcesOf, micsOf, contribName]
    unfold SimCfg.signalList
    dsimp only
    cases hp : base.proc with
    | none =>
      rw [show (base.withArrays [a, placedArr "mic" .mic true [p]]).proc = none from hp]
      exact hb
    | some q =>
      rw [show (base.withArrays [a, placedArr "mic" .mic true [p]]).proc = some q from hp]
      dsimp only
      rw [hproc q hp, List.filter_nil, List.append_nil]
      exact hb
  unfold SimCfg.dims
  rw [hsl]
  rcases hname with e | e <;> rw [e] <;> cases base.contrib <;> decide

/-- C170, `example_simplest_simulation.py` and `example_moving_source.py`: a free source called "source" or
"ls", standing still or on any trajectory, and a microphone at `p`, in any room in which the image-source
method works.  The script runs to its end.  The recording of the source has its samples, that of the
microphone their convolution with the responses of the image-source method from the place of the
source at the last update. -/
theorem C170_pair {a : Arr (K × K × K)} (hname : a.name = "source" ∨ a.name = "ls") (hk : a.kind = some .free) (hnum : a.num = 1)
    (hsz : a.Sized) (hini : a.Initial) (p : K × K × K) (hfreq : 1 ≤ freq) (hdims : i.dims = 3)
    (hrev : 0 < i.rt60 → ∃ r, ext.inverseSabine i.rt60 i.size = .ok r) (hext : ∀ par, (i.cfg ext par).Lawful)
    (base : SimCfg R (IrMat R) (Fir R) S (G × Coll (K × K × K) (IrMat R)) P (DData R P V) (DOut R V))
    (hdiag : base.diag = diagOps R P V) (hfilt : base.filt = firOps R) (hproc : base.proc = none) (hB : 4 ≤ base.B) (hC : 1 ≤ base.C)
    {srcs : String → S} {x : Nat → Nat → R} (hx : IsStream base.srcGet (srcs a.name) 1 x)
    {info : DiagInfo} (htot : info.tot = base.tot) (hpos : 0 < base.tot) (hf : 0 < info.exportFreq)
    {l : List (String × String)} (hl : (l.map (·.1)).Nodup) (hsig : ∀ y ∈ l, y.2 = a.name ∨ y.2 = "mic") (proc : P) (f0 : Fir R) (g : G) :
    ∃ fin par, i.parameters ext = .ok par ∧
      runScript base ext i g (planned freq [a, placedArr "mic" .mic true [p]] [] "ism") srcs proc f0 info none l = .ok fin ∧
      (∀ y ∈ l, y.2 = a.name → Recording fin.diags y.1 y.2 1 base.tot fun c n => x c ((if base.warm then base.B - 1 else 0) + n)) ∧
      ∀ y ∈ l, y.2 = "mic" → ∃ ir : Nat → IrMat R,
        (∀ n < base.tot, ∃ g g', createPath (i.cfg ext par) g ⟨1, (a.geoAt (freq * ((n - 1) / freq))).pos, a.omni⟩ ⟨1, [p], true⟩ "ism" =
          .ok (g', ir n)) ∧
        (a.dynamic = false → ∀ n < base.tot, ir n = ir 0) ∧
        Recording fin.diags y.1 y.2 1 base.tot fun c n => throughPath (ir n) 1
          (fun c k => if -((if base.warm then base.B else 1 : Nat) : Int) < k then x c (k + (if base.warm then base.B else 1 : Nat) - 1).toNat else 0) c n := by
  have hne : a.name ≠ "mic" := by rcases hname with e | e <;> rw [e] <;> decide
  have hplan := pair_plan (R := R) (ext := ext) (i := i) hne (.inl hk) hnum hsz hini p hfreq hdims hrev hext
  obtain ⟨h1, h2, h3⟩ := pair_signals (base := base) (by rw [hproc]; rintro p ⟨⟩) hname (.inl hk) hnum p
  set as := [a, placedArr "mic" .mic true [p]] with has
  have hm : placedArr "mic" .mic true [p] ∈ as := by simp [as]
  have ha : a ∈ as := by simp [as]
  have hX : ∀ b ∈ as, b.kind = some .free → IsStream base.srcGet (srcs b.name) b.num x := by
    intro b hb hbk
    simp only [as, List.mem_cons, List.not_mem_nil, or_false] at hb
    rcases hb with rfl | rfl
    · rw [hnum]; exact hx
    · cases hbk
  have had : Admissible (base.withArrays as) (⟨0, fun p _ => .ok (p, fun _ _ _ => 0)⟩ : ProcView R P) := by
    have hmbs : (base.withArrays as).mbs = base.B / 4 := by
      unfold SimCfg.mbs
      rw [show (base.withArrays as).proc = none from hproc]
      rfl
    refine ⟨by rw [hmbs]; omega, by rw [hmbs]; show base.B / 4 + 1 ≤ base.B; omega, hC, ?_, ?_⟩
    · intro q hq
      rw [show (base.withArrays as).proc = none from hproc] at hq
      cases hq
    · rw [show (base.withArrays as).proc = none from hproc]
      rintro q ⟨⟩
  obtain ⟨fin, hfin⟩ := C170_script_runs hplan base hdiag hfilt h1 (fun b hb hbk => ⟨x, hX b hb hbk⟩) had (L := fun _ => True) (proc := proc) trivial
    (by rw [hproc]; rintro p ⟨⟩) (ex := none) (f := info.exportFreq) rfl hf htot hpos hl
    (fun y hy => by rcases hsig y hy with e | e <;> rw [e] <;> assumption) f0 g
  obtain ⟨par, hpar, e1, e2⟩ := C170_script_recordings hplan hdiag hfilt hproc (x := fun _ => x) hX had htot hpos hl hfin
  refine ⟨fin, par, hpar, hfin, fun y hy hya => e1 y hy a ha hya.symm hnum hk, fun y hy hym => ?_⟩
  obtain ⟨ir, f1, f2⟩ := e2 y hy _ hm hym.symm rfl rfl
  refine ⟨fun n => ir n a.name, fun n hn => ?_, fun hd n hn => ?_, ?_⟩
  · have := (f1 n hn a ha (.inl hk)).1
    unfold ExpectedIr at this
    obtain ⟨g1, g2, e⟩ := this
    refine ⟨g1, g2, ?_⟩
    have hgeo : ∀ u, (⟨1, (a.geoAt u).pos, a.omni⟩ : Geo (K × K × K)) = a.geoAt u := fun u => by unfold Arr.geoAt; rw [hnum]
    rw [hgeo]
    exact e
  · exact (f1 n hn a ha (.inl hk)).2 (by rw [hd]; decide) Bool.false_ne_true
  · have hconv : ∀ c (n : Nat), convSum ((infosOf as).filter fun s => s.kind != .mic) (ir n) ((base.withArrays as).played fun _ => x) c n =
        throughPath (ir n a.name) 1
          (fun c k => if -((if base.warm then base.B else 1 : Nat) : Int) < k then x c (k + (if base.warm then base.B else 1 : Nat) - 1).toNat else 0) c n := by
      intro c n
      have hinf : (infosOf as).filter (fun s => s.kind != .mic) = [⟨a.name, 1, .free, a.dynamic⟩] := by
        simp [as, infosOf, placedArr, hk, hnum]
      rw [hinf]
      unfold convSum throughPath
      rw [List.map_singleton, List.sum_singleton]
      congr 1
      refine List.map_congr_left fun j _ => ?_
      congr 1
      refine List.map_congr_left fun k _ => ?_
      congr 1
      unfold SimCfg.played
      have hfree : ∃ b ∈ (base.withArrays as).arrays, b.name = a.name ∧ b.kind = .free :=
        ⟨⟨a.name, a.num, .free, a.dynamic⟩, mem_infosOf.2 ⟨a, ha, hk, rfl, rfl, rfl⟩, rfl, rfl⟩
      simp only [hfree, true_and]
      rfl
    simp only [hconv] at f2
    exact f2

end

/-- The simplest example in a box, with 20 samples: the source delivers 1, 2, 3, ... -/
example (g : Nat) : ∃ fin, runScript (V := ℚ) { boxBase with tot := 20, B := 20, C := 20 } boxExt boxInfo g
      (planned 2 (simplestArrays [(3, 1, 3)] (1, 1, 3)) [] "ism") (fun _ => 0) () demoFilt ⟨20, 10, 5⟩ none
      [("source_signal", "source"), ("microphone_signal", "mic")] = .ok fin ∧
    Recording fin.diags "source_signal" "source" 1 20 (fun _ n => (n : ℚ) + 1) ∧
    ∃ ir : Nat → IrMat ℚ, (∀ n < 20, ir n = ir 0) ∧
      Recording fin.diags "microphone_signal" "mic" 1 20 fun c n => throughPath (ir n) 1 (fun _ k => if -1 < k then ((k.toNat + 1 : Nat) : ℚ) else 0) c n := by
  obtain ⟨fin, par, -, h1, h2, h3⟩ := C170_pair (R := ℚ) (V := ℚ) (ext := boxExt) (i := boxInfo) (freq := 2)
    (a := placedArr "source" .free true [((3 : ℚ), (1 : ℚ), (3 : ℚ))]) (.inl rfl) rfl rfl
    (fun _ => rfl) (fun f hf => by cases hf) (1, 1, 3) (by decide) rfl plan_demo.reverberation box_lawful
    { boxBase with tot := 20, B := 20, C := 20 } rfl rfl rfl (show 4 ≤ 20 by decide) (show 1 ≤ 20 by decide) (srcs := fun _ => 0) (open_stream 0) (info := ⟨20, 10, 5⟩) rfl
    (show 0 < 20 by decide) (by decide)
    (l := [("source_signal", "source"), ("microphone_signal", "mic")]) (by decide) (by decide) () demoFilt g
  refine ⟨fin, h1, ?_, ?_⟩
  · have := h2 ("source_signal", "source") (by simp) rfl
    simpa [boxBase, add_comm] using this
  · obtain ⟨ir, -, e2, e3⟩ := h3 ("microphone_signal", "mic") (by simp) rfl
    refine ⟨ir, e2 rfl, ?_⟩
    simpa [boxBase] using e3

/-- A source on its way through the box, with updates at every sample. -/
example (g : Nat) : ∃ fin par, runScript (V := ℚ) { boxBase with tot := 20, B := 20, C := 20 } boxExt boxInfo g
      (planned 1 (movingArrays (fun n => (0, n / 20, 3)) (1, 1, 3)) [] "ism") (fun _ => 0) () demoFilt ⟨20, 10, 5⟩ none
      [("source_signal", "ls"), ("microphone_signal", "mic")] = .ok fin ∧
    ∃ ir : Nat → IrMat ℚ, ∃ g1 g2, createPath (boxInfo.cfg boxExt par) g1 ⟨1, [(0, 6 / 20, 3)], true⟩ ⟨1, [(1, 1, 3)], true⟩ "ism" = .ok (g2, ir 7) ∧
      Recording fin.diags "microphone_signal" "mic" 1 20 fun c n => throughPath (ir n) 1 (fun _ k => if -1 < k then ((k.toNat + 1 : Nat) : ℚ) else 0) c n := by
  obtain ⟨fin, par, -, h1, h2, h3⟩ := C170_pair (R := ℚ) (V := ℚ) (ext := boxExt) (i := boxInfo) (freq := 1)
    (a := movingArr "ls" .free fun n => ((0 : ℚ), (n : ℚ) / 20, (3 : ℚ))) (.inr rfl) rfl rfl
    (fun _ => rfl) (fun f hf => by cases hf; rfl) (1, 1, 3) (by decide) rfl plan_demo.reverberation box_lawful
    { boxBase with tot := 20, B := 20, C := 20 } rfl rfl rfl (show 4 ≤ 20 by decide) (show 1 ≤ 20 by decide) (srcs := fun _ => 0) (open_stream 0) (info := ⟨20, 10, 5⟩) rfl
    (show 0 < 20 by decide) (by decide)
    (l := [("source_signal", "ls"), ("microphone_signal", "mic")]) (by decide) (by decide) () demoFilt g
  refine ⟨fin, par, h1, ?_⟩
  obtain ⟨ir, e1, e2, e3⟩ := h3 ("microphone_signal", "mic") (by simp) rfl
  obtain ⟨g1, g2, e4⟩ := e1 7 (show 7 < 20 by decide)
  refine ⟨ir, g1, g2, ?_, ?_⟩
  · simpa [movingArr, Arr.geoAt] using e4
  · simpa [boxBase] using e3

end Verif

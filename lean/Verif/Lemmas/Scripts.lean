/-
Room simulations that ran through, as runs of the simulator.
-/
import Verif.Model.Scripts
import Verif.Spec.Anc
import Verif.Spec.Scripts
import Verif.Lemmas.Anc
import Verif.Props.RoomTotal
import Verif.Props.OpenLoop
import Verif.Props.Recording
namespace Verif

section
variable {R S P V Pt G : Type} [Field R] [DecidableEq R]
  {cfg : SimCfg R (IrMat R) (Fir R) S (G × Coll Pt (IrMat R)) P (DData R P V) (DOut R V)}

/-- The impulse response in force for a time index, in an array collection. -/
theorem irAt_generated {c0 : Coll Pt (IrMat R)} {g0 : G} {gen : GenFn Pt (IrMat R) G} (hc : c0.Consistent)
    (hupd : cfg.arrUpdate = Coll.update gen) (hpath : cfg.arrPath = Coll.path)
    {s m : Arr Pt} (hs : s ∈ c0.arrays) (hsk : s.kind = some .free ∨ s.kind = some .ctrl) (hm : m ∈ c0.arrays)
    (hmic : m.kind = some .mic) {ks km : ArrKind} {t : Nat} {x : IrMat R}
    (hir : cfg.IrAt (g0, c0) ⟨s.name, s.num, ks, s.dynamic⟩ ⟨m.name, m.num, km, m.dynamic⟩ t x) :
    if (s.dynamic = true ∨ m.dynamic = true) ∧ 1 ≤ t then
      GeneratedAt gen c0 s.name m.name (c0.freq * ((t - 1) / c0.freq)) x
    else c0.paths s.name m.name = some x := by
  have hafter : ∀ n, cfg.arrAfter (g0, c0) n = Coll.after gen (g0, c0) n := by
    intro n
    induction n with
    | zero => rfl
    | succ n ih =>
      unfold SimCfg.arrAfter Coll.after
      rw [ih, hupd]
      cases Coll.after gen (g0, c0) n <;> rfl
  have hget : ∀ {gc : G × Coll Pt (IrMat R)} {s m x}, cfg.arrPath gc s m = .ok x → gc.2.paths s m = some x := by
    intro gc s m x hx
    rw [hpath] at hx
    unfold Coll.path at hx
    split at hx
    · cases hx
    · rename_i y hy
      cases hx
      exact hy
  have hmoving : (s.dynamic = true ∨ m.dynamic = true) → c0.Moving s.name m.name := by
    rintro (hd | hd)
    · exact ⟨s, hs, hd, .inl rfl⟩
    · exact ⟨m, hm, hd, .inr rfl⟩
  have hss : s.name ∈ c0.srcs := hc.mem_srcs.2 ⟨s, hs, hsk, rfl⟩
  have hmm : m.name ∈ c0.mics := hc.mem_mics.2 ⟨m, hm, hmic, rfl⟩
  cases t with
  | zero =>
    rw [if_neg (by omega)]
    exact hget hir
  | succ n =>
    dsimp only [SimCfg.IrAt] at hir
    split at hir
    · rename_i hd
      rw [if_pos ⟨hd, by omega⟩]
      obtain ⟨gc, q1, q2⟩ := hir
      rw [hafter] at q1
      have hinv := after_spec hc (n + 1) (g' := gc.1) (c' := gc.2) q1
      obtain ⟨x, hx1, hx2⟩ := hinv.gen s.name m.name hss hmm (hmoving hd) (by omega)
      have := hget q2
      rw [hx1] at this
      rw [← Option.some.inj this]
      exact hx2
    · rename_i hd
      rw [if_neg fun hh => hd hh.1]
      exact hget hir

end

section
variable {R IR F S A P V : Type} [Field R] [DecidableEq R] {cfg : SimCfg R IR F S A P (DData R P V) (DOut R V)}
  {lp : ProcView R P} {srcs : String → S} {arr : A} {proc : P} {f0 : F} {ds0 : List (Diag (DData R P V))}
  {st0 fin : SimSt R F S A P (DData R P V) (DOut R V)}

/-- What was recorded was produced. -/
theorem CompletedRun.recording (h : CompletedRun cfg lp srcs arr proc f0 ds0 st0 fin)
    {info : DiagInfo} {name sig : String} {ex : Option IdxSel} {num : Nat} {d : Diag (DData R P V)} (hmem : d ∈ ds0)
    (hd : mkRecordSignal info name sig ex none num none = .ok d) (htot : info.tot = cfg.tot) (hpos : 0 < cfg.tot)
    (hsig : cfg.dims sig = some num) {y : Nat → Nat → R}
    (hy : ∀ c < num, ∀ t < cfg.tot, cfg.Produced st0 sig c t (y c t)) : Recording fin.diags name sig num cfg.tot y := by
  obtain ⟨d', g1, g2, signal, g3, g4, g5⟩ := C01_recording h hd hmem htot hpos hsig (chan := none) (rows := List.range num) rfl
    List.length_range
  refine ⟨d', g1, g2, signal, g3, g4, fun c hc => ?_⟩
  obtain ⟨row, r1, r2, r3⟩ := g5 c c (by rw [List.getElem?_range hc])
  refine ⟨row, r1, r2, fun t' ht => ?_⟩
  obtain ⟨v, hv, hrow⟩ := r3 t' ht
  rw [hrow, hv.unique (hy c hc t' ht)]

end

section
variable {K R G S P V : Type} [Field K] [LinearOrder K] [Field R] [DecidableEq R]
  {ext : RoomExt K R G} {i : RoomInfo K} {freq : Nat} {as : List (Arr (K × K × K))} {os : List (PathOp R)} {t : String}

/-- A room simulation that ran through is a run of the simulator. -/
theorem RoomPlan.ran (h : RoomPlan ext i freq as os t)
    {base : SimCfg R (IrMat R) (Fir R) S (G × Coll (K × K × K) (IrMat R)) P (DData R P V) (DOut R V)}
    (hdiag : base.diag = diagOps R P V) {lp : ProcView R P} (had : Admissible (base.withArrays as) lp)
    {srcs : String → S} {proc : P} {f0 : Fir R} {ds : List (Diag (DData R P V))} (hnd : (ds.map Diag.name).Nodup) {g : G}
    {fin : SimSt R (Fir R) S (G × Coll (K × K × K) (IrMat R)) P (DData R P V) (DOut R V)}
    (hfin : simulate base ext i g (planned freq as os t) srcs proc f0 ds = .ok fin) :
    ∃ par gc st0, roomSetup ext i g (planned freq as os t) = .ok (par, gc) ∧ gc.2.arrays = as ∧
      Usable (i.cfg ext par) (infosOf as) gc.2 ∧
      CompletedRun (roomCfg base ext i par as) lp srcs gc proc f0 ds st0 fin := by
  obtain ⟨hinf, par, gc, hset, hu⟩ := h.setup g
  unfold simulate at hfin
  rw [hset] at hfin
  dsimp only at hfin
  rw [hinf] at hfin
  change (roomCfg base ext i par as).run srcs gc proc f0 ds = .ok fin at hfin
  have hinit : ∃ st0, (roomCfg base ext i par as).init srcs gc proc f0 ds = .ok st0 := by
    unfold SimCfg.run at hfin
    split at hfin
    · cases hfin
    · exact ⟨_, by assumption⟩
  obtain ⟨st0, hst0⟩ := hinit
  exact ⟨par, gc, st0, hset, h.arrays hset, hu, ⟨had.block, had.buffer, had.chunk, had.proc, had.valid⟩, hdiag, hnd, hst0, hfin⟩

theorem RoomPlan.expected (h : RoomPlan ext i freq as os t) {g : G} {par : K × Nat} {gc : G × Coll (K × K × K) (IrMat R)}
    (hset : roomSetup ext i g (planned freq as os t) = .ok (par, gc)) {s m : Arr (K × K × K)} (hs : s ∈ as) (hm : m ∈ as)
    (hsk : s.kind = some .free ∨ s.kind = some .ctrl) (hmk : m.kind = some .mic) {n : Nat} {x : IrMat R}
    (hx : if (s.dynamic = true ∨ m.dynamic = true) ∧ 1 ≤ n then
        GeneratedAt (createPath (i.cfg ext par)) gc.2 s.name m.name (gc.2.freq * ((n - 1) / gc.2.freq)) x
      else gc.2.paths s.name m.name = some x) : ExpectedIr (i.cfg ext par) freq os t s m n x := by
  have harr := h.arrays hset
  obtain ⟨c1, c2, c3, c4⟩ := addAll_arrays as (Coll.empty_consistent (Pt := K × K × K) (H := IrMat R) freq) h.kinds
    (by simpa [Coll.empty] using h.names)
  have hc := (Coll.addAll_spec as (Coll.empty_consistent (Pt := K × K × K) (H := IrMat R) freq) h.kinds).1
  rw [show (Coll.empty freq : Coll (K × K × K) (IrMat R)).arrays = [] from rfl, List.nil_append] at c1
  have key := C40_user_paths hc (by rw [c1]; exact h.initial) os t (roomSetup_setupIr (gc := (gc.1, gc.2)) hset)
    (a := s) (b := m) (by rw [c1]; exact hs) (by rw [c1]; exact hm) hsk hmk (by rw [c2]; rfl) (by rw [c3]; rfl)
    (h.channels s hs) (h.channels m hm)
  have hfreq : gc.2.freq = freq := by
    obtain ⟨b1, b2⟩ := h.begun
    obtain ⟨e, -, -⟩ := setupIr_spec b2.names (by rw [b1]; exact h.initial) (roomSetup_setupIr (gc := (gc.1, gc.2)) hset)
    rw [e]
    obtain ⟨p1, ty1, k0⟩ := ops_frame os ((Coll.empty freq : Coll (K × K × K) (IrMat R)).addAll as)
    obtain ⟨⟨ty2, d0⟩, -⟩ := setDefault_spec t (os.foldl Coll.op ((Coll.empty freq : Coll (K × K × K) (IrMat R)).addAll as))
    show (planned freq as os t).freq = freq
    unfold planned
    rw [d0, k0]
    exact c4
  have inj : ∀ {a b : Arr (K × K × K)}, a ∈ as → b ∈ as → a.name = b.name → a = b := fun ha hb e =>
    List.inj_on_of_nodup_map h.names ha hb e
  rw [hfreq] at hx
  unfold ExpectedIr
  cases hup : (userPaths s m os).getLast? with
  | some y =>
    rw [hup] at key
    dsimp only at key ⊢
    rw [if_neg] at hx
    · rw [key.1] at hx
      exact (Option.some.inj hx).symm
    · rintro ⟨hd, -⟩
      rw [h.moving s hs m hm hsk hmk hd] at hup
      cases hup
  | none =>
    rw [hup] at key
    dsimp only at key ⊢
    obtain ⟨ty, e1, e2, e3⟩ := key
    subst e1
    split at hx
    · obtain ⟨a, ha, b, hb, ea, eb, ty', g1, g2, f1, f2⟩ := hx
      rw [harr] at ha hb
      rw [inj ha hs ea, inj hb hm eb] at f2
      rw [e2] at f1
      cases f1
      exact ⟨g1, g2, f2⟩
    · rename_i hno
      rw [List.getLast?_eq_none_iff] at hup
      obtain ⟨g1, g2, y, f1, f2⟩ := e3 (h.types s hs m hm hsk hmk hup).ne_modified
      rw [f2] at hx
      cases hx
      refine ⟨g1, g2, ?_⟩
      have hgeo : ∀ a : Arr (K × K × K), (¬ a.dynamic = true ∨ n = 0) → a.geoAt (freq * ((n - 1) / freq)) = a.geoAt 0 := by
        rintro a (ha | rfl)
        · unfold Arr.geoAt
          unfold Arr.dynamic at ha
          rw [Option.isSome_iff_ne_none, not_not] at ha
          rw [ha]
        · simp
      have hn : (¬ s.dynamic = true ∧ ¬ m.dynamic = true) ∨ n = 0 := by
        rcases Nat.eq_zero_or_pos n with e | e
        · exact .inr e
        · exact .inl ⟨fun hd => hno ⟨.inl hd, e⟩, fun hd => hno ⟨.inr hd, e⟩⟩
      rw [hgeo s (hn.imp And.left id), hgeo m (hn.imp And.right id)]
      exact f1

theorem RoomPlan.params (h : RoomPlan ext i freq as os t) {g : G} {par : K × Nat} {gc : G × Coll (K × K × K) (IrMat R)}
    (hset : roomSetup ext i g (planned freq as os t) = .ok (par, gc)) : i.parameters ext = .ok par := by
  unfold roomSetup at hset
  split at hset
  · cases hset
  · rename_i p hp
    split at hset
    · cases hset
    · cases hset
      exact hp

theorem mkRecordSignal_name {info : DiagInfo} {name sig : String} {ex : Option IdxSel} {n : Nat} {d : Diag (DData R P V)}
    (hd : mkRecordSignal info name sig ex none n none = .ok d) : d.name = name := (mkRecordSignal_ok hd).1

theorem recordAll_ok {info : DiagInfo} {ex : Option IdxSel} {l : List (String × String)} {ds : List (Diag (DData R P V))}
    (h : recordAll info ex l = .ok ds) : ds.map Diag.name = l.map (·.1) ∧
      ∀ x ∈ l, ∃ d ∈ ds, mkRecordSignal info x.1 x.2 ex none 1 none = .ok d := by
  unfold recordAll at h
  induction l generalizing ds with
  | nil => cases h; simp
  | cons x l ih =>
    rw [List.mapM_cons] at h
    cases hx : (mkRecordSignal info x.1 x.2 ex none 1 none : Except PyErr (Diag (DData R P V))) with
    | error e => rw [hx] at h; cases h
    | ok d =>
      rw [hx] at h
      cases hl : (l.mapM fun x => (mkRecordSignal info x.1 x.2 ex none 1 none : Except PyErr (Diag (DData R P V)))) with
      | error e => rw [hl] at h; cases h
      | ok ds' =>
        rw [hl] at h
        cases h
        obtain ⟨e1, e2⟩ := ih hl
        refine ⟨by rw [List.map_cons, List.map_cons, e1, mkRecordSignal_name hx], fun y hy => ?_⟩
        rcases List.mem_cons.1 hy with rfl | hy
        · exact ⟨d, List.mem_cons_self, hx⟩
        · obtain ⟨d', h1, h2⟩ := e2 y hy
          exact ⟨d', List.mem_cons_of_mem _ h1, h2⟩

theorem recordAll_fit {cfg : SimCfg R (IrMat R) (Fir R) S (G × Coll (K × K × K) (IrMat R)) P (DData R P V) (DOut R V)}
    {info : DiagInfo} {ex : Option IdxSel} {f : Nat} (hex : ex.getD (.every info.exportFreq) = .every f) (hf : 0 < f)
    (htot : info.tot = cfg.tot) (hpos : 0 < cfg.tot) {l : List (String × String)}
    (hl : ∀ x ∈ l, cfg.dims x.2 = some 1) (L : P → Prop) :
    ∃ ds : List (Diag (DData R P V)), recordAll info ex l = .ok ds ∧ ∀ d ∈ ds, d.Fits cfg L := by
  obtain ⟨c, hc⟩ : ∃ c, exportCounter info ex = .ok c := by
    unfold exportCounter
    rw [hex]
    show ∃ ex, IxCounter.ofFreq f info.tot = .ok ex
    unfold IxCounter.ofFreq
    rw [if_neg (by omega)]
    exact ⟨_, rfl⟩
  have hc0 : ∀ e ∈ c.left, 0 ≤ e := by
    unfold exportCounter at hc
    rw [hex] at hc
    rw [(ofFreq_left (show IxCounter.ofFreq f info.tot = .ok c from hc)).2]
    intro e he
    obtain ⟨j, -, rfl⟩ := List.mem_map.1 he
    exact Int.natCast_nonneg _
  have hone : ∀ x ∈ l, ∃ d : Diag (DData R P V), mkRecordSignal info x.1 x.2 ex none 1 none = .ok d ∧ d.Fits cfg L := by
    intro x hx
    refine ⟨⟨x.1, IvCounter.init [(0, (info.tot : Int))], c, .recSignal x.2 none (List.replicate 1 (List.replicate info.tot none))⟩, ?_, ?_⟩
    · unfold mkRecordSignal
      rw [hc]
      rfl
    · have := DData.Fits.recSignal (cfg := cfg) (K := L) (ivs := [(0, (info.tot : Int))]) (chan := none) (rows := List.range 1)
        (hl x hx) rfl (by simp)
      refine ⟨[(0, (info.tot : Int))], rfl, ⟨le_refl _, by rw [htot]; exact Int.natCast_pos.2 hpos, trivial⟩, ?_, hc0, ?_⟩
      · intro q hq
        rw [List.mem_singleton] at hq
        rw [hq, htot]
      · convert this using 2
        rw [htot]
        simp [matOf, List.map_const']
  unfold recordAll
  induction l with
  | nil => exact ⟨[], rfl, by simp⟩
  | cons x l ih =>
    obtain ⟨d, e1, e2⟩ := hone x List.mem_cons_self
    obtain ⟨ds, e3, e4⟩ := ih (fun y hy => hl y (List.mem_cons_of_mem _ hy)) fun y hy => hone y (List.mem_cons_of_mem _ hy)
    refine ⟨d :: ds, by rw [List.mapM_cons, e1, e3]; rfl, fun d' hd' => ?_⟩
    rcases List.mem_cons.1 hd' with rfl | hd'
    · exact e2
    · exact e4 d' hd'

end
end Verif

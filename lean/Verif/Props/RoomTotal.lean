/-
C164: a room simulation without user errors is set up and runs to its end.
-/
import Verif.Lemmas.RoomTotal
import Verif.Props.Room
import Verif.Props.Total
namespace Verif

section
variable {K R G S P V : Type} [Field K] [LinearOrder K] [Field R] [DecidableEq R]
  {ext : RoomExt K R G} {i : RoomInfo K} {freq : Nat} {as : List (Arr (K × K × K))} {os : List (PathOp R)} {t : String}

/-- C164. A room simulation without user errors is set up and runs to its end: the arrays are added, paths
and path types are set by any calls, all impulse responses are generated, and neither the preparation
nor the main loop (with the updates of moving arrays, the processor, all saves and exports) raises. -/
theorem C164_room_runs (h : RoomPlan ext i freq as os t)
    (base : SimCfg R (IrMat R) (Fir R) S (G × Coll (K × K × K) (IrMat R)) P (DData R P V) (DOut R V))
    (hdiag : base.diag = diagOps R P V) (hfilt : base.filt = firOps R)
    (hnames : ((base.withArrays as).signalList.map (·.1)).Nodup) {srcs : String → S}
    (hsrcs : ∀ a ∈ as, a.kind = some .free → ∃ x, IsStream base.srcGet (srcs a.name) a.num x)
    {lp : ProcView R P} (had : Admissible (base.withArrays as) lp) {L : P → Prop} {proc : P} (hp0 : L proc)
    (hacts : ∀ p, base.proc = some p → ∀ q T a, L q →
      ∃ q' out, lp.act q (cut (base.withArrays as).dims T a (lp.H + p.bs)) = .ok (q', out) ∧ L q')
    (f0 : Fir R) {ds : List (Diag (DData R P V))} (hnd : (ds.map Diag.name).Nodup)
    (hds : ∀ d ∈ ds, d.Fits (base.withArrays as) L) (g : G) :
    ∃ fin, simulate base ext i g (planned freq as os t) srcs proc f0 ds = .ok fin := by
  obtain ⟨hinf, par, gc, hset, hu⟩ := h.setup g
  have hs := h.scene base hdiag hfilt hnames hsrcs hu
  have hv : ValidSetup (roomCfg base ext i par as) lp srcs gc proc
      (fun gc => Usable (i.cfg ext par) (infosOf as) gc.2) L := { hs with proc0 := hp0, acts := hacts }
  obtain ⟨fin, hfin⟩ := C77_runs_through (cfg := roomCfg base ext i par as) (lp := lp)
    ⟨had.block, had.buffer, had.chunk, had.proc, had.valid⟩ hv f0 hnd
    (fun d hd => Diag.Fits.of_dims (cfg := base.withArrays as) (cfg' := roomCfg base ext i par as) rfl rfl rfl (hds d hd))
  refine ⟨fin, ?_⟩
  unfold simulate
  rw [hset]
  dsimp only
  rw [hinf]
  exact hfin

omit [DecidableEq R] in
/-- C164, what "all impulse responses are generated" means: once set up, every pair of a source and a
microphone has a response of the shape of its arrays. -/
theorem C164_room_set_up (h : RoomPlan ext i freq as os t) (g : G) :
    ∃ par g' c', roomSetup ext i g (planned freq as os t) = .ok (par, g', c') ∧
      ∀ a ∈ as, ∀ b ∈ as, (a.kind = some .free ∨ a.kind = some .ctrl) → b.kind = some .mic →
        ∃ x, c'.paths a.name b.name = some x ∧ x.numIn = a.num ∧ x.numOut = b.num := by
  obtain ⟨hinf, par, gc, hset, hu⟩ := h.setup g
  refine ⟨par, gc.1, gc.2, hset, fun a ha b hb hak hbk => ?_⟩
  have hget : ∀ a ∈ as, ∃ a' ∈ gc.2.arrays, a'.kind = a.kind ∧ a'.name = a.name ∧ a'.num = a.num := by
    intro a ha
    rcases hka : a.kind with _ | k
    · exact absurd hka (h.kinds a ha)
    · have hx : (⟨a.name, a.num, k, a.dynamic⟩ : ArrInfo) ∈ gc.2.infos := by
        rw [hu.infos]
        exact mem_infosOf.2 ⟨a, ha, hka, rfl, rfl, rfl⟩
      obtain ⟨a', ha', he⟩ := List.mem_filterMap.1 hx
      rcases hka' : a'.kind with _ | k'
      · rw [hka'] at he; cases he
      · rw [hka', Option.map_some, Option.some.injEq, ArrInfo.mk.injEq] at he
        obtain ⟨e1, e2, e3, _⟩ := he
        exact ⟨a', ha', by rw [hka', e3], e1, e2⟩
  obtain ⟨a', ha', ka, na, ma⟩ := hget a ha
  obtain ⟨b', hb', kb, nb, mb⟩ := hget b hb
  obtain ⟨x, x1, x2, x3⟩ := hu.paths a' ha' b' hb' (by rw [ka]; exact hak) (by rw [kb]; exact hbk)
  exact ⟨x, by rw [← na, ← nb]; exact x1, by rw [x2, ma], by rw [x3, mb]⟩

end

/-! ### Example: a moving source, a loudspeaker with a given path, microphones -/

/-- A moving source, a loudspeaker and two microphones. -/
def planArrays : List (Arr (ℚ × ℚ × ℚ)) :=
  [⟨"src", some .free, 1, [(0, 1, 3)], none, 1, some fun n => [((n : ℚ) / 8, 1, 3)], true, []⟩,
   ⟨"spk", some .ctrl, 1, [(1, 1, 3)], none, 1, none, true, []⟩,
   ⟨"mic", some .mic, 2, [(2, 1, 3), (2, 2, 5 / 2)], none, 1, none, true, []⟩]

/-- The path of the loudspeaker is given, that of the source is set to image sources. -/
def planOps : List (PathOp ℚ) :=
  [.path ⟨1, 2, fun _ _ => [1, 1 / 2]⟩ "spk" "mic", .type "src" "mic" "ism"]

theorem box_lawful (par : ℚ × Nat) : (boxInfo.cfg boxExt par).Lawful where
  receivers := by intro g ss ms; simp [RoomInfo.cfg, boxExt]
  sources := by
    intro g ss ms x hx
    simp only [RoomInfo.cfg, boxExt, List.mem_map] at hx
    obtain ⟨_, _, rfl⟩ := hx
    simp
  sos := fun _ => rfl
  pad := show 1 ≤ 8 by decide

theorem plan_demo : RoomPlan boxExt boxInfo 2 planArrays planOps "nonsense" where
  names := by decide
  kinds := by decide
  channels := by decide
  sized := by
    intro a ha u
    simp only [planArrays, List.mem_cons, List.not_mem_nil, or_false] at ha
    rcases ha with rfl | rfl | rfl <;> rfl
  initial := by
    intro a ha f hf
    simp only [planArrays, List.mem_cons, List.not_mem_nil, or_false] at ha
    rcases ha with rfl | rfl | rfl
    · cases hf; simp
    · cases hf
    · cases hf
  types := by
    intro a ha b hb hak hbk hup
    simp only [planArrays, List.mem_cons, List.not_mem_nil, or_false] at ha hb
    rcases hb with rfl | rfl | rfl
    · cases hbk
    · cases hbk
    · rcases ha with rfl | rfl | rfl
      · exact .inr (.inr (.inr ⟨rfl, rfl, rfl⟩))
      · cases hup
      · rcases hak with h | h <;> cases h
  moving := by
    intro a ha b hb hak hbk hmv
    simp only [planArrays, List.mem_cons, List.not_mem_nil, or_false] at ha hb
    rcases hb with rfl | rfl | rfl
    · cases hbk
    · cases hbk
    · rcases ha with rfl | rfl | rfl
      · rfl
      · rcases hmv with h | h <;> cases h
      · rcases hak with h | h <;> cases h
  sources := fun b _ _ _ => ⟨_, List.mem_cons_self, .inl rfl⟩
  interval := by decide
  reverberation := fun _ => by
    have h' : ¬ (3 : ℚ) < 1 / 2 := by norm_num
    refine ⟨(4, 2), ?_⟩
    show (if (3 : ℚ) < 1 / 2 then Except.error PyErr.value else .ok ((4 : ℚ), 2)) = _
    rw [if_neg h']
  external := box_lawful

/-- The box with any sizes that fit together runs to its end (the default type of propagation does not
exist, but every pair has its own). -/
example (B C tot : Nat) (hB : 4 ≤ B) (hC : 1 ≤ C) (g : Nat) : ∃ fin,
    simulate { boxBase with B := B, C := C, tot := tot } boxExt boxInfo g
      (planned 2 planArrays planOps "nonsense") (fun _ => 0) () demoFilt
      [⟨"rec", IvCounter.init [], IxCounter.init [2, 7],
        .recSignal "mic" none (matOf 2 tot fun _ _ => none)⟩] = .ok fin := by
  refine C164_room_runs plan_demo { boxBase with B := B, C := C, tot := tot } rfl rfl ?_ ?_ (lp := ⟨0, fun p _ => .ok (p, fun _ _ _ => 0)⟩)
    ⟨?_, ?_, hC, (by rintro p ⟨⟩), (by rintro p ⟨⟩)⟩ (L := fun _ => True) trivial
    (by rintro p ⟨⟩) demoFilt (by simp) ?_ g
  · show ["src", "spk", "mic"].Nodup
    decide
  · intro a ha hk
    simp only [planArrays, List.mem_cons, List.not_mem_nil, or_false] at ha
    rcases ha with rfl | rfl | rfl
    · exact ⟨_, open_stream 0⟩
    · cases hk
    · cases hk
  · show 1 ≤ B / 4
    omega
  · show B / 4 + 1 ≤ B
    omega
  · intro d hd
    rw [List.mem_singleton] at hd
    subst hd
    refine ⟨[], rfl, trivial, by simp, show ∀ e ∈ (IxCounter.init [2, 7]).left, 0 ≤ e by decide, ?_⟩
    exact .recSignal (num := 2) (rows := [0, 1]) rfl rfl (by simp)

end Verif

/-
C193: a maximal length of the impulse responses beyond the longest response does not matter for adaptive noise control.
-/
import Verif.Lemmas.LengthWith
import Verif.Props.GivenWith
namespace Verif

section
variable {R K S V G : Type} [Field R] [DecidableEq R] [Field K] [LinearOrder K]

/-- The simulations that end in `fin` and `fin'` differ in the lengths of their impulse responses only. -/
structure SameLonger {P D O : Type} (fin fin' : SimSt R (Fir R) S (G × Coll (K × K × K) (IrMat R)) P D O) : Prop where
  sig : fin'.eng.sig = fin.eng.sig
  srcs : fin'.eng.srcs = fin.eng.srcs
  gen : fin'.eng.arr.1 = fin.eng.arr.1
  arrays : fin'.eng.arr.2.arrays = fin.eng.arr.2.arrays
  paths : ∀ s m, Option.Rel SameIr (fin.eng.arr.2.paths s m) (fin'.eng.arr.2.paths s m)
  idx : fin'.idx = fin.idx
  n : fin'.n = fin.n
  log : fin'.log = fin.log

omit [DecidableEq R] [Field K] [LinearOrder K] in
theorem SameLonger.of {P D O : Type} {fin fin' : SimSt R (Fir R) S (G × Coll (K × K × K) (IrMat R)) P D O}
    {cfg : SimCfg R (IrMat R) (Fir R) S (G × Coll (K × K × K) (IrMat R)) P D O} {Pd : D → Prop}
    (h : StAlike (fun _ => false) cfg (PRel (fun t => t ≠ "random") SameIr) (fun _ _ f f' => SameFir f f') Pd fin fin') :
    SameLonger fin fin' :=
  ⟨h.eng.sig.eq.symm, h.eng.srcs.symm, h.eng.arr.gen, h.eng.arr.arrays, h.eng.arr.paths, h.idx.symm, h.n.symm, h.log.symm⟩

variable {ext : RoomExt K R G} {i : RoomInfo K} {g : G} {c : Coll (K × K × K) (IrMat R)} {srcs : String → S}
  {bs ub L L' : Nat} {mu beta : R} {norm : FxNorm} {f0 : Fir R}

/-- **C193, FastBlockFxLMS**: if no response of the image-source package is longer than `max_room_ir_length`, every other
`max_room_ir_length` that is not less than the longest response gives the same control filter, signals,
diagnostics and exports; the responses of the arrays get zeros at the end or lose them.  There
must be no high-pass filter and no random paths; the diagnostics must depend on the arrays only. -/
theorem C193_fast {D O : Type} (base : SimCfg R (IrMat R) (Fir R) S (G × Coll (K × K × K) (IrMat R)) (FastSt R) D O)
    (hf : base.filt = firOps R) (hcut : i.cutoff ≤ 0) (hlen : ShortResponses ext i L') (hT : ∀ s m, c.types s m ≠ some "random")
    {diags : Coll (K × K × K) (IrMat R) → Except PyErr (List (Diag D))}
    (hdiags : ∀ c1 c2 : Coll (K × K × K) (IrMat R), c1.arrays = c2.arrays → diags c1 = diags c2)
    {fin : SimSt R (Fir R) S (G × Coll (K × K × K) (IrMat R)) (FastSt R) D O}
    (h : realSimulate base ext i g c srcs bs L mu beta f0 diags = .ok fin) :
    ∃ fin', realSimulate base ext { i with irLen := L' } g c srcs bs L mu beta f0 diags = .ok fin' ∧ SameLonger fin fin' ∧
      fin'.eng.proc = fin.eng.proc ∧ fin'.diags = fin.diags := by
  unfold realSimulate at h ⊢
  cases hs : roomSetup ext i g c with
  | error x => rw [hs] at h; cases h
  | ok r =>
    obtain ⟨par, gc⟩ := r
    obtain ⟨hgen, gc', hs', hr⟩ := roomSetup_length hcut hlen hT hs
    rw [hs] at h
    rw [hs']
    dsimp only at h ⊢
    rw [hr.arrays, hdiags gc'.2 gc.2 hr.arrays]
    cases hp : Coll.path gc "loudspeaker" "error" with
    | error x => rw [hp] at h; cases h
    | ok sp =>
      obtain ⟨sp', hp', hsp⟩ := path_rel hr hp
      rw [hp] at h
      rw [hp']
      dsimp only at h ⊢
      cases hq : fastCreate gc.2.arrays bs L mu beta with
      | error x => rw [hq] at h; cases h
      | ok q =>
        rw [hq] at h
        dsimp only at h ⊢
        cases hd : diags gc.2 with
        | error x => rw [hd] at h; cases h
        | ok ds =>
          rw [hd] at h
          dsimp only at h ⊢
          obtain ⟨fin', f1, f2⟩ := runWith_length (cfg := { base with
            arrays := c.infos, arrUpdate := Coll.update (createPath (i.cfg ext par)), arrPath := Coll.path
            proc := some (fastProc q) }) hf hgen rfl rfl hr h
          rw [fastInit_same q hsp] at f1
          exact ⟨fin', f1, .of f2, f2.eng.proc.symm, f2.diags.symm⟩

/-- **C193, FxLMS**: the same, for diagnostics that do not look at the secondary paths.  The secondary paths
of the processor, too, get zeros at the end or lose them. -/
theorem C193_fxlms (base : SimCfg R (IrMat R) (Fir R) S (G × Coll (K × K × K) (IrMat R)) (FxSt R) (DData R (FxSt R) V) (DOut R V))
    (hf : base.filt = firOps R) (hdiag : base.diag = diagOps R (FxSt R) V)
    (hcut : i.cutoff ≤ 0) (hlen : ShortResponses ext i L') (hT : ∀ s m, c.types s m ≠ some "random")
    {diags : Coll (K × K × K) (IrMat R) → Except PyErr (List (Diag (DData R (FxSt R) V)))}
    (hdiags : ∀ c1 c2 : Coll (K × K × K) (IrMat R), c1.arrays = c2.arrays → diags c1 = diags c2)
    (hctrl : ∀ c1 ds, diags c1 = .ok ds → ∀ d ∈ ds, Diag.Same (fun p p' => p'.ctrl = p.ctrl) d d)
    {fin : SimSt R (Fir R) S (G × Coll (K × K × K) (IrMat R)) (FxSt R) (DData R (FxSt R) V) (DOut R V)}
    (h : ancSimulate base ext i g c srcs bs ub L mu beta norm f0 diags = .ok fin) :
    ∃ fin', ancSimulate base ext { i with irLen := L' } g c srcs bs ub L mu beta norm f0 diags = .ok fin' ∧ SameLonger fin fin' ∧
      fin'.eng.proc.ctrl = fin.eng.proc.ctrl ∧ SameFir fin.eng.proc.sec fin'.eng.proc.sec ∧ fin'.eng.proc.cnt = fin.eng.proc.cnt ∧
      List.Forall₂ (fun d d' => d'.name = d.name ∧ ∀ e, d'.data.output e = d.data.output e) fin.diags fin'.diags := by
  unfold ancSimulate at h ⊢
  cases hs : roomSetup ext i g c with
  | error x => rw [hs] at h; cases h
  | ok r =>
    obtain ⟨par, gc⟩ := r
    obtain ⟨hgen, gc', hs', hr⟩ := roomSetup_length hcut hlen hT hs
    rw [hs] at h
    rw [hs']
    dsimp only at h ⊢
    rw [hr.arrays, hdiags gc'.2 gc.2 hr.arrays]
    cases hp : Coll.path gc "loudspeaker" "error" with
    | error x => rw [hp] at h; cases h
    | ok sp =>
      obtain ⟨sp', hp', hsp⟩ := path_rel hr hp
      rw [hp] at h
      rw [hp']
      dsimp only at h ⊢
      cases hq : fxCreate gc.2.arrays bs ub L mu beta norm with
      | error x => rw [hq] at h; cases h
      | ok q =>
        rw [hq] at h
        dsimp only at h ⊢
        cases hd : diags gc.2 with
        | error x => rw [hd] at h; cases h
        | ok ds =>
          rw [hd] at h
          dsimp only at h ⊢
          obtain ⟨fin1, f1, f2⟩ := runWith_length (cfg := { base with
            arrays := c.infos, arrUpdate := Coll.update (createPath (i.cfg ext par)), arrPath := Coll.path
            proc := some (fxProc q) }) hf hgen rfl rfl hr h
          obtain ⟨fin', k1, k2⟩ := same_runWith (K := FxLonger) (cfg := { base with
            arrays := c.infos, arrUpdate := Coll.update (createPath (({ i with irLen := L' } : RoomInfo K).cfg ext par)), arrPath := Coll.path
            proc := some (fxProc q) }) (pr' := fxProc q) (prep' := fxPrepare) rfl (fxProc_same q) hdiag
            fxPrepare_same (fxInit_same q hsp) (ds' := ds)
            (List.forall₂_same.2 fun d hdm => by
              obtain ⟨a1, a2, a3, a4⟩ := hctrl _ _ hd d hdm
              exact ⟨a1, a2, a3, a4.mono fun p p' hp => hp.ctrl⟩) f1
          obtain ⟨p', e1, e2⟩ := k2.eng
          have z := SameLonger.of f2
          refine ⟨fin', ?_, ⟨?_, ?_, ?_, ?_, ?_, k2.idx.trans z.idx, k2.n.trans z.n, k2.log.trans z.log⟩, ?_, ?_, ?_, ?_⟩
          · rw [← k1]
            unfold SimCfg.withProc
            rw [hdiag]
          · rw [e1]; exact z.sig
          · rw [e1]; exact z.srcs
          · rw [e1]; exact z.gen
          · rw [e1]; exact z.arrays
          · rw [e1]; exact z.paths
          · rw [e1, f2.eng.proc]; exact e2.ctrl
          · rw [e1, f2.eng.proc]; exact e2.sec
          · rw [e1, f2.eng.proc]; exact e2.cnt
          · rw [f2.diags]
            exact k2.diags.imp fun d d' hd => ⟨hd.1, hd.2.2.2.output⟩

end

/-! ### the diagnostics of the examples -/

section
variable {R P V Pt : Type} {K : P → P → Prop}

theorem bind_ok {α β : Type} {x : Except PyErr α} {f : α → Except PyErr β} {y : β} (h : x >>= f = .ok y) :
    ∃ a, x = .ok a ∧ f a = .ok y := by
  cases x with
  | error e => cases h
  | ok a => exact ⟨a, rfl, h⟩

theorem mkSignalPower_same {info : DiagInfo} {name sig : String} {ex : Option IdxSel} {sv : Option (List (Int × Int))}
    {chan : Option (List Int)} {d : Diag (DData R P V)} (h : mkSignalPower info name sig ex sv chan = .ok d) : Diag.Same K d d := by
  unfold mkSignalPower at h
  obtain ⟨_, _, h⟩ := bind_ok h
  obtain ⟨_, _, h⟩ := bind_ok h
  cases h
  exact ⟨rfl, rfl, rfl, .power _ _ _⟩

theorem mkSignalPowerRatio_same {info : DiagInfo} {name num den : String} {ex : Option IdxSel} {sv : Option (List (Int × Int))}
    {c1 c2 : Option (List Int)} {d : Diag (DData R P V)} (h : mkSignalPowerRatio info name num den ex sv c1 c2 = .ok d) :
    Diag.Same K d d := by
  unfold mkSignalPowerRatio at h
  obtain ⟨_, _, h⟩ := bind_ok h
  obtain ⟨_, _, h⟩ := bind_ok h
  cases h
  exact ⟨rfl, rfl, rfl, .ratio _ _ _ _ _ _⟩

theorem mkRecordSignal_same {info : DiagInfo} {name sig : String} {ex : Option IdxSel} {sv : Option (List (Int × Int))} {n : Nat}
    {chan : Option (List Int)} {d : Diag (DData R P V)} (h : mkRecordSignal info name sig ex sv n chan = .ok d) : Diag.Same K d d := by
  unfold mkRecordSignal at h
  obtain ⟨_, _, h⟩ := bind_ok h
  obtain ⟨_, _, h⟩ := bind_ok h
  split at h
  · cases h
  · cases h
    exact ⟨rfl, rfl, rfl, .recSignal _ _ _⟩

theorem mkRecordFilter_same {info : DiagInfo} {name : String} {get : P → Except PyErr V} {sv : Option IdxSel}
    (hget : ∀ p p', K p p' → get p' = get p) {d : Diag (DData R P V)} (h : mkRecordFilter info name get sv = .ok d) : Diag.Same K d d := by
  unfold mkRecordFilter at h
  obtain ⟨_, _, h⟩ := bind_ok h
  obtain ⟨_, _, h⟩ := bind_ok h
  cases h
  exact ⟨rfl, rfl, rfl, .instant _ _ _ hget⟩

/-- The diagnostics of the examples look at the processor through `get` only. -/
theorem ancDiagnostics_look {info : DiagInfo} {arrays : List (Arr Pt)} {get : P → Except PyErr V}
    (hget : ∀ p p', K p p' → get p' = get p) {ds : List (Diag (DData R P V))} (h : ancDiagnostics info arrays get = .ok ds) :
    ∀ d ∈ ds, Diag.Same K d d := by
  unfold ancDiagnostics at h
  obtain ⟨d1, h1, h⟩ := bind_ok h
  obtain ⟨d2, h2, h⟩ := bind_ok h
  obtain ⟨d3, h3, h⟩ := bind_ok h
  obtain ⟨d4, h4, h⟩ := bind_ok h
  obtain ⟨d5, h5, h⟩ := bind_ok h
  obtain ⟨d6, h6, h⟩ := bind_ok h
  obtain ⟨nl, _, h⟩ := bind_ok h
  obtain ⟨d7, h7, h⟩ := bind_ok h
  obtain ⟨ne, _, h⟩ := bind_ok h
  obtain ⟨d8, h8, h⟩ := bind_ok h
  obtain ⟨nr, _, h⟩ := bind_ok h
  obtain ⟨d9, h9, h⟩ := bind_ok h
  obtain ⟨d10, h10, h⟩ := bind_ok h
  obtain ⟨d11, h11, h⟩ := bind_ok h
  obtain ⟨d12, h12, h⟩ := bind_ok h
  dsimp only at h
  have hall : ∀ d ∈ [d1, d2, d3, d4, d5, d6, d7, d8, d9, d10, d11, d12], Diag.Same K d d := by
    intro d hd
    simp only [List.mem_cons, List.not_mem_nil, or_false] at hd
    rcases hd with rfl | rfl | rfl | rfl | rfl | rfl | rfl | rfl | rfl | rfl | rfl | rfl
    · exact mkSignalPowerRatio_same h1
    · exact mkSignalPower_same h2
    · exact mkSignalPower_same h3
    · exact mkSignalPower_same h4
    · exact mkSignalPower_same h5
    · exact mkSignalPower_same h6
    · exact mkRecordSignal_same h7
    · exact mkRecordSignal_same h8
    · exact mkRecordSignal_same h9
    · exact mkRecordSignal_same h10
    · exact mkRecordSignal_same h11
    · exact mkRecordFilter_same hget h12
  split at h
  · obtain ⟨d13, h13, h⟩ := bind_ok h
    cases h
    intro d hd
    rcases List.mem_append.1 hd with hd | hd
    · exact hall d hd
    · rw [List.mem_singleton] at hd
      subst hd
      exact mkSignalPowerRatio_same h13
  · cases h
    exact hall

end

/-! ### examples -/

theorem box_short (L' : Nat) (h : 3 ≤ L') : ShortResponses boxExt boxInfo L' := by
  intro par _ g ss ms rs hrs r hr
  obtain ⟨m, -, rfl⟩ := List.mem_map.1 hrs
  obtain ⟨s, -, rfl⟩ := List.mem_map.1 hr
  exact ⟨le_refl 3, by simpa using h⟩

theorem example_types (s m : String) : (planned (R := ℚ) 2 diceArrays exampleTypes "ism").types s m ≠ some "random" := by
  intro h
  have := planned_types h
  simp [exampleTypes] at this

def lengthFx (n : Nat) :=
  ancSimulate { ancBase with B := 6, C := 4, tot := 5 } boxExt { boxInfo with irLen := n } 0 (planned 2 diceArrays exampleTypes "ism")
    (fun _ => 0) 1 2 2 (1 / 100) (1 / 1000) .none demoFilt (fun c => ancDiagnostics ⟨5, 2, 4⟩ c.arrays fun _ => .ok 0)

def lengthFast (n : Nat) :=
  realSimulate { realBase 5 with B := 6, C := 4 } boxExt { boxInfo with irLen := n } 0 (planned 2 diceArrays exampleTypes "ism")
    (fun _ => 0) 1 2 (1 / 100) (1 / 1000) demoFilt (fun c => ancDiagnostics ⟨5, 2, 4⟩ c.arrays fun _ => .ok 0)

/-- Responses of length 3 or 7 give the same; of length 2, something else. -/
example : errBuffer ((lengthFx 7).map observe) = errBuffer ((lengthFx 3).map observe) ∧
    errBuffer ((lengthFx 2).map observe) ≠ errBuffer ((lengthFx 3).map observe) := by
  have hne : errBuffer ((lengthFx 2).map observe) ≠ errBuffer ((lengthFx 3).map observe) ∧ (lengthFx 3).isOk = true := by
    decide +kernel
  refine ⟨?_, hne.1⟩
  cases h : lengthFx 3 with
  | error x => rw [h] at hne; cases hne.2
  | ok fin =>
    obtain ⟨fin', h1, h2, -⟩ := C193_fxlms (L' := 7) { ancBase with B := 6, C := 4, tot := 5 } rfl rfl (i := boxInfo) (le_refl _)
      (box_short 7 (by decide)) example_types (fun c1 c2 h => by rw [h]) (fun c1 ds h => ancDiagnostics_look (fun _ _ _ => rfl) h) h
    have h1 : lengthFx 7 = .ok fin' := h1
    rw [h1]
    simp only [Except.map, errBuffer, observe, h2.sig]

example : errBuffer ((lengthFast 7).map observe) = errBuffer ((lengthFast 3).map observe) ∧
    errBuffer ((lengthFast 2).map observe) ≠ errBuffer ((lengthFast 3).map observe) := by
  have hne : errBuffer ((lengthFast 2).map observe) ≠ errBuffer ((lengthFast 3).map observe) ∧ (lengthFast 3).isOk = true := by
    decide +kernel
  refine ⟨?_, hne.1⟩
  cases h : lengthFast 3 with
  | error x => rw [h] at hne; cases hne.2
  | ok fin =>
    obtain ⟨fin', h1, h2, -⟩ := C193_fast (L' := 7) { realBase 5 with B := 6, C := 4 } rfl (i := boxInfo) (le_refl _)
      (box_short 7 (by decide)) example_types (fun c1 c2 h => by rw [h]) h
    have h1 : lengthFast 7 = .ok fin' := h1
    rw [h1]
    simp only [Except.map, errBuffer, observe, h2.sig]

end Verif

/-
C189 and C190: the coordinates in simulations with adaptive noise control.
-/
import Verif.Lemmas.CoordsWith
import Verif.Props.Room
import Verif.Props.OrderWith
namespace Verif

section
variable {F K R S D O G : Type} [Field K] [LinearOrder K] [Field R]

/-- **C189** `FxLMS`: moving the room and all arrays, with their trajectories, by the same vector changes nothing
that can be seen: the control filter, signals, recordings, exports, impulse responses and
exceptions are the same.  The diagnostics must not depend on coordinates themselves. -/
theorem C189_fxlms (base : SimCfg R (IrMat R) F S (G × Coll (K × K × K) (IrMat R)) (FxSt R) D O) (ext : RoomExt K R G)
    (i : RoomInfo K) (d : K × K × K) (g : G) (c : Coll (K × K × K) (IrMat R)) (srcs : String → S) (bs ub L : Nat) (mu beta : R)
    (norm : FxNorm) (f0 : F) {diags : Coll (K × K × K) (IrMat R) → Except PyErr (List (Diag D))}
    {mk : Coll Unit (IrMat R) → Except PyErr (List (Diag D))} (hmk : ∀ c, diags c = mk (c.mapPos fun _ => ())) :
    (ancSimulate base ext { i with center := shift d i.center } g (c.mapPos (shift d)) srcs bs ub L mu beta norm f0 diags).map observe =
      (ancSimulate base ext i g c srcs bs ub L mu beta norm f0 diags).map observe := by
  rw [ancSimulate_observe (hmk := hmk), ancSimulate_observe (hmk := hmk)]
  have hp : ({ i with center := shift d i.center } : RoomInfo K).parameters ext = i.parameters ext := rfl
  rw [hp]
  cases i.parameters ext with
  | error x => rfl
  | ok par =>
    exact outcomeWith_mapPos (T := fun _ => True) _ (fun g a b t _ => C106_path ext i d par g a b t) trivial g c
      (fun _ _ _ _ => trivial) srcs f0 _

/-- **C189** `FastBlockFxLMS`: the same. -/
theorem C189_fast (base : SimCfg R (IrMat R) F S (G × Coll (K × K × K) (IrMat R)) (FastSt R) D O) (ext : RoomExt K R G)
    (i : RoomInfo K) (d : K × K × K) (g : G) (c : Coll (K × K × K) (IrMat R)) (srcs : String → S) (bs L : Nat) (mu beta : R)
    (f0 : F) {diags : Coll (K × K × K) (IrMat R) → Except PyErr (List (Diag D))}
    {mk : Coll Unit (IrMat R) → Except PyErr (List (Diag D))} (hmk : ∀ c, diags c = mk (c.mapPos fun _ => ())) :
    (realSimulate base ext { i with center := shift d i.center } g (c.mapPos (shift d)) srcs bs L mu beta f0 diags).map observe =
      (realSimulate base ext i g c srcs bs L mu beta f0 diags).map observe := by
  rw [realSimulate_observe (hmk := hmk), realSimulate_observe (hmk := hmk)]
  have hp : ({ i with center := shift d i.center } : RoomInfo K).parameters ext = i.parameters ext := rfl
  rw [hp]
  cases i.parameters ext with
  | error x => rfl
  | ok par =>
    exact outcomeWith_mapPos (T := fun _ => True) _ (fun g a b t _ => C106_path ext i d par g a b t) trivial g c
      (fun _ _ _ _ => trivial) srcs f0 _

/-- The diagnostics of the examples, for arrays without coordinates. -/
def blindDiagnostics {P V : Type} (info : DiagInfo) (get : P → Except PyErr V) (c : Coll Unit (IrMat R)) :
    Except PyErr (List (Diag (DData R P V))) := ancDiagnostics info c.arrays get

omit [Field K] [LinearOrder K] in
/-- The diagnostics of the examples do not depend on coordinates. -/
theorem ancDiagnostics_coords {P V : Type} (info : DiagInfo) (get : P → Except PyErr V) (c : Coll (K × K × K) (IrMat R)) :
    (ancDiagnostics info c.arrays get : Except PyErr (List (Diag (DData R P V)))) =
      blindDiagnostics info get (c.mapPos fun _ => ()) := by
  unfold blindDiagnostics ancDiagnostics
  have he : ((c.mapPos fun _ => ()).arrays.any fun a => a.name == "eval") = c.arrays.any fun a => a.name == "eval" := by
    unfold Coll.mapPos
    rw [List.any_map]
    rfl
  simp only [numOfArray_mapPos, he]

/-- **C189** for the shipped script with measured responses: only the places relative to the room matter, whatever the
sizes of the simulation. -/
theorem C189_shipped {V : Type} (base : SimCfg R (IrMat R) F S (G × Coll (K × K × K) (IrMat R)) (FastSt R) (DData R (FastSt R) V) O)
    (ext : RoomExt K R G) (i : RoomInfo K) (d : K × K × K) (g : G) (freq : Nat) (hm he : IrMat R) (pm pe pl : List (K × K × K))
    (pr pn : K × K × K) (srcs : String → S) (mu beta : R) (f0 : F) (info : DiagInfo) (v : V) :
    (realSimulate base ext { i with center := shift d i.center } g
      (planned freq (realArrays (pm.map (shift d)) (pe.map (shift d)) (shift d pr) (pl.map (shift d)) (shift d pn)) (realOps hm he) "ism")
      srcs 1 512 mu beta f0 fun c => ancDiagnostics info c.arrays fun _ => .ok v).map observe =
    (realSimulate base ext i g (planned freq (realArrays pm pe pr pl pn) (realOps hm he) "ism")
      srcs 1 512 mu beta f0 fun c => ancDiagnostics info c.arrays fun _ => .ok v).map observe := by
  rw [← C189_fast base ext i d g (planned freq (realArrays pm pe pr pl pn) (realOps hm he) "ism") srcs 1 512 mu beta f0
    (ancDiagnostics_coords info fun _ => .ok v)]
  have : planned freq (realArrays (pm.map (shift d)) (pe.map (shift d)) (shift d pr) (pl.map (shift d)) (shift d pn)) (realOps hm he) "ism" =
      (planned freq (realArrays pm pe pr pl pn) (realOps hm he) "ism").mapPos (shift d) := by
    rw [← planned_mapPos]
    simp [realArrays, placedArr, Arr.mapPos]
  rw [this]

theorem blind_path (ext : RoomExt K R G) (i i' : RoomInfo K) (par par' : K × Nat)
    (h1 : i'.irLen = i.irLen) (h2 : i'.cutoff = i.cutoff) (h3 : i'.samplerate = i.samplerate) :
    ∃ u : RirCfg R Unit G, (∀ g a b t, t ≠ "ism" →
      createPath u g (a.mapPos fun _ => ()) (b.mapPos fun _ => ()) t = createPath (i.cfg ext par) g a b t) ∧
      ∀ g a b t, t ≠ "ism" → createPath u g (a.mapPos fun _ => ()) (b.mapPos fun _ => ()) t = createPath (i'.cfg ext par') g a b t := by
  let u : RirCfg R Unit G := ⟨i.irLen, 0, decide (0 < i.cutoff), i.samplerate, 0, ext.normal, fun g _ _ => (g, []),
    ext.sos i.cutoff i.samplerate⟩
  refine ⟨u, fun g a b t ht => createPath_mapPos (c := i.cfg ext par) (c' := u) rfl rfl rfl rfl rfl t (fun h => absurd h ht) g a b,
    fun g a b t ht => createPath_mapPos (c := i'.cfg ext par') (c' := u) h1.symm (by simp only [RoomInfo.cfg, h2, u]) h3.symm rfl
      (by simp only [RoomInfo.cfg, h2, h3, u]) t (fun h => absurd h ht) g a b⟩

/-- **C190** `FxLMS`: without paths of type "ism" neither the coordinates of the arrays nor the room matter, if both rooms can be
set up: two simulations whose arrays differ only in coordinates give the same control filter,
signals, recordings, exports, impulse responses and exceptions. -/
theorem C190_fxlms (base : SimCfg R (IrMat R) F S (G × Coll (K × K × K) (IrMat R)) (FxSt R) D O)
    (ext : RoomExt K R G) (i i' : RoomInfo K) (par par' : K × Nat) (hp : i.parameters ext = .ok par)
    (hp' : i'.parameters ext = .ok par') (h1 : i'.irLen = i.irLen) (h2 : i'.cutoff = i.cutoff)
    (h3 : i'.samplerate = i.samplerate) (g : G) (c c' : Coll (K × K × K) (IrMat R))
    (hc : c'.mapPos (fun _ => ()) = c.mapPos fun _ => ()) (hT : ∀ s m, c.types s m ≠ some "ism")
    (srcs : String → S) (bs ub L : Nat) (mu beta : R) (norm : FxNorm) (f0 : F)
    {diags : Coll (K × K × K) (IrMat R) → Except PyErr (List (Diag D))}
    {mk : Coll Unit (IrMat R) → Except PyErr (List (Diag D))} (hmk : ∀ c, diags c = mk (c.mapPos fun _ => ())) :
    (ancSimulate base ext i' g c' srcs bs ub L mu beta norm f0 diags).map observe =
      (ancSimulate base ext i g c srcs bs ub L mu beta norm f0 diags).map observe := by
  rw [ancSimulate_observe (hmk := hmk), ancSimulate_observe (hmk := hmk), hp, hp']
  have hT' : ∀ s m, c'.types s m ≠ some "ism" := by
    have : c'.types = c.types := congrArg (Coll.types (Pt := Unit)) hc
    rw [this]; exact hT
  obtain ⟨u, u1, u2⟩ := blind_path ext i i' par par' h1 h2 h3
  dsimp only
  rw [← outcomeWith_mapPos (f := fun _ => ()) (T := fun t => t ≠ "ism") _ u1 (by decide) g c (fun s m t h e => hT s m (by rw [h, e])) srcs f0,
    ← outcomeWith_mapPos (f := fun _ => ()) (T := fun t => t ≠ "ism") _ u2 (by decide) g c' (fun s m t h e => hT' s m (by rw [h, e])) srcs f0, hc]

/-- **C190** `FastBlockFxLMS`: the same. -/
theorem C190_fast (base : SimCfg R (IrMat R) F S (G × Coll (K × K × K) (IrMat R)) (FastSt R) D O)
    (ext : RoomExt K R G) (i i' : RoomInfo K) (par par' : K × Nat) (hp : i.parameters ext = .ok par)
    (hp' : i'.parameters ext = .ok par') (h1 : i'.irLen = i.irLen) (h2 : i'.cutoff = i.cutoff)
    (h3 : i'.samplerate = i.samplerate) (g : G) (c c' : Coll (K × K × K) (IrMat R))
    (hc : c'.mapPos (fun _ => ()) = c.mapPos fun _ => ()) (hT : ∀ s m, c.types s m ≠ some "ism")
    (srcs : String → S) (bs L : Nat) (mu beta : R) (f0 : F)
    {diags : Coll (K × K × K) (IrMat R) → Except PyErr (List (Diag D))}
    {mk : Coll Unit (IrMat R) → Except PyErr (List (Diag D))} (hmk : ∀ c, diags c = mk (c.mapPos fun _ => ())) :
    (realSimulate base ext i' g c' srcs bs L mu beta f0 diags).map observe =
      (realSimulate base ext i g c srcs bs L mu beta f0 diags).map observe := by
  rw [realSimulate_observe (hmk := hmk), realSimulate_observe (hmk := hmk), hp, hp']
  have hT' : ∀ s m, c'.types s m ≠ some "ism" := by
    have : c'.types = c.types := congrArg (Coll.types (Pt := Unit)) hc
    rw [this]; exact hT
  obtain ⟨u, u1, u2⟩ := blind_path ext i i' par par' h1 h2 h3
  dsimp only
  rw [← outcomeWith_mapPos (f := fun _ => ()) (T := fun t => t ≠ "ism") _ u1 (by decide) g c (fun s m t h e => hT s m (by rw [h, e])) srcs f0,
    ← outcomeWith_mapPos (f := fun _ => ()) (T := fun t => t ≠ "ism") _ u2 (by decide) g c' (fun s m t h e => hT' s m (by rw [h, e])) srcs f0, hc]

end

/-! ### examples -/

/-- The signal of the error microphone after the run. -/
def errBuffer {P D O : Type} (r : Except PyErr (Observed (Fir ℚ) ℚ Nat P D O Nat)) : Option (Mat ℚ) :=
  match r with
  | .error _ => none
  | .ok o => o.sig "error"

/-- The arrays of the example, the source of noise on its way. -/
def goingColl : Coll (ℚ × ℚ × ℚ) (IrMat ℚ) :=
  planned 2 [stillArr "error" .mic [(0, 1, 3)], stillArr "ref" .mic [(3, 1, 3)], stillArr "loudspeaker" .ctrl [(1, 1, 3)],
    { stillArr "noise" .free [(3, 1, 3)] with traj := some fun n => [(3 + (n : ℚ) / 8, 1, 3)] }] exampleTypes "ism"

def goingFx (i : RoomInfo ℚ) (c : Coll (ℚ × ℚ × ℚ) (IrMat ℚ)) :=
  ancSimulate { ancBase with B := 6, C := 4, tot := 5 } boxExt i 0 c (fun _ => 0) 1 2 2 (1 / 100) (1 / 1000) .none demoFilt
    (fun c => ancDiagnostics ⟨5, 2, 4⟩ c.arrays fun _ => .ok 0)

def goingFast (i : RoomInfo ℚ) (c : Coll (ℚ × ℚ × ℚ) (IrMat ℚ)) :=
  realSimulate { realBase 5 with B := 6, C := 4 } boxExt i 0 c (fun _ => 0) 1 2 (1 / 100) (1 / 1000) demoFilt
    (fun c => ancDiagnostics ⟨5, 2, 4⟩ c.arrays fun _ => .ok 0)

/-- Moving everything changes nothing; the run completes. -/
example : errBuffer ((goingFx { boxInfo with center := shift (1, -1, 10) boxInfo.center } (goingColl.mapPos (shift (1, -1, 10)))).map observe) =
    errBuffer ((goingFx boxInfo goingColl).map observe) ∧ errBuffer ((goingFx boxInfo goingColl).map observe) ≠ none :=
  ⟨congrArg errBuffer (C189_fxlms _ _ _ _ _ _ _ _ _ _ _ _ _ _ (ancDiagnostics_coords _ _)), by decide +kernel⟩

example : errBuffer ((goingFast { boxInfo with center := shift (1, -1, 10) boxInfo.center } (goingColl.mapPos (shift (1, -1, 10)))).map observe) =
    errBuffer ((goingFast boxInfo goingColl).map observe) ∧ errBuffer ((goingFast boxInfo goingColl).map observe) ≠ none :=
  ⟨congrArg errBuffer (C189_fast _ _ _ _ _ _ _ _ _ _ _ _ (ancDiagnostics_coords _ _)), by decide +kernel⟩

/-- Moving only the room changes what the error microphone hears. -/
example : errBuffer ((goingFx { boxInfo with center := (1, 1, 3) } goingColl).map observe) ≠
    errBuffer ((goingFx boxInfo goingColl).map observe) := by decide +kernel

/-- The same arrays with random responses. -/
def looseColl : Coll (ℚ × ℚ × ℚ) (IrMat ℚ) :=
  planned 2 (exampleArrays [(0, 1, 3)] [(3, 1, 3)] [(1, 1, 3)] [(3, 1, 3)]) exampleTypes "random"

theorem looseColl_types : ∀ s m, looseColl.types s m ≠ some "ism" := by
  intro s m h
  have := planned_types h
  simp [exampleTypes] at this

/-- With random responses the arrays can be anywhere, in any room. -/
example : errBuffer ((goingFx { boxInfo with size := (9, 9, 9), center := (0, 0, 0), rt60 := 2 } (looseColl.mapPos (shift (1, -1, 10)))).map observe) =
    errBuffer ((goingFx boxInfo looseColl).map observe) ∧ errBuffer ((goingFx boxInfo looseColl).map observe) ≠ none :=
  ⟨congrArg errBuffer (C190_fxlms _ _ _ _ (4, 10) (9, 10) boxPar boxPar' rfl rfl rfl _ looseColl _ (Coll.mapPos_mapPos ..) looseColl_types
    _ _ _ _ _ _ _ _ (ancDiagnostics_coords _ _)), by decide +kernel⟩

example : errBuffer ((goingFast { boxInfo with size := (9, 9, 9), center := (0, 0, 0), rt60 := 2 } (looseColl.mapPos (shift (1, -1, 10)))).map observe) =
    errBuffer ((goingFast boxInfo looseColl).map observe) ∧ errBuffer ((goingFast boxInfo looseColl).map observe) ≠ none :=
  ⟨congrArg errBuffer (C190_fast _ _ _ _ (4, 10) (9, 10) boxPar boxPar' rfl rfl rfl _ looseColl _ (Coll.mapPos_mapPos ..) looseColl_types
    _ _ _ _ _ _ (ancDiagnostics_coords _ _)), by decide +kernel⟩

end Verif

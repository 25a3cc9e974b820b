/-
Concrete sessions: where C46, C47 and C78 fail, and cases meeting the hypotheses of
the theorems in `Props/Session.lean`.
-/
import Verif.Props.Session
namespace Verif

/-- A room on a line: the response from `s` to `m` is `[m - s, c]`, the random
response repeats the state of the generator. -/
def demoRoom (i : SimInfo ℚ) : RirCfg ℚ (List ℚ) Nat where
  irLen := i.maxIrLen
  dims := i.dims
  highpass := decide (0 < i.highpass)
  pad := i.samplerate
  minDly := 0
  normal := fun g _ _ _ => (g + 1, fun _ _ _ => 4)
  roomRir := fun g ss ms => (g + 1, ms.map fun m => ss.map fun s => [m.headD 0 - s.headD 0, i.c])
  sos := id

def demoSys : GenSys ℚ Nat := ⟨fun i => createPath (demoRoom i), fun _ g => g⟩

def demoInfo : SimInfo ℚ :=
  { totSamples := 10, simBuffer := 5, chunk := 5, startBefore := false, contrib := false, updateFreq := 1,
    samplerate := 2, c := 343, dims := 3, reverb := "ism", roomSize := [7, 5, 2], roomCenter := [0, 0, 0],
    rt60 := 1 / 4, maxIrLen := 2, randomized := false, extraDelay := 0, highpass := 0, exportFreq := 4,
    plotOutput := "none", smoothing := 1, autoSaveLoad := true }

/-- One microphone at `x`, and one source with given trajectory. -/
def demoColl (x : ℚ) (omni : Bool) (traj : Option (Nat → List (List ℚ))) : Coll (List ℚ) (IrMat ℚ) :=
  (Coll.empty 1).addAll
    [⟨"mic", some .mic, 1, [[x, 0, 0]], none, 1, none, omni, []⟩,
     ⟨"src", some .free, 1, [[0, 0, 0]], none, 1, traj, true, []⟩]

/-- The source that is at `u` at time `u`. -/
def demoTraj : Option (Nat → List (List ℚ)) := some fun u => [[(u : ℚ), 0, 0]]

/-- The sessions left behind by `create_simulator` in an empty folder. -/
def sessionsOf (sys : GenSys ℚ Nat) (g : Nat) (info : SimInfo ℚ) (c : Coll (List ℚ) (IrMat ℚ)) : Store ℚ Nat :=
  match createArrays sys g info c (fun _ => some 0) (some []) "now".toList with
  | .ok (_, _, some st) => st
  | _ => []

/-- What is observed of a created simulator: the response from "src" to "mic"
after `n` update steps, or the exception. -/
def observed (sys : GenSys ℚ Nat) (r : Except PyErr (Nat × Built ℚ Nat × Option (Store ℚ Nat))) (n : Nat) :
    Except PyErr (List ℚ) :=
  match r with
  | .error x => .error x
  | .ok (g, b, _) =>
    match Coll.after (sys.gen b.info) (g, b.coll) n with
    | .error x => .error x
    | .ok gc =>
      match Coll.path gc "src" "mic" with
      | .error x => .error x
      | .ok h => .ok (h.ir 0 0)

/-- `create_simulator` with a session folder, and without. -/
def withFolder (sys : GenSys ℚ Nat) (g : Nat) (info : SimInfo ℚ) (c : Coll (List ℚ) (IrMat ℚ))
    (st : Store ℚ Nat) (n : Nat) : Except PyErr (List ℚ) :=
  observed sys (createArrays sys g info c (fun _ => some 7) (some st) "now".toList) n

def without (sys : GenSys ℚ Nat) (g : Nat) (info : SimInfo ℚ) (c : Coll (List ℚ) (IrMat ℚ)) (n : Nat) :
    Except PyErr (List ℚ) :=
  observed sys (createArrays sys g info c (fun _ => some 7) none "now".toList) n

/-- C46 does not hold: trajectories are not compared.  The stored source stands
still, the current one moves. -/
theorem C46_violated_trajectory :
    withFolder demoSys 0 demoInfo (demoColl 3 true demoTraj)
      (sessionsOf demoSys 0 demoInfo (demoColl 3 true none)) 3 = .ok [3, 343] ∧
    without demoSys 0 demoInfo (demoColl 3 true demoTraj) 3 = .ok [1, 343] := by
  decide +kernel

/-- C46 does not hold: the directivity of microphones is not compared.  Without the
session the creation fails. -/
theorem C46_violated_directivity :
    withFolder demoSys 0 demoInfo (demoColl 3 false none)
      (sessionsOf demoSys 0 demoInfo (demoColl 3 true none)) 0 = .ok [3, 343] ∧
    without demoSys 0 demoInfo (demoColl 3 false none) 0 = .error .notImplemented := by
  decide +kernel

/-- C46 does not hold: the update frequency is not compared, and the loaded arrays
keep the stored one. -/
theorem C46_violated_updateFreq :
    withFolder demoSys 0 { demoInfo with updateFreq := 2 } (demoColl 3 true demoTraj)
      (sessionsOf demoSys 0 demoInfo (demoColl 3 true demoTraj)) 2 = .ok [2, 343] ∧
    without demoSys 0 { demoInfo with updateFreq := 2 } (demoColl 3 true demoTraj) 2 = .ok [3, 343] := by
  decide +kernel

/-- C46 does not hold: without room simulation the length of the responses is not
compared, although random responses have this length. -/
theorem C46_violated_length :
    ∃ c : Coll (List ℚ) (IrMat ℚ), (demoColl 3 true none).setPathType "src" "mic" "random" = .ok c ∧
      withFolder demoSys 0 { demoInfo with maxIrLen := 3 } c (sessionsOf demoSys 0 demoInfo c) 0 = .ok [4, 4] ∧
      without demoSys 0 { demoInfo with maxIrLen := 3 } c 0 = .ok [4, 4, 4] :=
  ⟨_, rfl, by decide +kernel⟩

/-- C46 does not hold: positions are compared with a tolerance. -/
theorem C46_violated_tolerance :
    withFolder demoSys 0 demoInfo (demoColl (3 + 1 / 10 ^ 5) true none)
      (sessionsOf demoSys 0 demoInfo (demoColl 3 true none)) 0 = .ok [3, 343] ∧
    without demoSys 0 demoInfo (demoColl (3 + 1 / 10 ^ 5) true none) 0 = .ok [3 + 1 / 10 ^ 5, 343] := by
  decide +kernel

/-- The generation uses the global speed of sound, which only the constructor of a
path generator sets. -/
def globalSys : GenSys ℚ Nat where
  gen := fun _ g a b _ => .ok (g, ⟨a.num, b.num, fun i j =>
    [(b.pos.getD j []).headD 0 - (a.pos.getD i []).headD 0, (g : ℚ)]⟩)
  init := fun i _ => i.c.floor.toNat

/-- C46 does not hold: loading a session does not set the global constants of the
image-source package.  If a simulator with another speed of sound (300) was
created in between, the update steps of the loaded arrays use that one. -/
theorem C46_violated_constants :
    withFolder globalSys 300 demoInfo (demoColl 3 true demoTraj)
      (sessionsOf globalSys 0 demoInfo (demoColl 3 true demoTraj)) 2 = .ok [2, 300] ∧
    without globalSys 300 demoInfo (demoColl 3 true demoTraj) 2 = .ok [2, 343] := by
  decide +kernel

/-! ### C47, C78 -/

/-- The setup with a user path of length `n`. -/
def demoUser (n : Nat) : Coll (List ℚ) (IrMat ℚ) :=
  (demoColl 3 true none).op (.path ⟨1, 1, fun _ _ => List.replicate n 1⟩ "src" "mic")

example : (demoColl 3 true none).setPropPath ⟨1, 1, fun _ _ => List.replicate 3 1⟩ "src" "mic" =
    .ok (demoUser 3) := rfl

/-- C46 does not hold: a path of the user with one value is taken for a stored path that repeats this value, and
the other way round. -/
theorem C46_violated_broadcast :
    withFolder demoSys 0 demoInfo (demoUser 1) (sessionsOf demoSys 0 demoInfo (demoUser 3)) 0 = .ok [1, 1, 1] ∧
    without demoSys 0 demoInfo (demoUser 1) 0 = .ok [1] ∧
    withFolder demoSys 0 demoInfo (demoUser 3) (sessionsOf demoSys 0 demoInfo (demoUser 1)) 0 = .ok [1] ∧
    without demoSys 0 demoInfo (demoUser 3) 0 = .ok [1, 1, 1] := by
  decide +kernel

/-- C47 does not hold: a complete session with a user path of length 2 listed
before the one of the setup makes the search raise. -/
theorem C47_violated_length :
    searchSession demoInfo ((demoUser 3).setDefault demoInfo.reverb) (sessionsOf demoSys 0 demoInfo (demoUser 3)) ≠
      .ok none ∧
    (searchSession demoInfo ((demoUser 3).setDefault demoInfo.reverb) (sessionsOf demoSys 0 demoInfo (demoUser 3))).isOk ∧
    (match searchSession demoInfo ((demoUser 3).setDefault demoInfo.reverb)
        (sessionsOf demoSys 0 demoInfo (demoUser 2) ++ sessionsOf demoSys 0 demoInfo (demoUser 3)) with
      | .ok _ => none
      | .error x => some x) = some .value := by
  refine ⟨?_, by decide +kernel, by decide +kernel⟩
  intro h
  have h1 : ((searchSession demoInfo ((demoUser 3).setDefault demoInfo.reverb)
    (sessionsOf demoSys 0 demoInfo (demoUser 3))).toOption.map Option.isSome) = some true := by decide +kernel
  rw [h] at h1
  cases h1

/-- C78 does not hold: after a simulation with a user path of length 2, the same
setup with a path of length 3 cannot be created. -/
theorem C78_violated_length :
    withFolder demoSys 0 demoInfo (demoUser 3) (sessionsOf demoSys 0 demoInfo (demoUser 2)) 0 = .error .value ∧
    without demoSys 0 demoInfo (demoUser 3) 0 = .ok [1, 1, 1] := by
  decide +kernel

/-- C47 does not hold: a session saved with the documented default type "random"
is not found again, the search raises. -/
theorem C47_violated_random :
    (sessionsOf demoSys 0 { demoInfo with reverb := "random" } (demoColl 3 true none)).length = 1 ∧
    (match searchSession { demoInfo with reverb := "random" } ((demoColl 3 true none).setDefault "random")
        (sessionsOf demoSys 0 { demoInfo with reverb := "random" } (demoColl 3 true none)) with
      | .ok _ => none
      | .error x => some x) = some .assertion := by
  decide +kernel

/-- C78 does not hold: after a simulation with the default type "random", no other
simulator can be created with the session folder. -/
theorem C78_violated_random :
    withFolder demoSys 0 demoInfo (demoColl 3 true none)
      (sessionsOf demoSys 0 { demoInfo with reverb := "random" } (demoColl 5 true none)) 0 = .error .assertion ∧
    without demoSys 0 demoInfo (demoColl 3 true none) 0 = .ok [3, 343] := by
  decide +kernel

/-! ### cases -/

/-- A session is found again, and loaded with the current source. -/
example :
    (createArrays demoSys 0 demoInfo (demoColl 3 true none) (fun _ => some 7)
      (some (sessionsOf demoSys 0 demoInfo (demoColl 4 true none) ++
        sessionsOf demoSys 0 { demoInfo with totSamples := 99 } (demoColl 3 true none))) "now".toList).toOption.map
      (fun r => (r.2.1.source "src", r.2.1.info.totSamples, r.2.2.map List.length)) = some (some 7, 99, some 2) := by
  decide +kernel

/-- A session that does not match leads to a new one under the next free name. -/
example :
    (createArrays demoSys 0 { demoInfo with c := 340 } (demoColl 3 true none) (fun _ => some 7)
      (some (sessionsOf demoSys 0 demoInfo (demoColl 3 true none))) "now".toList).toOption.map
      (fun r => r.2.2.map fun st => st.map Prod.fst) =
      some (some ["session_now_0".toList, "session_now_1".toList]) := by
  decide +kernel

/-- Different rooms are told apart only if a room is simulated. -/
example : equalAudio demoInfo { demoInfo with rt60 := 1 } [["ism", "direct"]] = false ∧
    equalAudio demoInfo { demoInfo with rt60 := 1 } [["none", "direct"]] = true ∧
    demoInfo.SameAudio { demoInfo with totSamples := 3, updateFreq := 9 } :=
  ⟨by decide +kernel, by decide +kernel, ⟨rfl, rfl, rfl, rfl⟩, rfl, rfl, rfl, rfl, rfl, rfl, rfl⟩

/-! ### the hypotheses of the theorems in `Props/Session.lean` -/

/-- A generation without random numbers and global state. -/
def lineSys : GenSys ℚ Nat where
  gen := fun i g a b _ => .ok (g + 1, ⟨a.num, b.num, fun k j =>
    [(b.pos.getD j []).headD 0 - (a.pos.getD k []).headD 0, i.c]⟩)
  init := fun _ g => g

theorem lineSys_pure : lineSys.Pure := by
  intro i g1 g2 a b t g1' g2' x y h1 h2
  have h1 := Prod.mk.inj (Except.ok.inj h1)
  have h2 := Prod.mk.inj (Except.ok.inj h2)
  exact h1.2.symm.trans h2.2

theorem lineSys_audio : lineSys.Audio := by
  intro i j h
  unfold lineSys
  dsimp only
  rw [h.1.2.1]

theorem demoColl_proper (x : ℚ) (omni : Bool) : (demoColl x omni demoTraj).Proper := by
  have ha : (demoColl x omni demoTraj).arrays =
    [⟨"mic", some .mic, 1, [[x, 0, 0]], none, 1, none, omni, []⟩,
     ⟨"src", some .free, 1, [[0, 0, 0]], none, 1, demoTraj, true, []⟩] := rfl
  refine ⟨(Coll.addAll_spec _ (Coll.empty_consistent 1) (by simp)).1, ?_, ?_, ?_⟩
  · rw [ha]
    intro a ha f hf
    simp only [List.mem_cons, List.not_mem_nil, or_false] at ha
    rcases ha with rfl | rfl
    · cases hf
    · cases hf; rfl
  · rw [ha]
    intro a ha
    simp only [List.mem_cons, List.not_mem_nil, or_false] at ha
    rcases ha with rfl | rfl <;> rfl
  · intro s _ m _ h; cases h

/-- The configuration of an earlier, longer simulation. -/
def demoInfo0 : SimInfo ℚ := { demoInfo with totSamples := 99 }

theorem demoInfo0_valid : demoInfo0.Valid := ⟨rfl, rfl, .inr (.inr rfl)⟩

/-- The session of that simulation. -/
theorem demo_session (x : ℚ) : ∃ (g' : Nat) (b : Built ℚ Nat),
    setupArrays lineSys 0 demoInfo0 ((demoColl x true demoTraj).setDefault "ism") (fun _ => some 0) = .ok (g', b) ∧
    (⟨.full demoInfo0, .full b, false⟩ : Folder ℚ Nat).WrittenFor lineSys demoInfo0 b ∧
    (∀ md, (⟨.full demoInfo0, .full b, md⟩ : Folder ℚ Nat).Holds demoInfo0 b) ∧
    Agree ((demoColl x true demoTraj).setDefault "ism") b.coll ∧
    ∀ y omni, Comparable ((demoColl y omni demoTraj).setDefault "ism") b.coll := by
  have hp := demoColl_proper x true
  obtain ⟨g', b, hb⟩ : ∃ g' b, setupArrays lineSys 0 demoInfo0 ((demoColl x true demoTraj).setDefault "ism")
      (fun _ => some 0) = .ok (g', b) := ⟨_, _, rfl⟩
  obtain ⟨f1, f2, f3, f4, f5⟩ := (demoColl x true demoTraj).setDefault_frame "ism"
  obtain ⟨hs, _⟩ := setupArrays_spec (Coll.setDefault_consistent hp.con _) (by rw [f1]; exact hp.init) hb
  have hty : ∀ y omni s m, ((demoColl y omni demoTraj).setDefault "ism").types s m ≠ some "modified" := by
    intro y omni s m h
    have h' : (if s = "src" ∧ m = "mic" then some "ism" else none) = some "modified" := h
    split_ifs at h'
    revert h'
    decide
  refine ⟨g', b, hb, ⟨rfl, rfl, 0, g', _, _, hp.con, hp.init, hb⟩, ?_, ⟨?_, ?_⟩, fun y omni => ⟨?_, ?_⟩⟩
  · refine fun md => ⟨rfl, rfl, demoInfo0_valid.post, hs.con, ?_⟩
    rw [hs.srcs, hs.mics]
    intro s h1 m h2
    obtain ⟨u, hu⟩ := Option.isSome_iff_exists.1 (hs.typed s h1 m h2)
    have e1 : s = "src" := by simpa using (show s ∈ ["src"] from h1)
    have e2 : m = "mic" := by simpa using (show m ∈ ["mic"] from h2)
    constructor
    · rw [hs.types, e1, e2]; rfl
    · by_cases hm : (Coll.useType ((demoColl x true demoTraj).setDefault "ism") s m) = some "modified"
      · exfalso
        rw [e1, e2] at hm
        have : Coll.useType ((demoColl x true demoTraj).setDefault "ism") "src" "mic" = some "ism" := by
          unfold Coll.useType
          rw [if_neg]
          · rfl
          · rw [f1]
            rintro ⟨a, ha, _, h0⟩
            have ha' : a ∈ [(⟨"mic", some .mic, 1, [[x, 0, 0]], none, 1, none, true, []⟩ : Arr (List ℚ)),
              ⟨"src", some .free, 1, [[0, 0, 0]], none, 1, demoTraj, true, []⟩] := ha
            simp only [List.mem_cons, List.not_mem_nil, or_false] at ha'
            rcases ha' with rfl | rfl <;> cases h0
        rw [this] at hm
        revert hm
        decide
      · obtain ⟨_, _, _, _, _, _, _, _, _, _, _, _, h⟩ := hs.made s h1 m h2 hm
        rw [h]; rfl
  · rw [hs.arrays]
    intro a h1 b h2 e
    have := List.inj_on_of_nodup_map (Coll.setDefault_consistent hp.con "ism").names h1 h2 e
    subst this
    exact ⟨rfl, rfl, rfl⟩
  · intro s m _ _ h; exact absurd h (hty _ _ s m)
  · rw [hs.arrays, f1, ((demoColl y omni demoTraj).setDefault_frame "ism").1]
    intro a h1 b h2 _ u hu v hv
    have h1' : a ∈ [(⟨"mic", some .mic, 1, [[y, 0, 0]], none, 1, none, omni, []⟩ : Arr (List ℚ)),
              ⟨"src", some .free, 1, [[0, 0, 0]], none, 1, demoTraj, true, []⟩] := h1
    have h2' : b ∈ [(⟨"mic", some .mic, 1, [[x, 0, 0]], none, 1, none, true, []⟩ : Arr (List ℚ)),
              ⟨"src", some .free, 1, [[0, 0, 0]], none, 1, demoTraj, true, []⟩] := h2
    simp only [List.mem_cons, List.not_mem_nil, or_false] at h1' h2'
    rcases h1' with rfl | rfl <;> rcases h2' with rfl | rfl <;>
      (simp only [List.mem_singleton] at hu hv; simp [hu, hv])
  · intro s m _ _ h; exact absurd h (hty _ _ s m)

/-- C46: the current setup with other bookkeeping parameters, loaded from the
session of the same arrays; observed after three updates. -/
example : ∃ st : Store ℚ Nat, st.length = 1 ∧
    (∀ nm f, (nm, some f) ∈ st → ∃ i0 b0, f.WrittenFor lineSys i0 b0 ∧
      (equalAudio demoInfo i0 ((demoColl 3 true demoTraj).setDefault "ism").typeValues = true →
        protoEquals ((demoColl 3 true demoTraj).setDefault "ism") b0.coll = .ok true →
        Agree ((demoColl 3 true demoTraj).setDefault "ism") b0.coll ∧ demoInfo.updateFreq = i0.updateFreq ∧
        (¬ ((demoColl 3 true demoTraj).setDefault "ism").UsesIsm → demoInfo.SameRoom i0))) ∧
    withFolder lineSys 0 demoInfo (demoColl 3 true demoTraj) st 3 = .ok [1, 343] ∧
    without lineSys 0 demoInfo (demoColl 3 true demoTraj) 3 = .ok [1, 343] := by
  obtain ⟨g', b, h1, h2, h3, h4, h5⟩ := demo_session 3
  refine ⟨[("s".toList, some ⟨.full demoInfo0, .full b, false⟩)], rfl, ?_, ?_, by decide +kernel⟩
  · intro nm f hm
    rw [List.mem_singleton] at hm
    cases hm
    exact ⟨_, _, h2, fun _ _ => ⟨h4, rfl, fun _ => ⟨rfl, rfl, rfl, rfl, rfl, rfl, rfl⟩⟩⟩
  · cases h1
    decide +kernel

/-- C47, C78 and C48: sessions of the setup itself and of another one. -/
example : ∃ (b b' : Built ℚ Nat) (g' : Nat) (st : Store ℚ Nat),
    setupArrays lineSys 0 demoInfo0 ((demoColl 3 true demoTraj).setDefault demoInfo0.reverb) (fun _ => some 0) =
      .ok (g', b) ∧
    st = [("t".toList, none), ("u".toList, some ⟨.full demoInfo0, .full b', false⟩),
      ("s".toList, some ⟨.full demoInfo0, .full b, false⟩)] ∧
    (demoColl 3 true demoTraj).Proper ∧ demoInfo0.Valid ∧
    (∀ nm f, (nm, some f) ∈ st → ∃ i b'', f.Holds i b'' ∧
      Comparable ((demoColl 3 true demoTraj).setDefault demoInfo0.reverb) b''.coll) ∧
    (without lineSys 0 demoInfo0 (demoColl 3 true demoTraj) 0).isOk = true := by
  obtain ⟨g', b, h1, h2, h3, h4, h5⟩ := demo_session 3
  obtain ⟨g'', b', k1, k2, k3, k4, k5⟩ := demo_session 4
  refine ⟨b, b', g', _, h1, rfl, demoColl_proper 3 true, demoInfo0_valid, ?_, by decide +kernel⟩
  intro nm f hm
  simp only [List.mem_cons, List.not_mem_nil, or_false, Prod.mk.injEq, Option.some.injEq] at hm
  rcases hm with ⟨_, hm⟩ | ⟨_, rfl⟩ | ⟨_, rfl⟩
  · cases hm
  · exact ⟨_, _, k3 _, k5 3 true⟩
  · exact ⟨_, _, h3 _, h5 3 true⟩

/-- C48: with one complete session of other arrays, an interruption while writing
the arrays of a second one makes the next creation fail. -/
example : ∃ b : Built ℚ Nat, ∀ b0 : Built ℚ Nat,
    createArrays lineSys 0 demoInfo (demoColl 3 true demoTraj) (fun _ => some 0)
      (some (Store.saveUpTo [("s".toList, some ⟨.full demoInfo0, .full b, false⟩)] 2 "t".toList demoInfo b0))
      "now".toList = .error .fileNotFound := by
  obtain ⟨g', b, h1, h2, h3, h4, h5⟩ := demo_session 4
  refine ⟨b, fun b0 => C48_violated (sys := lineSys) (g := 0) (info := demoInfo) (c := demoColl 3 true demoTraj)
    rfl (by decide) ?_ (k := 2) (by decide) (by decide) _ _ _⟩
  intro nm f hm
  rw [List.mem_singleton] at hm
  cases hm
  refine ⟨holds_readable (demoColl_proper 3 true) (by decide) (h3 false) (h5 3 true), ?_⟩
  rintro ⟨i, b', q1, q2, q3, q4⟩
  cases Except.ok.inj q2
  have : (match setupArrays lineSys 0 demoInfo0 ((demoColl 4 true demoTraj).setDefault "ism")
      (fun _ => some (0 : Nat)) with
    | .ok r =>
      match protoEquals ((demoColl 3 true demoTraj).setDefault demoInfo.reverb) r.2.coll with
      | .ok r => r
      | .error _ => true
    | .error _ => true) = false := by decide +kernel
  rw [h1] at this
  dsimp only at this
  rw [q4] at this
  cases this

/-- C49: what `create_simulator` writes into an empty folder. -/
example : (sessionsOf demoSys 0 demoInfo (demoColl 3 true none)).map
    (fun e => (e.1, e.2.map fun f => ((loadFromPath f false).isOk, (loadFromPath f true).isOk))) =
    [("session_now_0".toList, some (true, false))] := by
  decide +kernel

end Verif

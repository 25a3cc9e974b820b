/-
Small concrete simulations.  They are used in the `example`s next to the
property theorems, to show that the hypotheses can be met.
-/
import Mathlib.Data.Rat.Defs
import Mathlib.Algebra.Field.Rat
import Verif.Model.Fir
import Verif.Model.Diagnostics
import Verif.Spec.Run
import Verif.Lemmas.Processor
namespace Verif

abbrev DemoD := DData ℚ (DebugSt ℚ) ℚ
abbrev DemoO := DOut ℚ ℚ
abbrev DemoSt := SimSt ℚ (Fir ℚ) Nat Unit (DebugSt ℚ) DemoD DemoO

/-- A microphone, a counting free source and a loudspeaker driven by the
`DebugProcessor` with block size 2; paths `[1, 2]` and `[0, 3]`. -/
def demoCfg (B C tot : Nat) : SimCfg ℚ (IrMat ℚ) (Fir ℚ) Nat Unit (DebugSt ℚ) DemoD DemoO where
  B := B
  C := C
  tot := tot
  warm := false
  contrib := true
  plotNone := false
  arrays := [⟨"mic", 1, .mic, false⟩, ⟨"src", 1, .free, false⟩, ⟨"loudspeaker", 1, .ctrl, false⟩]
  srcGet := fun p n => .ok (p + n, [(List.range n).map fun k => ((p + k + 1 : Nat) : ℚ)])
  filt := firOps ℚ
  arrUpdate := fun _ _ => .ok ()
  arrPath := fun _ s _ => .ok ⟨1, 1, fun _ _ => if s = "src" then [1, 2] else [0, 3]⟩
  proc := some (debugProc tot 2)
  diag := diagOps ℚ (DebugSt ℚ) ℚ

def demoProc : DebugSt ℚ := DebugSt.init 1 1 6
def demoFilt : Fir ℚ := ⟨⟨0, 0, fun _ _ => []⟩, []⟩

/-- Three recordings: everything, two intervals, everything with an export list. -/
def demoRec : Except PyErr (Diag DemoD) := mkRecordSignal ⟨6, 3, 1⟩ "rec" "mic" none none 1 none
def demoIvs : Except PyErr (Diag DemoD) :=
  mkRecordSignal ⟨6, 3, 1⟩ "ivs" "mic" none (some [(1, 2), (3, 6)]) 1 (some [-1])
def demoLst : Except PyErr (Diag DemoD) :=
  mkRecordSignal ⟨6, 3, 1⟩ "lst" "loudspeaker" (some (.list [2, 5, 9])) none 1 none

def okD (x : Except PyErr (Diag DemoD)) : Diag DemoD :=
  match x with
  | .ok d => d
  | .error _ => ⟨"", ⟨none, none, [], 0⟩, ⟨none, []⟩, .sfPower "" 0 []⟩

theorem demoRec_ok : mkRecordSignal ⟨6, 3, 1⟩ "rec" "mic" none none 1 none = .ok (okD demoRec) := rfl
theorem demoIvs_ok : mkRecordSignal ⟨6, 3, 1⟩ "ivs" "mic" none (some [(1, 2), (3, 6)]) 1 (some [-1]) =
    .ok (okD demoIvs) := rfl
theorem demoLst_ok : mkRecordSignal ⟨6, 3, 1⟩ "lst" "loudspeaker" (some (.list [2, 5, 9])) none 1 none =
    .ok (okD demoLst) := rfl

def demoDs : List (Diag DemoD) := [okD demoRec, okD demoIvs, okD demoLst]

/-- Sizes of the demonstration run: the buffer of 4 samples is reset after
every 2 samples. -/
theorem demo_admissible : Admissible (demoCfg 4 2 6) ((debugProc 6 2).view 2) where
  block := by decide
  buffer := by decide
  chunk := by decide
  proc := by
    intro p hp
    cases hp
    exact ⟨Or.inl (by decide), by decide⟩
  valid := debug_valid _ 6 2

theorem demo_completed : ∃ st0 fin, CompletedRun (demoCfg 4 2 6) ((debugProc 6 2).view 2)
    (fun _ => 0) () demoProc demoFilt demoDs st0 fin ∧
    fin.log.map (fun ev => (ev.diag, ev.time)) =
      [("lst", 2), ("rec", 3), ("ivs", 3), ("rec", 6), ("ivs", 6), ("lst", 5)] := by
  have h0 : ∃ st0, (demoCfg 4 2 6).init (fun _ => 0) () demoProc demoFilt demoDs = .ok st0 :=
    ⟨_, by rfl⟩
  have h1 : ((demoCfg 4 2 6).run (fun _ => 0) () demoProc demoFilt demoDs).map
      (fun fin => fin.log.map fun ev => (ev.diag, ev.time)) =
      .ok [("lst", 2), ("rec", 3), ("ivs", 3), ("rec", 6), ("ivs", 6), ("lst", 5)] := by rfl
  cases h2 : (demoCfg 4 2 6).run (fun _ => 0) () demoProc demoFilt demoDs with
  | error x => rw [h2] at h1; cases h1
  | ok fin =>
    rw [h2] at h1
    obtain ⟨st0, h0⟩ := h0
    exact ⟨st0, fin, ⟨demo_admissible, rfl, by decide, h0, h2⟩, Except.ok.inj h1⟩

theorem demo_started : ∃ st0 st, Started (demoCfg 4 2 6) ((debugProc 6 2).view 2) (fun _ => 0) ()
    demoProc demoFilt demoDs st0 ∧ (demoCfg 4 2 6).steps 8 st0 = .ok st := by
  obtain ⟨st0, fin, h, _⟩ := demo_completed
  have hrun := h.run
  unfold SimCfg.run at hrun
  rw [h.init] at hrun
  dsimp only at hrun
  rw [show (demoCfg 4 2 6).tot + (demoCfg 4 2 6).mbs = 8 from rfl] at hrun
  cases hs : (demoCfg 4 2 6).steps 8 st0 with
  | error x => rw [hs] at hrun; cases hrun
  | ok st => exact ⟨st0, st, ⟨h.sizes, h.diag, h.names, h.init⟩, hs⟩

end Verif

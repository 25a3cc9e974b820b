/-
Model of the `DebugProcessor`, `src/aspsim/processor.py:39-62`.
-/
import Verif.Model.Sim
namespace Verif

/-- State of a `DebugProcessor`.  `irAdd` is what has been added to `filt.ir`.
(`processor.py:39-49`.) -/
structure DebugSt (R : Type) where
  processed : Nat
  manual : Nat
  irAdd : Nat
  mic : Mat R
  ls : Mat R

/-- `__init__`, `processor.py:40-48`. -/
def DebugSt.init {R : Type} [Zero R] (numMic numLs tot : Nat) : DebugSt R where
  processed := 0
  manual := 0
  irAdd := 0
  mic := List.replicate numMic (List.replicate tot 0)
  ls := List.replicate numLs (List.replicate tot 0)

/-- `m[:, i] = v[:, j]` of two arrays, as `m[:, i:i+1] = v[:, j:j+1]`; out of
range indices raise.
(`processor.py:57-58`.) -/
def setCol {R : Type} (m v : Mat R) (i j : Nat) : Except PyErr (Mat R) :=
  if m.any (fun r => decide (r.length ≤ i)) || v.any (fun r => decide (r.length ≤ j)) then .error .index
  else match pyAssign2 m i (i + 1) (pySlice2 v j (j + 1)) with
    | none => .error .value
    | some m' => .ok m'

/-- One round of the loop, `processor.py:55-59`, for buffer position `j` and
counter value `i`.  `zip` evaluates `range(self.manual_idx, ...)` once, before
`manual_idx` is changed. -/
def debugLog {R : Type} (tot : Nat) (mic ls : Mat R) (p : DebugSt R) (q : Nat × Nat) :
    Except PyErr (DebugSt R) :=
  if q.1 < tot then
    match setCol p.mic mic q.1 q.2 with
    | .error x => .error x
    | .ok a =>
      match setCol p.ls ls q.1 q.2 with
      | .error x => .error x
      | .ok b => .ok { p with mic := a, ls := b, manual := p.manual + 1 }
  else .ok p

/-- `process(num_samples)`, `processor.py:51-62`. -/
def debugProcess {R : Type} (tot bs : Nat) (p : DebugSt R) (sig : Sigs R) (idx : Int) :
    Except PyErr (DebugSt R × Sigs R) :=
  match sigGet sig "mic" (idx - bs) idx with
  | .error x => .error x
  | .ok v =>
    match sigAssign sig "loudspeaker" idx (idx + bs) v with
    | .error x => .error x
    | .ok sig =>
      match sig "mic", sig "loudspeaker" with
      | some mic, some ls =>
        let pairs := (List.range bs).map fun k => (p.manual + k, (idx - bs + k).toNat)
        match pairs.foldlM (debugLog tot mic ls) p with
        | .error x => .error x
        | .ok p' => .ok ({ p' with processed := p'.processed + bs, irAdd := p'.irAdd + bs }, sig)
      | _, _ => .error .key

/-- The processor object.
(`processor.py:39-62`.) -/
def debugProc {R : Type} (tot bs : Nat) : Proc R (DebugSt R) where
  bs := bs
  process := debugProcess tot bs
  extra := []

end Verif

/-
The contract of the path filters of the external package `aspcore.filter` as
used by `Propagator` (`src/aspsim/simulator.py:409-418,437-442,466-475`):
`create_filter(ir=..., sum_over_input=True)` is a multichannel FIR filter with
zero initial state, `process` continues where the last call stopped, and
`update_ir` replaces the impulse response while the past input is kept.
`aspcore` itself is not part of the repository and not modelled.
-/
import Verif.Model.Sim
import Verif.Spec.Tape
namespace Verif

/-- An impulse response array of shape `(numIn, numOut, taps)`.
(`simulator.py:418`.) -/
structure IrMat (R : Type) where
  numIn : Nat
  numOut : Nat
  ir : Nat → Nat → List R

/-- A filter object: impulse response and past input columns, the most recent
first.
(`simulator.py:418`.) -/
structure Fir (R : Type) where
  mat : IrMat R
  hist : List (List R)

/-- Output channel `m` for the input columns `hist` (most recent first):
`Σ_s Σ_k ir[s, m, k] * x_s[n-k]`.
(`simulator.py:418,438,469,472`; contract of `aspcore.filter`, whose source is not in the repository.) -/
def firOut {R : Type} [Zero R] [Add R] [Mul R] (h : IrMat R) (hist : List (List R)) (m : Nat) : R :=
  ((List.range h.numIn).map fun s =>
    ((List.range (h.ir s m).length).map fun k =>
      (h.ir s m).getD k 0 * (hist.getD k []).getD s 0).sum).sum

/-- The columns of a `(channels, n)` array.
(`simulator.py:418,438,469,472`; contract of `aspcore.filter`, whose source is not in the repository.) -/
def colsOf {R : Type} [Zero R] (x : Mat R) (n : Nat) : List (List R) :=
  (List.range n).map fun k => x.map fun r => r.getD k 0

/-- Number of columns of a `(channels, n)` array.
(`simulator.py:418,438,469,472`; contract of `aspcore.filter`, whose source is not in the repository.) -/
def numCols {R : Type} : Mat R → Nat
  | [] => 0
  | r :: _ => r.length

/-- `process(x)`.
(`simulator.py:418,438,469,472`; contract of `aspcore.filter`, whose source is not in the repository.) -/
def Fir.process {R : Type} [Zero R] [Add R] [Mul R] (f : Fir R) (x : Mat R) :
    Except PyErr (Fir R × Mat R) :=
  if x.length ≠ f.mat.numIn then .error .value
  else
    let cols := colsOf x (numCols x)
    .ok ({ f with hist := cols.reverse ++ f.hist },
      matOf f.mat.numOut (numCols x) fun m k => firOut f.mat ((cols.take (k + 1)).reverse ++ f.hist) m)

/-- `update_ir(ir)`: the shape must stay the same.
(`simulator.py:418,438,469,472`; contract of `aspcore.filter`, whose source is not in the repository.) -/
def Fir.updateIr {R : Type} (f : Fir R) (h : IrMat R) : Except PyErr (Fir R) :=
  if h.numIn = f.mat.numIn ∧ h.numOut = f.mat.numOut then .ok { f with mat := h }
  else .error .value

/-- The filter package seen by the propagator.
(`simulator.py:418,438,469,472`; contract of `aspcore.filter`, whose source is not in the repository.) -/
def firOps (R : Type) [Zero R] [Add R] [Mul R] : FiltOps R (IrMat R) (Fir R) where
  create := fun h _ => { mat := h, hist := [] }
  process := Fir.process
  updateIr := Fir.updateIr

end Verif

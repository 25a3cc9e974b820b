/-
Simulations with `FastBlockFxLMS` (C173 to C176).
-/
import Verif.Model.FastBlock
import Verif.Spec.Adaptive
namespace Verif

section
variable {R IR F S A D O : Type} [Field R]

/-- A simulation with the processor `FastBlockFxLMS`: one reference and one error microphone
array and one loudspeaker array of the sizes the processor was made for, a block size that
divides the length of the control filter, which is also the number of samples between
updates, and signals that hold two filter lengths.  No array has the name the processor uses
for its own signal, and the step is never divided by zero.  Nothing is asked of the secondary
paths, nor of the buffer beyond one block. -/
structure FastScene (cfg : SimCfg R IR F S A (FastSt R) D O) (q : FxPar R) : Prop where
  proc : cfg.proc = some (fastProc q)
  ref : ∃ a ∈ cfg.arrays, a.name = "ref" ∧ a.kind = .mic ∧ a.num = q.nr
  err : ∃ a ∈ cfg.arrays, a.name = "error" ∧ a.kind = .mic ∧ a.num = q.ne
  ls : ∃ a ∈ cfg.arrays, a.name = "loudspeaker" ∧ a.kind = .ctrl ∧ a.num = q.nl
  own : ∀ a ∈ cfg.arrays, a.name ≠ "xf"
  nr : 0 < q.nr
  nl : 0 < q.nl
  ne : 0 < q.ne
  L : 0 < q.L
  bs : 0 < q.bs
  ub : q.ub = q.L ∧ q.bs ∣ q.L
  chunk : 1 ≤ cfg.C ∧ (2 ≤ cfg.C ∨ q.bs ≤ cfg.C)
  buffer : q.bs + 1 ≤ cfg.B ∧ 2 * q.L ≤ cfg.B + cfg.C
  regular : ∀ l : List R, (l.map fun x => x * x).sum + q.beta ≠ 0

/-- The control filter has one impulse response of `L` taps from every reference microphone
to every loudspeaker. -/
def FastShape (q : FxPar R) (p : FastSt R) : Prop :=
  p.ctrl.mat.numIn = q.nr ∧ p.ctrl.mat.numOut = q.nl ∧
    ∀ r < q.nr, ∀ l < q.nl, (p.ctrl.mat.ir r l).length = q.L

/-- What passes the model of the secondary paths in the processor: the last `a` reference
samples up to time 0 are left out, and for a block size above 1 those of the times
`1, ..., bs-1`. -/
def skippedFrom (a bs : Nat) (ρ : Nat → Int → R) : Nat → Int → R :=
  fun c t => if t ≤ -(a : Int) then ρ c t else ρ c (t + a + (bs - 1))

/-- The filtered reference as the processor stores it: with zeros where reference samples were
left out. -/
def storedFrom (S : IrMat R) (a bs : Nat) (ρ : Nat → Int → R) (r l m : Nat) (t : Int) : R :=
  if t ≤ -(a : Int) then filteredRef S bs (skippedFrom a bs ρ) r l m t
  else if t < bs then 0
  else filteredRef S bs (skippedFrom a bs ρ) r l m (t - a - (bs - 1))

/-- The same paths with the first `n` taps only. -/
def IrMat.firstTaps (n : Nat) (S : IrMat R) : IrMat R := { S with ir := fun i o => (S.ir i o).take n }

end
end Verif

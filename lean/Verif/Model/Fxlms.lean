/-
Model of the update of the adaptive filter `FxLMS` in
`examples/anc_processors.py:87-152`.
-/
import Verif.Model.PySlice
import Verif.Model.Fir
import Verif.Model.PyErr
import Mathlib.Algebra.BigOperators.Group.List.Basic
import Mathlib.Algebra.Field.Defs
namespace Verif

/-- The argument `normalization`, `anc_processors.py:104,109-110`. -/
inductive FxNorm
  | sample
  | block
  | none
  deriving DecidableEq

section
variable {R : Type} [Field R]

/-- One row of `Xf = np.flip(self.sig["xf"][..., n-filt_len+1 : n+1], axis=-1)`,
`anc_processors.py:135-137`. -/
def fxWindow (L : Nat) (row : List R) (n : Int) : List R :=
  (pySlice row (n - L + 1) (n + 1)).reverse

/-- `np.sum(a ** 2)` of one row, `anc_processors.py:140,147`. -/
def sumSq (row : List R) : R := (row.map fun x => x * x).sum

/-- `np.sum(Xf * self.sig["error"][None, None, :, n:n+1], axis=2)` for one reference
microphone and one loudspeaker, `anc_processors.py:138`: `xf` and `err` give the
rows of the `ne` error microphones.  An empty slice of the error signal does not
broadcast to the window; a window of length one or zero, where it would, is left
out, both occur outside the buffer only. -/
def fxTerm (L ne : Nat) (xf err : Nat → List R) (n : Int) : Except PyErr (List R) :=
  if ∀ m ∈ List.range ne, (pySlice (err m) n (n + 1)).length = 1 then
    .ok ((List.range (fxWindow L (xf 0) n).length).map fun k => ((List.range ne).map fun m =>
      (fxWindow L (xf m) n).getD k 0 * (pySlice (err m) n (n + 1)).getD 0 0).sum)
  else .error .value

/-- `grad_contribution`, `anc_processors.py:138-141`, with `norm = 1 / (np.sum(Xf**2)
+ self.beta)` over all microphones and loudspeakers.  For a denominator of 0 the code
gets `inf` and then `nan`, here the quotient is 0: theorems about normalized steps have
a hypothesis that excludes it. -/
def fxContribution (norm : FxNorm) (β : R) (nr nl ne L : Nat) (xf : Nat → Nat → Nat → List R) (err : Nat → List R)
    (n : Int) (r l : Nat) : Except PyErr (List R) :=
  match fxTerm L ne (xf r l) err n with
  | .error x => .error x
  | .ok v =>
    if norm = .sample then
      let q := 1 / (((List.range nr).map fun r => ((List.range nl).map fun l =>
        ((List.range ne).map fun m => sumSq (fxWindow L (xf r l m) n)).sum).sum).sum + β)
      .ok (v.map fun x => x * q)
    else .ok v

/-- The loop `for n in range(start_idx, end_idx)`, `anc_processors.py:134-142`, for one
entry of the gradient; `grad += grad_contribution` broadcasts. -/
def fxLoop (norm : FxNorm) (β : R) (nr nl ne L : Nat) (xf : Nat → Nat → Nat → List R) (err : Nat → List R)
    (r l : Nat) : List Int → List R → Except PyErr (List R)
  | [], g => .ok g
  | n :: ns, g =>
    match fxContribution norm β nr nl ne L xf err n r l with
    | .error x => .error x
    | .ok v =>
      match broadcastRow v g.length with
      | none => .error .value
      | some v => fxLoop norm β nr nl ne L xf err r l ns (List.zipWith (· + ·) g v)

/-- `update_filter` after the filtered reference `xf` has been extended,
`anc_processors.py:125-126,133-150`: the gradient between the buffer indices `start`
and `stop` for one reference microphone and one loudspeaker.  A denominator of 0 as in
`fxContribution`. -/
def fxGrad (norm : FxNorm) (β : R) (nr nl ne L : Nat) (xf : Nat → Nat → Nat → List R) (err : Nat → List R)
    (start stop : Nat) (r l : Nat) : Except PyErr (List R) :=
  match fxLoop norm β nr nl ne L xf err r l ((List.range (stop - start)).map fun i => ((start + i : Nat) : Int))
      (List.replicate L 0) with
  | .error x => .error x
  | .ok g =>
    if norm = .block then
      let q := 1 / (((List.range nr).map fun r => ((List.range nl).map fun l =>
        ((List.range ne).map fun m => sumSq (pySlice (xf r l m) start stop)).sum).sum).sum + β)
      .ok (g.map fun x => x * q)
    else .ok g

/-- `self.control_filter.ir -= grad * self.mu`, `anc_processors.py:152`, for one
reference microphone and one loudspeaker. -/
def fxUpdate (μ : R) (w g : List R) : List R := List.zipWith (fun a b => a - b * μ) w g

end
end Verif

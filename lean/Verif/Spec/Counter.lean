import Verif.Model.Counter
/-
Specification of phases: which phase contains sample `n`.
-/
namespace Verif

/-- Phase lengths in samples: `none` stands for an infinite phase, as do
negative numbers. -/
def specLen : Option Int → Option Nat
  | none => none
  | some (.ofNat n) => some n
  | some (.negSucc _) => none

/-- The phase containing sample `n` together with the information whether `n`
is its first sample; `none` when all phases are over. -/
def phaseAt : List (String × Option Int) → Nat → Option (String × Bool)
  | [], _ => none
  | (name, len) :: rest, n =>
    match specLen len with
    | none => some (name, n == 0)
    | some l => if n < l then some (name, n == 0) else phaseAt rest (n - l)

/-- Number of `progress` calls in a call sequence. -/
def countProgress : List EventOp → Nat
  | [] => 0
  | .progress :: ops => countProgress ops + 1
  | .add _ _ _ :: ops => countProgress ops

/-- The event table after a call sequence: the last definition of a name
counts. -/
def eventDef (cur : String → Option (Int × Int)) : List EventOp → String → Option (Int × Int)
  | [] => cur
  | .progress :: ops => eventDef cur ops
  | .add n f o :: ops => eventDef (fun x => if x = n then some (f, o) else cur x) ops

end Verif

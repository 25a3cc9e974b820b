/-
Specification vocabulary for what a logger saves and exports.
-/
import Verif.Spec.Tape
namespace Verif

/-- `ps` cuts the interval from `a` to `b` into consecutive non-empty pieces. -/
def Chain : Int → List (Int × Int) → Int → Prop
  | a, [], b => a = b
  | a, q :: ps, b => q.1 = a ∧ q.1 < q.2 ∧ Chain q.2 ps b

/-- `ps` is obtained from the interval list by cutting every interval into
consecutive non-empty pieces: nothing left out, nothing twice, in order. -/
inductive Refine : List (Int × Int) → List (Int × Int) → Prop
  | nil : Refine [] []
  | cons {a b : Int} {ivs ps qs : List (Int × Int)} :
      Chain a ps b → Refine ivs qs → Refine ((a, b) :: ivs) (ps ++ qs)

/-- Increasing, non-overlapping, non-empty intervals starting at or after `lo`. -/
def Increasing : Int → List (Int × Int) → Prop
  | _, [] => True
  | lo, q :: ivs => lo ≤ q.1 ∧ q.1 < q.2 ∧ Increasing q.2 ivs

/-- End of the last interval (or `lo`). -/
def lastEnd (lo : Int) (ps : List (Int × Int)) : Int := ps.foldl (fun _ q => q.2) lo

/-- The events of one diagnostic. -/
def evOf {O : Type} (nm : String) (log : List (Event O)) : List (Event O) :=
  log.filter fun ev => ev.diag == nm

/-- The indices an `IndexCounter` will still deliver. -/
def IxCounter.left (c : IxCounter) : List Int :=
  match c.up with
  | none => []
  | some e => e :: c.rest

/-- A diagnostic class whose `save` uses the signals only inside the chunk
interval it is given. -/
def DiagOps.Local {R P D O : Type} (ops : DiagOps R P D O) (dims : String → Option Nat) : Prop :=
  ∀ d p T (a b L : Nat) g, a ≤ b → b ≤ L →
    ops.save d p (cut dims T 0 L) (a, b) g =
      ops.save d p (cut dims T a (b - a)) (0, (b : Int) - a) g

/-- Saving the pieces one after the other: piece `[s, e)` consists of the
samples of steps `s-1, ..., e-2` of the tape, taken with the processor state
after step `e`. -/
def savePieces {R P D O : Type} (ops : DiagOps R P D O) (dims : String → Option Nat) (T : Tape R)
    (pf : Nat → Option P) (ps : List (Int × Int)) (d : D) : Except PyErr D :=
  ps.foldlM (fun d q => ops.save d (pf q.2.toNat) (cut dims T (q.1 - 1) (q.2 - q.1).toNat)
    (0, q.2 - q.1) q) d

/-- The intervals an `IntervalCounter` will still deliver. -/
def IvCounter.left (c : IvCounter) : List (Int × Int) :=
  match c.start, c.stop with
  | some s, some e => (s, e) :: c.rest
  | _, _ => []

/-- A diagnostic before the simulation: its save intervals are increasing and
non-overlapping, as `IntervalCounter` requires (`core.py:169-170`). -/
def Diag.Fresh {D : Type} (d : Diag D) : Prop :=
  ∃ ivs, d.saveAt = IvCounter.init ivs ∧ Increasing 0 ivs

/-- The channels denoted by a channel selection on an array with `num`
channels (negative indices count from the end); `none` if one does not exist. -/
def chanRows (num : Nat) : Option (List Int) → Option (List Nat)
  | none => some (List.range num)
  | some is => is.mapM fun (i : Int) =>
      if 0 ≤ i ∧ i < num then some i.toNat
      else if -(num : Int) ≤ i ∧ i < 0 then some (num + i).toNat
      else none

end Verif

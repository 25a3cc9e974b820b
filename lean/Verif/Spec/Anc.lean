/-
What the active noise control example needs in order to run (C166, C167).
-/
import Verif.Model.Anc
import Verif.Spec.Adaptive
import Verif.Spec.ValidRoom
import Verif.Spec.Array
namespace Verif

section
variable {K R G S V : Type} [Field K] [LinearOrder K] [Field R] [DecidableEq R]

/-- The parameters of a simulation with arrays `as` and the processor. -/
def SimCfg.withAnc {A D O F : Type} (base : SimCfg R (IrMat R) F S A (FxSt R) D O) (as : List (Arr (K × K × K)))
    (q : FxPar R) : SimCfg R (IrMat R) F S A (FxSt R) D O :=
  { base.withArrays as with proc := some (fxProc q) }

/-- A room without user errors with arrays "ref", "error" and "loudspeaker" of the right kinds, noise
sources that can deliver any number of samples, and a processor and signals of sizes that fit together.
With normalization the step is never divided by zero. -/
structure AncScene (base : SimCfg R (IrMat R) (Fir R) S (G × Coll (K × K × K) (IrMat R)) (FxSt R) (DData R (FxSt R) V) (DOut R V))
    (ext : RoomExt K R G) (i : RoomInfo K) (freq : Nat) (as : List (Arr (K × K × K))) (os : List (PathOp R)) (t : String)
    (srcs : String → S) (q : FxPar R) : Prop where
  plan : RoomPlan ext i freq as os t
  diag : base.diag = diagOps R (FxSt R) V
  filt : base.filt = firOps R
  ref : ∃ a ∈ as, a.name = "ref" ∧ a.kind = some .mic ∧ a.num = q.nr
  err : ∃ a ∈ as, a.name = "error" ∧ a.kind = some .mic ∧ a.num = q.ne
  ls : ∃ a ∈ as, a.name = "loudspeaker" ∧ a.kind = some .ctrl ∧ a.num = q.nl
  own : ∀ a ∈ as, a.name ≠ "xf"
  names : ((base.withAnc as q).signalList.map (·.1)).Nodup
  streams : ∀ a ∈ as, a.kind = some .free → ∃ x, IsStream base.srcGet (srcs a.name) a.num x
  L : 0 < q.L
  bs : 0 < q.bs
  ub : 0 < q.ub ∧ q.bs ∣ q.ub
  chunk : 1 ≤ base.C ∧ (2 ≤ base.C ∨ q.bs ≤ base.C)
  buffer : q.bs + 1 ≤ base.B ∧ q.L ≤ base.B + base.C
  regular : q.norm = .none ∨ ∀ l : List R, (l.map fun x => x * x).sum + q.beta ≠ 0

/-- The path from `a` to `b` has the type `ty`: no response was given by the user, and `ty` is the last
type the user gave, or the default if none was given. -/
def HasType (os : List (PathOp R)) (t : String) (a b : Arr (K × K × K)) (ty : String) : Prop :=
  userPaths a b os = [] ∧ ((userTypes a b os).getLast?).getD t = ty

/-- A diagnostic called `name` that recorded the signal `sig` has the samples `y`, from time index 0 to
the end. -/
def Recording {P : Type} (ds : List (Diag (DData R P V))) (name sig : String) (num tot : Nat) (y : Nat → Nat → R) : Prop :=
  ∃ d ∈ ds, d.name = name ∧ ∃ signal : Mat (Option R), d.data = .recSignal sig none signal ∧
    signal.length = num ∧ ∀ c < num, ∃ row, signal[c]? = some row ∧ row.length = tot ∧
      ∀ t < tot, row[t]? = some (some (y c t))

/-- What `num` channels with the signals `u` give at channel `c` after passing the responses `h`. -/
def throughPath (h : IrMat R) (num : Nat) (u : Nat → Int → R) (c : Nat) (t : Int) : R :=
  ((List.range num).map fun i => ((List.range (h.ir i c).length).map fun k => (h.ir i c).getD k 0 * u i (t - k)).sum).sum

end
end Verif

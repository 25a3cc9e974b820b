/-
What a valid setup is: the conditions under which a simulation is expected to
run to its end.
-/
import Verif.Spec.Run
import Verif.Model.Fir
import Verif.Spec.Stream
namespace Verif

section
variable {R S A P V : Type} [Field R] [DecidableEq R]

/-- A scene without user errors (sizes and processor aside): distinct signal names,
arrays with at least one channel, sources that can deliver any number of samples, and an
array collection whose impulse responses (in all its states, given by the invariant
`J`) have the right shapes. -/
structure ValidScene (cfg : SimCfg R (IrMat R) (Fir R) S A P (DData R P V) (DOut R V))
    (srcs : String → S) (arr : A) (J : A → Prop) : Prop where
  diag : cfg.diag = diagOps R P V
  filt : cfg.filt = firOps R
  names : (cfg.signalList.map (·.1)).Nodup
  channels : ∀ a ∈ cfg.arrays, 1 ≤ a.num
  streams : ∀ a ∈ freeOf cfg.arrays, ∃ x, IsStream cfg.srcGet (srcs a.name) a.num x
  arr0 : J arr
  moves : ∀ a n, J a → ∃ a', cfg.arrUpdate a n = .ok a' ∧ J a'
  paths : ∀ a, J a → ∀ p ∈ combosOf cfg.arrays, ∃ h, cfg.arrPath a p.1.name p.2.name = .ok h ∧
    h.numIn = p.1.num ∧ h.numOut = p.2.num

/-- A simulation setup without user errors (sizes aside): a valid scene and a processor
that does not raise (in its states, given by the invariant `K`). -/
structure ValidSetup (cfg : SimCfg R (IrMat R) (Fir R) S A P (DData R P V) (DOut R V))
    (lp : ProcView R P) (srcs : String → S) (arr : A) (proc : P) (J : A → Prop)
    (K : P → Prop) : Prop extends ValidScene cfg srcs arr J where
  proc0 : K proc
  acts : ∀ p, cfg.proc = some p → ∀ q T a, K q →
    ∃ q' out, lp.act q (cut cfg.dims T a (lp.H + p.bs)) = .ok (q', out) ∧ K q'

/-- A `RecordSignal` diagnostic that fits the simulation: existing signal and
channels, save intervals inside the run, export indices not negative. -/
def Diag.Records (cfg : SimCfg R (IrMat R) (Fir R) S A P (DData R P V) (DOut R V))
    (d : Diag (DData R P V)) : Prop :=
  ∃ ivs, d.saveAt = IvCounter.init ivs ∧ Increasing 0 ivs ∧ (∀ q ∈ ivs, q.2 ≤ cfg.tot) ∧
  ∃ sig chan num rows, d.data = .recSignal sig chan (matOf rows.length cfg.tot fun _ _ => none) ∧
    cfg.dims sig = some num ∧ chanRows num chan = some rows ∧ rows ≠ [] ∧
    ∀ e ∈ d.exportAt.left, 0 ≤ e

/-- The data of a new diagnostic that fits the simulation and the save intervals `ivs`:
existing signals and channels; a property of the processor that can be read in all its
states and, for `RecordState` and its relatives, has the announced number of values;
save intervals of one step for the latter, one interval of the announced length for
`SignalPowerSpectrum`; a `summary_func` that does not raise. -/
inductive DData.Fits (cfg : SimCfg R (IrMat R) (Fir R) S A P (DData R P V) (DOut R V)) (K : P → Prop)
    (ivs : List (Int × Int)) : DData R P V → Prop
  | recSignal {sig chan num rows} : cfg.dims sig = some num → chanRows num chan = some rows → rows ≠ [] →
      Fits cfg K ivs (.recSignal sig chan (matOf rows.length cfg.tot fun _ _ => none))
  | recState {get dim nv junk} : cfg.proc.isSome → 0 < dim → (∀ p, K p → ∃ v, get p = .ok v ∧ v.length = dim) →
      (∀ q ∈ ivs, q.2 = q.1 + 1) → ivs.length ≤ nv →
      Fits cfg K ivs (.recState get (List.replicate dim (List.replicate nv none)) (List.replicate nv junk) 0)
  | power {sig chan num rows} : cfg.dims sig = some num → chanRows num chan = some rows → rows ≠ [] →
      Fits cfg K ivs (.power sig chan (List.replicate cfg.tot none))
  | ratio {na ca nb cb numa numb ra rb} {q : Nat} : cfg.dims na = some numa → chanRows numa ca = some ra → ra ≠ [] →
      cfg.dims nb = some numb → chanRows numb cb = some rb → rb ≠ [] → q ≠ 0 →
      Fits cfg K ivs (.ratio na ca nb cb q (List.replicate cfg.tot none))
  | instant {get} : cfg.proc.isSome → (∀ p, K p → ∃ v, get p = .ok v) → Fits cfg K ivs (.instant get none)
  | sfPower {sig num} {q : Nat} : cfg.proc.isSome → cfg.dims sig = some num →
      Fits cfg K ivs (.sfPower sig q (List.replicate num 0))
  | spectrum {sig chan num rows welch} {a b : Int} : cfg.dims sig = some num → chanRows num chan = some rows →
      ivs = [(a, b)] →
      Fits cfg K ivs (.spectrum sig chan welch (matOf rows.length (b - a).toNat fun _ _ => none) 0)
  | summary {sig num func} {q : Nat} : cfg.dims sig = some num → (∀ v, ∃ y, summaryOf func v = .ok y) → q ≠ 0 →
      Fits cfg K ivs (.summary sig func q 0)

/-- A new diagnostic that fits the simulation: save intervals inside the run, export
indices not negative. -/
def Diag.Fits (cfg : SimCfg R (IrMat R) (Fir R) S A P (DData R P V) (DOut R V)) (K : P → Prop)
    (d : Diag (DData R P V)) : Prop :=
  ∃ ivs, d.saveAt = IvCounter.init ivs ∧ Increasing 0 ivs ∧ (∀ q ∈ ivs, q.2 ≤ cfg.tot) ∧
    (∀ e ∈ d.exportAt.left, 0 ≤ e) ∧ d.data.Fits cfg K ivs

end
end Verif

/-
Model of `AutocorrSource` and its coefficients, `src/aspsim/signal/sources.py:318-385`.
-/
import Verif.Model.Sources
namespace Verif

section
variable {R : Type} [Field R]

/-- `ar_coeffs_from_autocorr`, `signal/sources.py:318-333`, for one row of lags:
coefficients and noise power.  `solve c b` stands for
`scipy.linalg.solve_toeplitz(c, b)`. -/
def arCoeffs (solve : List R → List R → Except PyErr (List R)) (r : List R) : Except PyErr (List R × R) :=
  match solve r.dropLast r.tail with
  | .error x => .error x
  | .ok a =>
    match r with
    | [] => .error .index
    | r0 :: rest => .ok (a, r0 - (List.zipWith (· * ·) rest a).sum)

/-- `ar_coeffs_to_transfer_function`, `signal/sources.py:335-348`: numerator and
denominator. -/
def arTransfer (a : List R) : List R × List R := ([1], 1 :: a.map fun x => -x)

/-- One sample of one channel of `aspcore.filter.IIRFilter`, which is not part of the
repository: `a_0 y(n) = Σ b_k x(n-k) - Σ_{k≥1} a_k y(n-k)`, as cited in
`signal/sources.py:341-343`.  The state are the past inputs and outputs, the most
recent first. -/
def iirStep (num denom : List R) (z : List R × List R) (x : R) : (List R × List R) × R :=
  let xs := x :: z.1
  let y := (((List.range num.length).map fun k => num.getD k 0 * xs.getD k 0).sum -
    ((List.range (denom.length - 1)).map fun k => denom.getD (k + 1) 0 * z.2.getD k 0).sum) / denom.getD 0 0
  ((xs, y :: z.2), y)

/-- The loop of `AutocorrSource.prepare`, `signal/sources.py:379-381`: for every
channel `ch_idx` as many samples as the order of its filter are drawn and processed, for all
channels with the noise power of channel `ch_idx`. -/
def arPrepare (ord : Nat → Nat) (s : FiltNoiseSt R (List R × List R)) :
    Except PyErr (FiltNoiseSt R (List R × List R)) :=
  (List.range s.zi.length).foldlM (fun t c =>
    match ({ t with scale := fun _ => s.scale c } : FiltNoiseSt R (List R × List R)).get (ord c) with
    | .error x => .error x
    | .ok (t', _) => .ok { t' with scale := s.scale }) s

/-- `AutocorrSource.__init__`, `signal/sources.py:363-377`; `valid` is
`is_autocorr_func`, `ord` the attribute `order` of the filter. `get_samples` is
`FiltNoiseSt.get`. -/
def autocorrInit (solve : List R → List R → Except PyErr (List R)) (sqrt : R → R)
    (valid : List (List R) → Bool) (ord : Nat → Nat) (ch : Nat) (autocorr : List (List R)) (rng : Rng R) :
    Except PyErr (FiltNoiseSt R (List R × List R)) :=
  if autocorr.length ≠ ch then .error .assertion
  else if valid autocorr = false then .error .assertion
  else
    match autocorr.mapM (arCoeffs solve) with
    | .error x => .error x
    | .ok coeffs =>
      arPrepare ord
        { scale := fun c => sqrt (coeffs.getD c ([], 0)).2
          step := fun c => iirStep (arTransfer (coeffs.getD c ([], 0)).1).1 (arTransfer (coeffs.getD c ([], 0)).1).2
          zi := List.replicate ch ([], [])
          rng := rng }

end
end Verif

/-
Model of `ArrayCollection.get_freq_paths`, `src/aspsim/array.py:366-405`.

`np.fft.rfft` is written out as the discrete Fourier transform it computes; the
numbers of the result are elements of `K`, `emb` embeds the samples and `ω n`
is `exp(-2πi/n)`.
-/
import Verif.Model.Array
import Mathlib.Algebra.Field.Basic
namespace Verif

/-- `np.fft.rfft(h, n)` for one impulse response and `n > 0`: the response is cut or
padded with zeros to `n` samples, the result are the bins `0, ..., n // 2`.
(`array.py:403`.) -/
def rfft {K : Type} [Semiring K] (ω : K) (n : Nat) (h : List K) : List K :=
  (List.range (n / 2 + 1)).map fun f =>
    ((List.range n).map fun t => h.getD t 0 * ω ^ (f * t)).sum

/-- `np.fft.rfft(path, n=n, axis=-1).T`, `array.py:403`: the transposition reverses the
three axes, so the entries are `[frequency][microphone][source]`. -/
def freqPath {R K : Type} [Semiring K] (ω : K) (emb : R → K) (n : Nat) (h : IrMat R) : List (Mat K) :=
  (List.range (n / 2 + 1)).map fun f =>
    (List.range h.numOut).map fun m =>
      (List.range h.numIn).map fun s => (rfft ω n ((h.ir s m).map emb)).getD f 0

/-- Body of the loop, `array.py:401-403`; a missing path is a `KeyError`
(`array.py:141`), `rfft` raises `ValueError` for a length below 1. -/
def freqStep {Pt R K : Type} [Semiring K] (ω : Nat → K) (emb : R → K) (c : Coll Pt (IrMat R)) (n : Int)
    (acc : String → String → Option (List (Mat K))) (p : String × String) :
    Except PyErr (String → String → Option (List (Mat K))) :=
  match c.paths p.1 p.2 with
  | none => .error .key
  | some h =>
    if n < 1 then .error .value
    else .ok (set2 acc p.1 p.2 (freqPath (ω n.toNat) emb n.toNat h))

/-- `get_freq_paths(num_freqs, samplerate)`, `array.py:394-405`: `freq_paths` and
`freqs`. -/
def Coll.getFreqPaths {Pt R K : Type} [Field R] [Semiring K] (ω : Nat → K) (emb : R → K)
    (c : Coll Pt (IrMat R)) (n : Int) (sr : R) :
    Except PyErr ((String → String → Option (List (Mat K))) × List R) :=
  if n % 2 = 1 then .error .notImplemented
  else if n = 0 then .error .zeroDivision
  else
    match c.combos.foldlM (freqStep ω emb c n) (fun _ _ => none) with
    | .error x => .error x
    | .ok r => .ok (r, (List.range (n / 2 + 1).toNat).map fun (k : Nat) => sr / (n : R) * (k : R))

end Verif

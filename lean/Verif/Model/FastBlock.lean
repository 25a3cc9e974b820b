/-
Model of the adaptive noise control processor `FastBlockFxLMS` in
`examples/anc_processors.py:157-209`, as it runs in a simulation.  The packages
`aspcore.filter`, `aspcore.fouriertransform` and `aspcore.utilities` are not part of the
repository; they enter through the contracts `circConv`, `osProcess`, `corrSum` and
`blockStarts`.
-/
import Verif.Model.Adaptive
namespace Verif

/-- The attributes of the processor that change, `anc_processors.py:46,77,180`: `last` is
the block of input that the overlap-save filter of the secondary paths keeps. -/
structure FastSt (R : Type) where
  ctrl : Fir R
  ir : Nat → Nat → List R
  last : Mat R
  cnt : EventSt

section
variable {R : Type} [Field R]

/-- The secondary path of loudspeaker `l` and error microphone `m` in the processor,
`anc_processors.py:166-177`: `block_size` zeros in front, padded with zeros or cut to
`2 * filt_len` taps, and nothing from tap `filt_len` on. -/
def fastSecIr (q : FxPar R) (S : IrMat R) (l m : Nat) : List R :=
  let a := List.replicate q.bs 0 ++ S.ir l m
  let b := if a.length < 2 * q.L then a ++ List.replicate (2 * q.L - a.length) 0
    else if a.length > 2 * q.L then a.take (2 * q.L) else a
  b.take q.L ++ List.replicate (b.length - q.L) 0

/-- The product of two discrete Fourier transforms of length `N`, transformed back, at
`n`: circular convolution (`anc_processors.py:178,180`; contract of
`aspcore.fouriertransform`). -/
def circConv (N : Nat) (h x : List R) (n : Nat) : R :=
  ((List.range N).map fun j => h.getD j 0 * x.getD ((n + N - j) % N) 0).sum

/-- `FilterBroadcastFreq(data_dims=num_ref, tf=fft(ir)).process(v)`, followed by the
transposition, `anc_processors.py:180,190-191,199`: overlap-save, that is the second half of
the circular convolution of the last block and the new one with the response.  Another
block length than half the length of the transform is an error.  Rows as in `fxRow`. -/
def osProcess (q : FxPar R) (ir : Nat → Nat → List R) (last v : Mat R) : Except PyErr (Mat R × Mat R) :=
  if v.length = q.nr ∧ ∀ row ∈ v, row.length = q.L then
    .ok (v, matOf (q.nr * q.nl * q.ne) q.L fun o k => circConv (2 * q.L) (ir (o / q.ne % q.nl) (o % q.ne))
      (last.getD (o / (q.nl * q.ne)) [] ++ v.getD (o / (q.nl * q.ne)) []) (q.L + k))
  else .error .value

/-- The processor after `__init__`, `anc_processors.py:36-47,74-79,160-184`. -/
def fastInit (q : FxPar R) (S : IrMat R) : FastSt R where
  ctrl := ⟨⟨q.nr, q.nl, fun _ _ => List.replicate q.L 0⟩, []⟩
  ir := fastSecIr q S
  last := List.replicate q.nr (List.replicate q.L 0)
  cnt := EventSt.init [("update_filter", (q.L : Int), (q.L : Int))]

/-- `utils.block_process_idxs(n, len, 0, 0)`, `anc_processors.py:188`; contract of
`aspcore.utilities`: the beginnings of the whole blocks. -/
def blockStarts (n len : Nat) : List Nat := (List.range (n / len)).map (· * len)

/-- One pass of the loop of `prepare`, `anc_processors.py:188-192`. -/
def fastPrepBlock (q : FxPar R) (r : FastSt R × Sigs R) (start : Nat) : Except PyErr (FastSt R × Sigs R) :=
  match sigGet r.2 "ref" start ((start : Int) + q.L) with
  | .error x => .error x
  | .ok v =>
    match osProcess q r.1.ir r.1.last v with
    | .error x => .error x
    | .ok (last, y) =>
      match sigAssign r.2 "xf" start ((start : Int) + q.L) y with
      | .error x => .error x
      | .ok sig => .ok ({ r.1 with last := last }, sig)

/-- `prepare`, `anc_processors.py:186-192`. -/
def fastPrepare (q : FxPar R) (p : FastSt R) (sig : Sigs R) (idx : Int) : Except PyErr (FastSt R × Sigs R) :=
  (blockStarts idx.toNat q.L).foldlM (fastPrepBlock q) (p, sig)

/-- `ft.correlate_sum_tt(e, x)` for one reference microphone and one loudspeaker,
`anc_processors.py:201-203`; contract of `aspcore.fouriertransform`: the circular
correlation of `x` with `e` behind as many zeros, the first half of its lags, summed
over the error microphones. -/
def corrSum (L ne : Nat) (e x : Nat → List R) : Except PyErr (List R) :=
  if ∀ m ∈ List.range ne, (e m).length = L ∧ (x m).length = 2 * L then
    .ok ((List.range L).map fun k => ((List.range ne).map fun m => ((List.range (2 * L)).map fun j =>
      (List.replicate L 0 ++ e m).getD j 0 * (x m).getD ((j + 2 * L - k) % (2 * L)) 0).sum).sum)
  else .error .value

/-- `td_grad`, `anc_processors.py:201-203`. -/
def fastGrads (q : FxPar R) (E X : Mat R) : Except PyErr (List (List (List R))) :=
  (List.range q.nr).mapM fun r => (List.range q.nl).mapM fun l =>
    corrSum q.L q.ne (fun m => E.getD m []) fun m => X.getD (fxRow q r l m) []

/-- `norm`, `anc_processors.py:205-208`, 0 instead of `inf` for a denominator of 0. -/
def fastNorm (q : FxPar R) (Y : Mat R) : R :=
  1 / (((List.range q.nr).map fun r => ((List.range q.nl).map fun l =>
    ((List.range q.ne).map fun m => sumSq (Y.getD (fxRow q r l m) [])).sum).sum).sum + q.beta)

/-- `self.control_filter.ir -= self.mu * norm * td_grad`, `anc_processors.py:209`. -/
def fastStep (c : R) (f : Fir R) (g : List (List (List R))) : Fir R :=
  { f with mat := { f.mat with ir := fun r l => List.zipWith (fun a b => a - c * b) (f.mat.ir r l) ((g.getD r []).getD l []) } }

/-- `update_filter`, `anc_processors.py:194-209`; `update_block_size` is the length of the
control filter (line 161). -/
def fastUpdateFilter (q : FxPar R) (p : FastSt R) (sig : Sigs R) (idx : Int) : Except PyErr (FastSt R × Sigs R) :=
  match sigGet sig "ref" (idx - q.L) idx with
  | .error x => .error x
  | .ok v =>
    match osProcess q p.ir p.last v with
    | .error x => .error x
    | .ok (last, y) =>
      match sigAssign sig "xf" (idx - q.L) idx y with
      | .error x => .error x
      | .ok sig =>
        match sigGet sig "error" (idx - q.L) idx, sigGet sig "xf" (idx - (2 * q.L : Nat)) idx,
          sigGet sig "xf" (idx - q.L) idx with
        | .ok E, .ok X, .ok Y =>
          match fastGrads q E X with
          | .error x => .error x
          | .ok g => .ok ({ p with ctrl := fastStep (q.mu * fastNorm q Y) p.ctrl g, last := last }, sig)
        | _, _, _ => .error .key

/-- `process`, `anc_processors.py:49-55`. -/
def fastProcess (q : FxPar R) (p : FastSt R) (sig : Sigs R) (idx : Int) : Except PyErr (FastSt R × Sigs R) :=
  match ancProcess "ref" "loudspeaker" q.bs p.ctrl sig idx with
  | .error x => .error x
  | .ok (f, sig1) =>
    match (if "update_filter" ∈ p.cnt.event then fastUpdateFilter q { p with ctrl := f } sig1 idx
        else .ok ({ p with ctrl := f }, sig1)) with
    | .error x => .error x
    | .ok (p2, sig2) =>
      match (List.range q.bs).foldlM (fun s _ => EventSt.progress s) p2.cnt with
      | .error x => .error x
      | .ok c => .ok ({ p2 with cnt := c }, sig2)

/-- The processor object, `anc_processors.py:157-209`. -/
def fastProc (q : FxPar R) : Proc R (FastSt R) where
  bs := q.bs
  process := fastProcess q
  extra := [("xf", q.nr * q.nl * q.ne)]

end
end Verif

/-
Model of the block processors in the examples of the repository:
`examples/example_processor.py:7-15` (`PlaySoundProcessor`) and
`examples/anc_processors.py:35-84` (`TDANCProcessor`).
-/
import Verif.Model.Sim
import Verif.Model.Fir
namespace Verif

/-- `PlaySoundProcessor.process`, `example_processor.py:12-15`, for the
loudspeaker array `out` (there `"ls"`) and any source with the method
`get_samples` in place of the white noise. -/
def playProcess {R S : Type} (get : S → Nat → Except PyErr (S × Mat R)) (out : String) (bs : Nat) (s : S)
    (sig : Sigs R) (idx : Int) : Except PyErr (S × Sigs R) :=
  match get s bs with
  | .error x => .error x
  | .ok (s', v) =>
    match sigAssign sig out idx (idx + bs) v with
    | .error x => .error x
    | .ok sig => .ok (s', sig)

/-- The processor object, `example_processor.py:7-15`. -/
def playProc {R S : Type} (get : S → Nat → Except PyErr (S × Mat R)) (out : String) (bs : Nat) : Proc R S where
  bs := bs
  process := playProcess get out bs
  extra := []

/-- `ActiveNoiseControlProcessor.process` with `TDANCProcessor.gen_speaker_signals`,
`anc_processors.py:49-55,81-84`, for the microphone array `inp` (there `"ref"`)
and the loudspeaker array `out` (there `"loudspeaker"`).  `update_filter`
(`anc_processors.py:61-63`) is abstract there; it is taken to leave the control
filter as it is, so the event counter has no effect and is left out.  The control
filter is an object of `aspcore.filter` and enters through its contract. -/
def ancProcess {R : Type} [Zero R] [Add R] [Mul R] (inp out : String) (bs : Nat) (f : Fir R)
    (sig : Sigs R) (idx : Int) : Except PyErr (Fir R × Sigs R) :=
  match sigGet sig inp (idx - bs) idx with
  | .error x => .error x
  | .ok v =>
    match f.process v with
    | .error x => .error x
    | .ok (f', y) =>
      match sigAssign sig out idx (idx + bs) y with
      | .error x => .error x
      | .ok sig => .ok (f', sig)

/-- The processor object, `anc_processors.py:35-84`. -/
def ancProc {R : Type} [Zero R] [Add R] [Mul R] (inp out : String) (bs : Nat) : Proc R (Fir R) where
  bs := bs
  process := ancProcess inp out bs
  extra := []

end Verif

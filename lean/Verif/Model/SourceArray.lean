/-
`SourceArray` and `load_audio_file` of `src/aspsim/signal/sources.py`.
-/
import Verif.Model.SourcePower
namespace Verif

/-! ### SourceArray -/

/-- The argument `amplitude` of `SourceArray`: a number, or a list of them.
(`signal/sources.py:32-34`.) -/
inductive AmpArg (α : Type)
  | one (a : α)
  | each (l : List α)

/-- `SourceArray.__init__`, `signal/sources.py:32-36`; `make` is `source_type` with the remaining
arguments. -/
def mkSourceArray {α σ : Type} (make : α → Except PyErr σ) (num : Nat) (amp : AmpArg α) : Except PyErr (List σ) :=
  let l := match amp with
    | .one a => List.replicate num a
    | .each l => l
  (List.range num).mapM fun i =>
    match l[i]? with
    | none => .error .index
    | some a => make a

/-- `SourceArray.get_samples`, `signal/sources.py:38-42`: the sources are asked one after the other;
`np.concatenate` of an empty list raises.  A generator shared by several of the sources is left out;
all members deliver blocks of the requested length. -/
def sourceArrayGet {σ R : Type} (get : σ → Nat → Except PyErr (σ × List (List R))) (ss : List σ) (n : Nat) :
    Except PyErr (List σ × List (List R)) :=
  if ss = [] then .error .value
  else
    match ss.mapM fun s => get s n with
    | .error e => .error e
    | .ok rs => .ok (rs.map Prod.fst, (rs.map Prod.snd).flatten)

/-- `FreeSourceArray.set_source`, `array.py:668-670`, for a source whose attribute `num_channels` is
`ch`, or is missing. -/
def setSource (num : Nat) (ch : Option Nat) : Except PyErr Unit :=
  match ch with
  | none => .error .attribute
  | some c => if c = num then .ok () else .error .assertion

/-- The attribute `num_channels` of a `SourceArray`: the class has none.
(`signal/sources.py:31-42`.) -/
def sourceArrayChannels {σ : Type} (_ : List σ) : Option Nat := none

/-! ### load_audio_file -/

/-- What `soundfile.read` finds: the sample rate, and the samples of each channel.  It returns an
array with one axis for a file with one channel, otherwise one with the axes time and channel.
(`signal/sources.py:289-291`.) -/
structure AudioFile (R : Type) where
  sr : Nat
  chans : List (List R)

/-- `up_factor` and `down_factor`, `signal/sources.py:300-304`; `simplify` is `simplify_ratio` of
`aspcore`. -/
def resampleFactors (simplify : Nat → Nat → Nat × Nat) (desired sr : Nat) : Nat × Nat :=
  if sr % desired = 0 then (1, sr / desired) else simplify desired sr

/-- `load_audio_file`, `signal/sources.py:288-311`, without the messages; `resample up down` is
`scipy.signal.resample_poly` of one channel.  A negative number of channels is left out. -/
def loadAudioFile {R : Type} (resample : Nat → Nat → List R → List R) (simplify : Nat → Nat → Nat × Nat)
    (file : AudioFile R) (desired numCh : Option Nat) : Except PyErr (List (List R)) :=
  if file.chans.length = 1 then .error .assertion
  else
    let audio := match numCh with
      | none => file.chans
      | some n => file.chans.take n
    if desired = some file.sr then .ok audio
    else
      match desired with
      | none => .error .typeErr
      | some d =>
        if ¬ d < file.sr then .error .assertion
        else if d = 0 then .error .zeroDivision
        else
          let f := resampleFactors simplify d file.sr
          match numCh with
          | none => .error .typeErr
          | some n =>
            if audio.length < n then .error .index
            else if n = 0 then .error .value
            else .ok ((audio.take n).map (resample f.1 f.2))

end Verif

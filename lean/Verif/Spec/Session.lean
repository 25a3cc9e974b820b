/-
Specification vocabulary for configurations and sessions.
-/
import Verif.Model.Session
import Verif.Spec.Array
namespace Verif

section
variable {F S G : Type}

/-- The parameters that determine impulse responses agree. -/
def SimInfo.SameRoom (i j : SimInfo F) : Prop :=
  i.roomSize = j.roomSize ∧ i.roomCenter = j.roomCenter ∧ i.rt60 = j.rt60 ∧ i.maxIrLen = j.maxIrLen ∧
    i.randomized = j.randomized ∧ i.extraDelay = j.extraDelay ∧ i.highpass = j.highpass

/-- The basic audio parameters agree. -/
def SimInfo.SameBasics (i j : SimInfo F) : Prop :=
  i.samplerate = j.samplerate ∧ i.c = j.c ∧ i.dims = j.dims ∧ i.reverb = j.reverb

/-- All parameters except the bookkeeping ones agree: lengths of simulation,
buffers and blocks, start of the sources, saved contributions, update frequency,
exports, plots, smoothing and session handling may differ. -/
def SimInfo.SameAudio (i j : SimInfo F) : Prop := i.SameBasics j ∧ i.SameRoom j

/-- Impulse responses depend only on the audio parameters. -/
def GenSys.Audio (sys : GenSys F G) : Prop := ∀ i j : SimInfo F, i.SameAudio j → sys.gen i = sys.gen j

/-- Impulse responses do not depend on random numbers or global state. -/
def GenSys.Pure (sys : GenSys F G) : Prop :=
  ∀ i g1 g2 a b t g1' g2' x y, sys.gen i g1 a b t = .ok (g1', x) → sys.gen i g2 a b t = .ok (g2', y) → x = y

/-- What the matching test does not compare (exactly) is equal: positions,
directivity, trajectories, and the paths given by the user. -/
structure Agree (c c0 : Coll (List F) (IrMat F)) : Prop where
  arrays : ∀ a ∈ c.arrays, ∀ b ∈ c0.arrays, a.name = b.name →
    a.pos = b.pos ∧ a.omni = b.omni ∧ a.traj = b.traj
  paths : ∀ s m h h0, c.types s m = some "modified" → c.paths s m = some h → c0.paths s m = some h0 → h = h0

/-- The folder was written by a complete `save_session` of `create_simulator` for
some setup. -/
def Folder.WrittenFor (sys : GenSys F G) (f : Folder F S) (i : SimInfo F) (b : Built F S) : Prop :=
  f.config = .full i ∧ f.arrays = .full b ∧
    ∃ (g g' : G) (c : Coll (List F) (IrMat F)) (source : String → Option S), c.Consistent ∧ (∀ a ∈ c.arrays, a.Initial) ∧
      setupArrays sys g i (c.setDefault i.reverb) source = .ok (g', b)

/-- A folder with everything that a complete session has. -/
structure Folder.Holds (f : Folder F S) (i : SimInfo F) (b : Built F S) : Prop where
  config : f.config = .full i
  arrays : f.arrays = .full b
  valid : i.postInit = .ok i
  con : b.coll.Consistent
  full : ∀ s ∈ b.coll.srcs, ∀ m ∈ b.coll.mics, (b.coll.types s m).isSome ∧ (b.coll.paths s m).isSome

/-- The shapes of two collections can be compared: arrays of the same name have
points of the same dimension, and paths given by the user have the lengths of the
stored paths. -/
structure Comparable (c c0 : Coll (List F) (IrMat F)) : Prop where
  dims : ∀ a ∈ c.arrays, ∀ b ∈ c0.arrays, a.name = b.name →
    ∀ x ∈ a.pos, ∀ y ∈ b.pos, x.length = y.length
  lens : ∀ s m h h0, c.types s m = some "modified" → c.paths s m = some h → c0.paths s m = some h0 →
    ∀ i j, (h.ir i j).length = (h0.ir i j).length

end
end Verif

/-
The same noise in two rooms with differently grouped loudspeakers (C202).
-/
import Verif.Spec.Fir
import Verif.Spec.Grouping
namespace Verif

section
variable {R S P D O Pt G : Type} [Zero R] [One R]

/-- The arrays of a simulation stand or move in a room: `c` are the arrays as the user sets them
up, `c0` and `g0` are the arrays and the random state after the impulse responses were created. -/
structure InRoom (cfg : SimCfg R (IrMat R) (Fir R) S (G × Coll Pt (IrMat R)) P D O) (rc : RirCfg R Pt G)
    (c : Coll Pt (IrMat R)) (g : G) (c0 : Coll Pt (IrMat R)) (g0 : G) : Prop where
  setup : c.setupIr (createPath rc) g = .ok (g0, c0)
  cons : c.Consistent
  arrays : cfg.arrays = c.infos
  upd : cfg.arrUpdate = Coll.update (createPath rc)
  path : cfg.arrPath = Coll.path
  pos : ∀ a ∈ c.arrays, 0 < a.num
  init : ∀ a ∈ c.arrays, a.Initial
  sized : ∀ a ∈ c.arrays, a.Sized
  fit : c0.PathsFit

/-- For the microphone arrays `m` and `m'` of two sets of arrays: they are at the same places; the
same single loudspeakers play the same noise from the same places, whatever arrays they belong
to; and the loudspeakers of the processor are at the same places. -/
structure SameNoise (c c' : Coll Pt (IrMat R)) (x x' : String → Nat → Nat → R) (m m' : Arr Pt) : Prop where
  place : ∀ u, c.freq ∣ u → m'.geoAt u = m.geoAt u
  noise : ∀ u, c.freq ∣ u → ((c.speakers m.name x).map fun s => (s.1, s.2.1 u, s.2.2)).Perm
    ((c'.speakers m'.name x').map fun s => (s.1, s.2.1 u, s.2.2))
  types : ∀ s ∈ c.arrays, s.kind = some .free → c.types s.name m.name = some "ism" ∨ c.types s.name m.name = some "none"
  types' : ∀ s ∈ c'.arrays, s.kind = some .free → c'.types s.name m'.name = some "ism" ∨ c'.types s.name m'.name = some "none"
  control : ∀ l ∈ c.arrays, ∀ l' ∈ c'.arrays, l.name = "loudspeaker" → l'.name = "loudspeaker" →
    (∀ u, c.freq ∣ u → l'.geoAt u = l.geoAt u) ∧ c'.types l'.name m'.name = c.types l.name m.name ∧
      (c.types l.name m.name = some "ism" ∨ c.types l.name m.name = some "none")

end
end Verif

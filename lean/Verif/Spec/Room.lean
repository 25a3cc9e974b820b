/-
Specification vocabulary for changes of coordinates.
-/
import Verif.Model.Room
import Verif.Model.Sim
namespace Verif

section
variable {Pt Pt' H G : Type}

/-- The array with all coordinates changed by `f`. -/
def Arr.mapPos (f : Pt → Pt') (a : Arr Pt) : Arr Pt' :=
  { name := a.name, kind := a.kind, num := a.num, pos := a.pos.map f, groups := a.groups, numGroups := a.numGroups
    traj := a.traj.map fun p n => (p n).map f, omni := a.omni, log := a.log.map fun e => (e.1, e.2.map f) }

/-- The collection with all coordinates changed by `f`. -/
def Coll.mapPos (f : Pt → Pt') (c : Coll Pt H) : Coll Pt' H :=
  { c with arrays := c.arrays.map (Arr.mapPos f) }

/-- The geometry with all coordinates changed by `f`. -/
def Geo.mapPos (f : Pt → Pt') (a : Geo Pt) : Geo Pt' := ⟨a.num, a.pos.map f, a.omni⟩

end

section
variable {F K R S P D O G : Type} [Field K] [LinearOrder K] [Zero R] [One R] [Add R]

/-- A point moved by `d`. -/
def shift (d p : K × K × K) : K × K × K := p + d

/-- What can be seen of a simulation besides the coordinates: signals, sources, filters, processor,
time, diagnostics, exported results, impulse responses and random generators. -/
structure Observed (F R S P D O G : Type) where
  sig : Sigs R
  srcs : String → S
  filts : String → String → F
  proc : P
  idx : Int
  n : Nat
  diags : List (Diag D)
  log : List (Event O)
  gen : G
  paths : String → String → Option (IrMat R)
  rirs : List (IrMat R)

/-- What can be seen of a state. -/
def observe {Pt : Type} (st : SimSt R F S (G × Coll Pt (IrMat R)) P D O) : Observed F R S P D O G :=
  ⟨st.eng.sig, st.eng.srcs, st.eng.filts, st.eng.proc, st.idx, st.n, st.diags, st.log, st.eng.arr.1,
    st.eng.arr.2.paths, st.eng.arr.2.rirs⟩

/-- Preparation and run of a simulation in a room; `base` has the arguments that do not
concern the arrays. -/
def simulate (base : SimCfg R (IrMat R) F S (G × Coll (K × K × K) (IrMat R)) P D O) (ext : RoomExt K R G)
    (i : RoomInfo K) (g : G) (c : Coll (K × K × K) (IrMat R)) (srcs : String → S) (proc : P) (f0 : F)
    (ds : List (Diag D)) : Except PyErr (SimSt R F S (G × Coll (K × K × K) (IrMat R)) P D O) :=
  match roomSetup ext i g c with
  | .error x => .error x
  | .ok (par, gc) =>
    { base with
      arrays := c.infos, arrUpdate := Coll.update (createPath (i.cfg ext par)), arrPath := Coll.path }.run
        srcs gc proc f0 ds

end
end Verif

/-
Model of the placing of sound field images, `sf_plot`, `size_of_2d_plot` and
`compare_soundfields` of `src/aspsim/diagnostics/soundfieldplot.py`, and of
`plot_3d_in_2d` of `src/aspsim/diagnostics/plot.py`.
-/
import Verif.Model.Plot
namespace Verif

section
variable {F : Type} [Field F] [LinearOrder F]

/-- `np.min` of an array; raises without entries.
(`soundfieldplot.py:47,79`.) -/
def arrMin : List F → Except PyErr F
  | [] => .error .value
  | a :: l => .ok (l.foldl min a)

/-- `np.max` of an array; raises without entries.
(`soundfieldplot.py:47,79`.) -/
def arrMax : List F → Except PyErr F
  | [] => .error .value
  | a :: l => .ok (l.foldl max a)

/-- What `ax.imshow` is given, `soundfieldplot.py:78-81`: the rows of the image, the first
one at the top (the default of matplotlib), and `extent`, the coordinates of the edges of
the image. -/
structure Image (V F : Type) where
  rows : List (List V)
  left : F
  right : F
  bottom : F
  top : F
deriving DecidableEq

/-- `sf_plot`, `soundfieldplot.py:51-97`: the image it shows.  Colours, titles and further
arrays are not modelled. -/
def sfPlot {V : Type} (ps : List (List (Pt F))) (ss : List (List V)) : Except PyErr (Image V F) :=
  match arrMin (ps.flatten.map Pt.x), arrMax (ps.flatten.map Pt.x), arrMin (ps.flatten.map Pt.y),
      arrMax (ps.flatten.map Pt.y) with
  | .ok l, .ok r, .ok b, .ok t => .ok ⟨ss, l, r, b, t⟩
  | _, _, _, _ => .error .value

/-- The image of `soundfield` for one diagnostic, `plot.py:247-250`. -/
def soundfieldImage [FloorRing F] {V : Type} (pos : List (Pt F)) (sf : List V) : Except PyErr (Image V F) :=
  match sortForImshow 5 pos sf with
  | .error x => .error x
  | .ok (ps, ss) => sfPlot ps ss

/-- `size_of_2d_plot`, `soundfieldplot.py:38-48`. -/
def sizeOf2dPlot (arrays : List (List (Pt F))) : Except PyErr (F × F) :=
  match arrMin (arrays.flatten.map Pt.x), arrMax (arrays.flatten.map Pt.x), arrMin (arrays.flatten.map Pt.y),
      arrMax (arrays.flatten.map Pt.y) with
  | .ok l, .ok r, .ok b, .ok t => .ok (r - l, t - b)
  | _, _, _, _ => .error .value

/-- The argument `sig` of `compare_soundfields`: a list, as the documentation asks for
(`soundfieldplot.py:9`), or an array with two or three axes.  Arrays with more axes are not
modelled. -/
inductive FieldArg (V : Type)
  | list (l : List (List (List V)))
  | arr2 (a : List (List V))
  | arr3 (a : List (List (List V)))

/-- The values of the argument `arrays_to_plot` of `compare_soundfields`, `soundfieldplot.py:7`: none,
arrays of the simulation, or arrays of positions. -/
inductive PlotArrays (F : Type)
  | empty
  | objects
  | positions (l : List (List (Pt F)))

/-- The indices of the axes that `enumerate(np.atleast_2d(axes))` visits, `soundfieldplot.py:28,33-34`:
`plt.subplots` returns a one-dimensional array for a single row and for a single column. -/
def axesShape (numAlgos numEach : Nat) : Nat × Nat :=
  if numAlgos = 1 then (1, numEach) else if numEach = 1 then (1, numAlgos) else (numAlgos, numEach)

/-- One call of `sf_plot`, `soundfieldplot.py:35`, with the two parts of its title. -/
def compareOne {V L : Type} (fields : List (List (List (List V)))) (algoLabels rowLabels : List L)
    (arrays : PlotArrays F) (i j : Nat) : Except PyErr ((L × L) × List (List V)) :=
  match fields[i]? with
  | none => .error .index
  | some fi =>
    match fi[j]? with
    | none => .error .index
    | some im =>
      match algoLabels[i]?, rowLabels[j]? with
      | some a, some b =>
        match arrays with
        | .positions (_ :: _) => .error .attribute
        | _ => .ok ((a, b), im)
      | _, _ => .error .index

/-- Collecting the results of calls until one raises.
(`soundfieldplot.py:33-35`.) -/
def untilRaise {A : Type} : List (Except PyErr A) → Except PyErr (List A)
  | [] => .ok []
  | x :: xs =>
    match x with
    | .error e => .error e
    | .ok a =>
      match untilRaise xs with
      | .error e => .error e
      | .ok as => .ok (a :: as)

/-- The part of `compare_soundfields` after sorting, `soundfieldplot.py:15-35`: the images of the
rows of axes.  The size of the figure is not modelled, only that its computation raises for
arrays of the simulation, which cannot be indexed. -/
def compareRest {V L : Type} (ps : List (List (Pt F))) (fields : List (List (List (List V))))
    (algoLabels rowLabels : List L) (arrays : PlotArrays F) :
    Except PyErr (List (List ((L × L) × List (List V)))) :=
  match arrays with
  | .objects => .error .typeErr
  | arrays =>
    let extra := match arrays with | .positions l => l | _ => []
    match sizeOf2dPlot (ps.flatten :: extra) with
    | .error x => .error x
    | .ok _ =>
      let shape := axesShape fields.length ((fields.head?.map List.length).getD 0)
      untilRaise ((List.range shape.1).map fun i =>
        untilRaise ((List.range shape.2).map fun j => compareOne fields algoLabels rowLabels arrays i j))

/-- `compare_soundfields`, `soundfieldplot.py:7-35`: the images and titles in the rows of axes. -/
def compareSoundfields [FloorRing F] {V L : Type} (pos : List (Pt F)) (sig : FieldArg V)
    (algoLabels rowLabels : List L) (arrays : PlotArrays F) :
    Except PyErr (List (List ((L × L) × List (List V)))) :=
  match sig with
  | .list _ =>
    match sortForImshow 5 pos pos with
    | .error x => .error x
    | .ok _ => .error .attribute
  | .arr2 a =>
    match sortForImshow 5 pos a with
    | .error x => .error x
    | .ok (ps, ss) => compareRest ps [ss] algoLabels rowLabels arrays
  | .arr3 a =>
    match sortForImshow 5 pos a with
    | .error x => .error x
    | .ok (ps, ss) => compareRest ps ss algoLabels rowLabels arrays

/-- The third coordinates `posData[:,2]`; raises for positions with two.
(`plot.py:128,136`.) -/
def heights : List (Pt F) → Except PyErr (List F)
  | [] => .ok []
  | p :: ps =>
    match p.z with
    | none => .error .index
    | some z =>
      match heights ps with
      | .error x => .error x
      | .ok zs => .ok (z :: zs)

/-- `plot_3d_in_2d`, `plot.py:127-138`: for each line its height in the label and its points. -/
def plot3dIn2d [FloorRing F] (pos : List (Pt F)) : Except PyErr (List (F × List (F × F))) :=
  match heights pos with
  | .error x => .error x
  | .ok zs =>
    .ok ((npUnique (zs.map (roundDec 4))).map fun v =>
      (v, ((pos.zip zs).filter fun q => decide (roundDec 4 q.2 = v)).map fun q => (q.1.x, q.1.y)))

end

end Verif

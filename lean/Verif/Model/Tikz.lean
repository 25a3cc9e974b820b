/-
Model of the files written by `output_plot("tikz", ...)` and removed by
`delete_earlier_tikz_plot`, `src/aspsim/diagnostics/plot.py:13-36,48-83`.

A folder has files and folders; the latter contain files only.  A file has contents of the
type `C`.  `iterdir` gives the entries that are there when it is called, in the order of the
list.  Files that are in use by another program (`PermissionError`) are not modelled.
-/
import Verif.Model.Files
namespace Verif

section
variable {C : Type}

/-- An entry of a folder.
(`diagnostics/plot.py:19-20,56-66`.) -/
inductive Node (C : Type)
  | file (c : C)
  | dir (l : List (Name × C))

/-- A folder: its entries with their names.
(`diagnostics/plot.py:18-36`.) -/
abbrev Fs (C : Type) := List (Name × Node C)

/-- The entry with a given name.
(`diagnostics/plot.py:18-36`.) -/
def Fs.get (fs : Fs C) (n : Name) : Option (Node C) := (fs.find? fun e => e.1 == n).map (·.2)

/-- Creating or replacing an entry.
(`diagnostics/plot.py:25-27,57,63-83`.) -/
def Fs.put (fs : Fs C) (n : Name) (x : Node C) : Fs C := (fs.filter fun e => e.1 != n) ++ [(n, x)]

/-- Removing an entry.
(`diagnostics/plot.py:30,34`.) -/
def Fs.erase (fs : Fs C) (n : Name) : Fs C := fs.filter fun e => e.1 != n

/-- Removing a file of a sub-folder.
(`diagnostics/plot.py:25-30`.) -/
def Fs.eraseIn (fs : Fs C) (d n : Name) : Fs C :=
  fs.map fun e => (e.1, if e.1 = d then
    match e.2 with
    | .file c => .file c
    | .dir l => .dir (l.filter fun p => p.1 != n)
    else e.2)

/-- The loop over the files of one earlier plot, `diagnostics/plot.py:21-32`: `rename`
replaces an existing file, and raises if the target is a folder. -/
def tikzFiles (d : Name) : List (Name × C) → Fs C → Fs C × Option PyErr
  | [], fs => (fs, none)
  | (n, c) :: l, fs =>
    if pathSuffix n = ['.', 'p', 'd', 'f'] then
      match fs.get (pathStem n ++ pathSuffix n) with
      | some (.dir _) => (fs, some .os)
      | _ => tikzFiles d l ((fs.eraseIn d n).put (pathStem n ++ pathSuffix n) (.file c))
    else if pathSuffix n = ['.', 't', 's', 'v'] ∨ pathSuffix n = ['.', 't', 'e', 'x'] then
      tikzFiles d l (fs.eraseIn d n)
    else (fs, some .assertion)

/-- The loop over the earlier plots, `diagnostics/plot.py:19-36`; `rmdir` raises unless the
folder is empty. -/
def tikzDirs : List Name → Fs C → Fs C × Option PyErr
  | [], fs => (fs, none)
  | d :: ds, fs =>
    match fs.get d with
    | some (.dir l) =>
      match tikzFiles d l fs with
      | (fs', some x) => (fs', some x)
      | (fs', none) =>
        match fs'.get d with
        | some (.dir []) => tikzDirs ds (fs'.erase d)
        | _ => (fs', some .os)
    | _ => tikzDirs ds fs

/-- `delete_earlier_tikz_plot(folder, name)`, `diagnostics/plot.py:13-36`. -/
def deleteEarlierTikz (fs : Fs C) (name : Name) : Fs C × Option PyErr :=
  match findIndexInName name with
  | .error x => (fs, some x)
  | .ok none => (fs, none)
  | .ok (some cur) =>
    match findAllEarlier (fs.map (·.1)) name cur true true with
    | .error x => (fs, some x)
    | .ok earlier => tikzDirs earlier fs

/-- `output_plot("tikz", folder, name, keep_only_latest_tikz)`,
`diagnostics/plot.py:51-83`: `tex` are the files written by `tikzplotlib.save`, `pdf` the
contents of the PDF file.  An existing folder is used again, files of the same names are
replaced. -/
def outputTikz (fs : Fs C) (name : Name) (tex : List (Name × C)) (pdf : C) (keepOnlyLatest : Bool) :
    Fs C × Option PyErr :=
  let new := tex ++ [(name ++ ['.', 'p', 'd', 'f'], pdf)]
  match fs.get name with
  | some (.file _) => (fs, some .os)
  | some (.dir l) =>
    let fs' := fs.put name (.dir ((l.filter fun p => new.all fun q => q.1 != p.1) ++ new))
    if keepOnlyLatest then deleteEarlierTikz fs' name else (fs', none)
  | none =>
    let fs' := fs.put name (.dir new)
    if keepOnlyLatest then deleteEarlierTikz fs' name else (fs', none)

end
end Verif

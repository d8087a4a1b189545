import Verif.Model.Files
import Verif.Model.Xdmf

/-!
# The command `vtkpack` (C73, C74)

`vtkpack` (cfdtools/_cli.py:181-200), `vtkList` (cfdtools/vtk/_vtkList.py:24-36, 55-134) and `DataSetList.dumphdf`
(cfdtools/data.py:241-257) over a file system. What pyvista reads in a file, the centers of cells, distances, the search of the
k-d tree and the bytes of an HDF5 file are parameters.

Simplifications: every file is read by pyvista as an `UnstructuredGrid` or refused; the attributes with the versions are not
represented (C69); what a failing dump leaves in the new file is arbitrary (`junk`).
-/

namespace Cfd.VtkPack
open Cfd.Vtk Cfd.Xdmf

/-- What pyvista reads in a file: the grid, the arrays of the cells, `TimeValue` of the field data. -/
structure VtkFile (R V T : Type) where
  grid : Grid (R × R × R)
  data : Dict String (List V)
  time : Option T

/-- What is outside of the model: `pv.read` (from the name and the content), `cell_centers().points`, the distance, the search in
the k-d tree of a list of positions, the default tolerance `1e-10`, the bytes of an HDF5 file, what a failing dump leaves. -/
structure PackEnv (R V T K : Type) where
  read : Name → List UInt8 → Py (VtkFile R V T)
  centers : Grid (R × R × R) → List (R × R × R)
  dist : R × R × R → R × R × R → K
  nn : List (R × R × R) → R × R × R → Nat
  tol : K
  enc : H5 R (List V) T → List UInt8
  junk : List UInt8

section
variable {R V T K Loc : Type} [LinearOrder K] [Zero T] [DecidableEq T] [DecidableEq Loc]

/-- What the loop of `read` uses of a file (_vtkList.py:84-112). -/
def PackEnv.file (env : PackEnv R V T K) (f : VtkFile R V T) : File (R × R × R) V T := ⟨env.centers f.grid, f.data, f.time⟩

/-- `pv.read(name)`. -/
def PackEnv.load (env : PackEnv R V T K) (s : Fs Loc) (name : Name) : Py (VtkFile R V T) :=
  match s.content (s.resolve (PyPath.parse name).str) with
  | none => .error .os
  | some b => env.read name b

/-- `vtkList.read()` (_vtkList.py:55-113): the first grid and the series. The first file is read twice. -/
def readList (env : PackEnv R V T K) (s : Fs Loc) (names : List Name) :
    Py (Grid (R × R × R) × DataSetList (List V) T) :=
  match names with
  | [] => .error .assertion
  | n0 :: _ => do
      let f0 ← env.load s n0
      let ref := env.centers f0.grid
      let a ← DataAttrs.init .dataSetList "cellaverage" 1 "instant"
      let d ← names.foldlM (fun (d : DataSetList (List V) T) n => do
        let f ← env.load s n
        let l ← readFile env.dist (env.nn ref) env.tol ref [] (env.file f)
        return d.addDatalist l f.time) ⟨a, []⟩
      return (f0.grid, d)

/-- `vtkList.dumphdf(filename)` (_vtkList.py:119-134, data.py:241-257) without XDMF: the mesh is exported before the file is
created. `none`: the search of a free name is not finished. -/
def dumpSeries (env : PackEnv R V T K) (s : Fs Loc) (fuel : Nat) (filename : Name) (g : Grid (R × R × R))
    (d : DataSetList (List V) T) : Option (Fs Loc × Py Name) :=
  match exportMesh g with
  | .error e => some (s, .error e)
  | .ok m => match findSafe s.has fuel (PyPath.parse filename) with
    | none => none
    | some (_, p) => match dumpHdf m d with
      | .error e => some (s.write p env.junk, .error e)
      | .ok h => some (s.write p (env.enc h), .ok p.str)

/-- `vtkpack` (_cli.py:181-200): the command stops (`error_stop`) if a file is missing. -/
def vtkpack (env : PackEnv R V T K) (s : Fs Loc) (fuel : Nat) (names : List Name) : Option (Fs Loc × Py Name) :=
  if names.all fun n => s.has (PyPath.parse n) then
    match readList env s names with
    | .error e => some (s, .error e)
    | .ok (g, d) => dumpSeries env s fuel "dumped.h5".toList g d
  else some (s, .error .runtime)

end

end Cfd.VtkPack

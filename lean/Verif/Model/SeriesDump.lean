import Verif.Model.Files
import Verif.Model.Xdmf

/-!
# `vtkList.dumphdf` with its two files (C90)

`vtkList.dumphdf` and `vtkList._dumpxdmf` (cfdtools/vtk/_vtkList.py:119-155), `DataSetList.dumphdf` (cfdtools/data.py:241-257) over a
file system: the names of the files (Model/Files) and what is written in them (Model/Xdmf).

The bytes of an HDF5 file and of a text are parameters. Simplifications: the attributes with the versions are not represented (C69);
what a failing dump leaves in the new HDF5 file is arbitrary (`junk`); all texts can be encoded.
-/

namespace Cfd.SeriesDump
open Cfd.Vtk Cfd.Xdmf

/-- What is outside of the model: the shape of the arrays, the bytes of an HDF5 file, the bytes of a text, what a failing dump
leaves. -/
structure DumpEnv (R V T : Type) where
  shape : V → List Nat
  enc : H5 R V T → List UInt8
  text : String → List UInt8
  junk : List UInt8

variable {R V T Loc : Type} [DecidableEq Loc]

/-- The path of the HDF5 file (data.py:242-244). -/
def target (s : Fs Loc) (fuel : Nat) (filename : Name) (overwrite : Bool) : Option PyPath :=
  if overwrite then some (PyPath.parse filename) else (findSafe s.has fuel (PyPath.parse filename)).map (·.2)

/-- `_dumpxdmf` (_vtkList.py:136-155), then the end of `dumphdf` (_vtkList.py:134): the text is ready before the file is opened. -/
def dumpXmf (env : DumpEnv R V T) (s : Fs Loc) (filepath : Name) (g : Grid (R × R × R)) (d : DataSetList V T) :
    Fs Loc × Py Name :=
  match seriesXdmf env.shape g d (String.ofList filepath) with
  | .error e => (s, .error e)
  | .ok lines => (s.writeStr (xmfName filepath) (env.text (String.intercalate "\n" lines)), .ok filepath)

/-- `vtkList.dumphdf(filename, overwrite, xdmf)` (_vtkList.py:119-134): the mesh is exported before the file is created. `none`: the
search of a free name is not finished. -/
def dumpSeries (env : DumpEnv R V T) (s : Fs Loc) (fuel : Nat) (filename : Name) (overwrite xdmf : Bool)
    (g : Grid (R × R × R)) (d : DataSetList V T) : Option (Fs Loc × Py Name) :=
  match exportMesh g with
  | .error e => some (s, .error e)
  | .ok m => match target s fuel filename overwrite with
    | none => none
    | some p => match dumpHdf m d with
      | .error e => some (s.write p env.junk, .error e)
      | .ok h =>
        if xdmf then some (dumpXmf env (s.write p (env.enc h)) p.str g d)
        else some (s.write p (env.enc h), .ok p.str)

end Cfd.SeriesDump

import Verif.Model.Ic3Options

/-!
# The conversion commands with `--info` (C98)

`write_generic` (cfdtools/_cli.py:203-249) with its test of `--info` (_cli.py:244-245), between the transformations of the mesh and
the writer. What is printed is not an output of the model here (see `Model/Report`): only the exceptions of `printinfo` matter.
-/

namespace Cfd.InfoOption
open Cfd.Ic3 Cfd.Commands Cfd.Convert Cfd.VtkConvert Cfd.Ic3Options

section
variable {R Loc M : Type}

/-- `cfdmesh.printinfo()` (_mesh.py:371-393): coordinates of a Gmsh file are lists, where a missing point is `None`. -/
def describe : PyMesh R → Py Unit
  | .lists m => printinfo Option.isSome m
  | .arrays m => printinfo (fun _ => true) m

/-- `if parser.args().info: cfdmesh.printinfo()` (_cli.py:244-245). -/
def infoStep (print : M → Py Unit) (info : Bool) (m : M) : Py M :=
  if info then do
    print m
    return m
  else .ok m

/-- The commands for IC3 files on an IC3 file (_cli.py:203-269). -/
def fromIc3 [DecidableEq Loc] [Zero R] [One R] (env : Ic3Env R) (v : Ver) (info : Bool) (o : Ic3Options.Options R) (s : Fs Loc)
    (fuel : Nat) (filename : Name) (outpath : Option Name) : Option (Fs Loc × Py Name) :=
  writeGeneric ic3Input (removeStep o.remove)
    (fun f => do
      let f ← transformFull env o f
      infoStep (fun f => printinfo (fun _ => true) f.mesh) info f)
    (ic3Output cgnsElem2faces env.so env.host env.endian v env.conv) ".ic3".toList s fuel filename outpath

/-- The same on a Gmsh or CGNS file. -/
def fromMesh [DecidableEq Loc] [Add R] [Mul R] [Zero R] [One R] (reader : Fs Loc → Name → Py (PyMesh R)) (tbl : FaceTable)
    (env : Ic3Env R) (v : Ver) (info : Bool) (o : Ic3Options.Options R) (s : Fs Loc) (fuel : Nat) (filename : Name)
    (outpath : Option Name) : Option (Fs Loc × Py Name) :=
  writeGeneric reader .ok
    (fun i => do
      let i ← transform env.toVtkEnv o.toOptions i
      infoStep describe info i)
    (fun i => ic3Output tbl env.so env.host env.endian v env.conv (full env i)) ".ic3".toList s fuel filename outpath

/-- `cfdwrite_ic3v2`, `cfdwrite_ic3v3` (_cli.py:252-269) with `--info` or not and all the options of `cfdwriteIc3With`. -/
def cfdwriteIc3Info [DecidableEq Loc] [Add R] [Mul R] [Zero R] [One R] (env : Ic3Env R) (v : Ver) (fmt : Option String)
    (info : Bool) (o : Ic3Options.Options R) (s : Fs Loc) (fuel : Nat) (filename : Name) (outpath : Option Name) :
    Option (Fs Loc × Py Name) :=
  match select fmt filename with
  | .error e => some (s, .error e)
  | .ok (some .ic3Reader, _) => fromIc3 env v info o s fuel filename outpath
  | .ok (some .gmshReader, _) => fromMesh (gmshIn env.toVtkEnv) gmshElem2faces env v info o s fuel filename outpath
  | .ok (some .cgnsReader, _) => fromMesh (cgnsIn env.toVtkEnv) cgnsElem2faces env v info o s fuel filename outpath
  | .ok _ => some (s, .error .type)

/-- `write_generic` with the VTK writer and a given reader. -/
def toVtk [DecidableEq Loc] [Add R] [Mul R] [Zero R] [One R] (reader : Fs Loc → Name → Py (PyMesh R)) (env : VtkEnv R)
    (info : Bool) (o : VtkConvert.Options R) (s : Fs Loc) (fuel : Nat) (filename : Name) (outpath : Option Name) :
    Option (Fs Loc × Py Name) :=
  writeGeneric reader .ok
    (fun i => do
      let i ← transform env o i
      infoStep describe info i)
    (vtkOutput env) ".vtu".toList s fuel filename outpath

/-- `cfdwrite_vtk` (_cli.py:271-275) with `--info` or not and all the options of `cfdwriteVtk`. -/
def cfdwriteVtkInfo [DecidableEq Loc] [Add R] [Mul R] [Zero R] [One R] (env : VtkEnv R) (fmt : Option String) (info : Bool)
    (o : VtkConvert.Options R) (s : Fs Loc) (fuel : Nat) (filename : Name) (outpath : Option Name) :
    Option (Fs Loc × Py Name) :=
  match select fmt filename with
  | .error e => some (s, .error e)
  | .ok (some .ic3Reader, _) => toVtk (ic3In env) env info o s fuel filename outpath
  | .ok (some .gmshReader, _) => toVtk (gmshIn env) env info o s fuel filename outpath
  | .ok (some .cgnsReader, _) => toVtk (cgnsIn env) env info o s fuel filename outpath
  | .ok _ => some (s, .error .type)

end

end Cfd.InfoOption

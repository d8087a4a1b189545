import Verif.Model.Commands
import Verif.Model.Extrude
import Verif.Model.Vtk

/-!
# The command `cfdwrite_vtk` with `--extrude` and `--scale` (C71)

`write_generic` (cfdtools/_cli.py:203-249) with the VTK writer. Numbers have an arbitrary type `R` with arbitrary sum and
product: nothing is assumed of their rounding. What pyvista writes for a grid is a parameter (`enc`), as is `np.linspace`.
`--info` is not modelled here; `--remove-cell-data` has no effect on meshes read from Gmsh or CGNS files (they have no cell
data, _mesh.py:114, 326), and meshes read from IC3 files are refused whatever the options.
-/

namespace Cfd.VtkConvert
open Cfd.Ic3 Cfd.Commands

/-- A mesh between reader and writer: coordinates are Python lists, with `None` for a missing node, after the Gmsh reader
(gmsh/reader.py:163, 170), numpy arrays otherwise. -/
inductive PyMesh (R : Type) where
  | lists (m : Mesh (Option R))
  | arrays (m : Mesh R)

/-- `np.array(l)`, then a use as numbers: TypeError with a `None`. -/
def floats {R : Type} (l : List (Option R)) : Py (List R) := l.mapM fun q => match q with
  | some v => .ok v
  | none => .error .type

/-- The coordinates as arrays of numbers (`nodescoord(ndarray=True)`, _mesh.py:139-141). -/
def PyMesh.numbers {R : Type} : PyMesh R → Py (Mesh R)
  | .arrays m => .ok m
  | .lists m => match m.coords with
    | none => .error .key
    | some (x, y, z) => do
        let x ← floats x
        let y ← floats y
        let z ← floats z
        return ⟨m.ncell, m.nnode, m.nface, m.cell2node, m.faces, some (x, y, z), m.bocos⟩

/-- Options of the command (_cli.py:99-101): `extrude` is 0 if absent (0 has no effect either, _cli.py:235). -/
structure Options (R : Type) where
  extrude : Int
  scale : Option (R × R × R)

/-- What is outside of the model, besides `Env`: `np.linspace(0., 1., n)`, the bytes of a VTU file, the value of a double. -/
structure VtkEnv (R : Type) extends Env R where
  linspace : Nat → List R
  enc : Vtk.Grid (R × R × R) → Bytes
  value : F64 → R

section
variable {R Loc : Type}

/-- `--extrude nz` (_cli.py:235-240): `np.linspace` refuses a negative number of planes (ValueError). The default direction and
domain are those of _mesh.py:257-259. (A missing node is noticed here before the number of planes.) -/
def extrudeStep [Add R] [Mul R] [Zero R] [One R] (env : VtkEnv R) (n : Int) (i : PyMesh R) : Py (PyMesh R) :=
  if n = 0 then .ok i
  else if n + 1 < 0 then .error .value
  else do
    let m ← i.numbers
    let m ← m.exportExtruded env.so (0, 0, 1) (env.linspace (n + 1).toNat) "fluid"
    return .arrays m

/-- `--scale x y z` (_cli.py:241-242): argparse gives floats. -/
def scaleStep [Mul R] (s : Option (R × R × R)) (i : PyMesh R) : Py (PyMesh R) :=
  match s, i with
  | none, i => .ok i
  | some _, .lists m => do
      let m ← m.scaleLists (.float, .float, .float)
      return .lists m
  | some s, .arrays m => do
      let m ← m.scale s
      return .arrays m

/-- Both options. -/
def transform [Add R] [Mul R] [Zero R] [One R] (env : VtkEnv R) (o : Options R) (i : PyMesh R) : Py (PyMesh R) := do
  let i ← extrudeStep env o.extrude i
  scaleStep o.scale i

/-- `vtkMesh(mesh)` then `write_data(filename)` (vtk/_vtk.py:51-85). -/
def vtkOutput (env : VtkEnv R) (i : PyMesh R) : PyErr ⊕ (Bytes × Py Unit) :=
  match i.numbers >>= Vtk.setMesh with
  | .error e => .inl e
  | .ok g => .inr (env.enc g, .ok ())

/-- The mesh of a Gmsh file (as `gmshInput`). -/
def gmshIn (env : VtkEnv R) (s : Fs Loc) (name : Name) : Py (PyMesh R) :=
  match s.content (s.resolve name) with
  | none => .error .runtime
  | some b => do
      let m ← Gmsh.readFile env.num (env.text b)
      return .lists m

/-- The mesh of a CGNS file (as `cgnsInput`). -/
def cgnsIn (env : VtkEnv R) (s : Fs Loc) (name : Name) : Py (PyMesh R) :=
  match s.content (s.resolve name) with
  | none => .error .runtime
  | some b => do
      let root ← env.tree b
      let (dim, z) ← Cgns.readTree root none
      let n ← z.ncell
      if n = 0 then .error .zeroDiv
      else do
        let m ← z.exportMesh env.so dim
        return .arrays m

/-- The mesh of an IC3 file (as `ic3Input`). -/
def ic3In (env : VtkEnv R) (s : Fs Loc) (name : Name) : Py (PyMesh R) := do
  let f ← Convert.ic3Input s name
  let m := f.mesh
  return .arrays ⟨m.ncell, m.nnode, m.nface, m.cell2node, m.faces,
    m.coords.map fun q => (q.1.map env.value, q.2.1.map env.value, q.2.2.map env.value), m.bocos⟩

/-- `write_generic` with the VTK writer and a given reader. -/
def toVtk [DecidableEq Loc] [Add R] [Mul R] [Zero R] [One R] (reader : Fs Loc → Name → Py (PyMesh R)) (env : VtkEnv R)
    (o : Options R) (s : Fs Loc) (fuel : Nat) (filename : Name) (outpath : Option Name) : Option (Fs Loc × Py Name) :=
  writeGeneric reader .ok (transform env o) (vtkOutput env) ".vtu".toList s fuel filename outpath

/-- `cfdwrite_vtk` (_cli.py:271-275) with `--fmt`, `--outpath`, `--extrude`, `--scale`: without reader, `None(..)` raises
TypeError. -/
def cfdwriteVtk [DecidableEq Loc] [Add R] [Mul R] [Zero R] [One R] (env : VtkEnv R) (fmt : Option String) (o : Options R)
    (s : Fs Loc) (fuel : Nat) (filename : Name) (outpath : Option Name) : Option (Fs Loc × Py Name) :=
  match select fmt filename with
  | .error e => some (s, .error e)
  | .ok (some .ic3Reader, _) => toVtk (ic3In env) env o s fuel filename outpath
  | .ok (some .gmshReader, _) => toVtk (gmshIn env) env o s fuel filename outpath
  | .ok (some .cgnsReader, _) => toVtk (cgnsIn env) env o s fuel filename outpath
  | .ok _ => some (s, .error .type)

end

end Cfd.VtkConvert

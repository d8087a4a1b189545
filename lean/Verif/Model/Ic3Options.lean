import Verif.Model.Data
import Verif.Model.VtkConvert

/-!
# The commands `cfdwrite_ic3v2` and `cfdwrite_ic3v3` with `--remove-cell-data`, `--extrude` and `--scale` (C72)

`write_generic` (cfdtools/_cli.py:203-249) with the IC3 writers. Meshes of Gmsh and CGNS files have coordinates of an arbitrary
type `R` with arbitrary sum and product (as for `cfdwrite_vtk`); those of IC3 files are doubles, whose sum and product are
parameters. `--info` is not modelled.
-/

namespace Cfd.Ic3Options
open Cfd.Ic3 Cfd.Commands Cfd.Convert Cfd.VtkConvert

/-- Options of the commands (_cli.py:91-104): `remove` is empty and `extrude` is 0 if absent (an empty list and 0 have no effect
either, _cli.py:222, 235). -/
structure Options (R : Type) extends VtkConvert.Options R where
  remove : List String

/-- What is outside of the model, besides `VtkEnv`: sum and product of doubles. -/
structure Ic3Env (R : Type) extends VtkEnv R where
  add : F64 → F64 → F64
  mul : F64 → F64 → F64

section
variable {R Loc : Type}

/-- The mesh as the IC3 writers take it: coordinates as doubles (writerV2.py:97). -/
def full (env : Ic3Env R) : PyMesh R → FullMesh
  | .lists m => imported (stored env.storeGmsh m)
  | .arrays m => imported (stored env.store m)

/-- `--remove-cell-data` (_cli.py:222-227) on the mesh of an IC3 file, whose cell data is always set (reader_legacy.py:128, 155):
the loop of `pop_celldata`. Meshes of Gmsh and CGNS files have no cell data (_mesh.py:114, 326): no effect. -/
def removeStep (names : List String) (f : FullMesh) : Py FullMesh := do
  let d ← MeshData.removeCellData ⟨f.cells.attrs.map fun _ => f.cells.data, .dataset f.nodes⟩ names
  return { f with cells := { f.cells with data := d.celldata.getD f.cells.data } }

/-- `--extrude` (_cli.py:235-240) on the mesh of an IC3 file: the new mesh has no data (_mesh.py:266). -/
def extrudeFull [Zero R] [One R] (env : Ic3Env R) (n : Int) (f : FullMesh) : Py FullMesh :=
  if n = 0 then .ok f
  else if n + 1 < 0 then .error .value
  else do
    let m ← @Mesh.exportExtruded F64 ⟨env.add⟩ ⟨env.mul⟩ env.so f.mesh (env.store 0, env.store 0, env.store 1)
      ((env.linspace (n + 1).toNat).map env.store) "fluid"
    return imported m

/-- `--scale` (_cli.py:241-242) on the mesh of an IC3 file. -/
def scaleFull (env : Ic3Env R) (sc : Option (R × R × R)) (f : FullMesh) : Py FullMesh :=
  match sc with
  | none => .ok f
  | some q => do
      let m ← @Mesh.scale F64 ⟨env.mul⟩ f.mesh (env.store q.1, env.store q.2.1, env.store q.2.2)
      return { f with mesh := m }

/-- Both options. -/
def transformFull [Zero R] [One R] (env : Ic3Env R) (o : Options R) (f : FullMesh) : Py FullMesh := do
  let f ← extrudeFull env o.extrude f
  scaleFull env o.scale f

/-- The commands on an IC3 file. -/
def fromIc3 [DecidableEq Loc] [Zero R] [One R] (env : Ic3Env R) (v : Ver) (o : Options R) (s : Fs Loc) (fuel : Nat)
    (filename : Name) (outpath : Option Name) : Option (Fs Loc × Py Name) :=
  writeGeneric ic3Input (removeStep o.remove) (transformFull env o)
    (ic3Output cgnsElem2faces env.so env.host env.endian v env.conv) ".ic3".toList s fuel filename outpath

/-- The commands on a Gmsh or CGNS file; the Gmsh reader has set the table of faces (gmsh/reader.py:42). -/
def fromMesh [DecidableEq Loc] [Add R] [Mul R] [Zero R] [One R] (reader : Fs Loc → Name → Py (PyMesh R)) (tbl : FaceTable)
    (env : Ic3Env R) (v : Ver) (o : Options R) (s : Fs Loc) (fuel : Nat) (filename : Name) (outpath : Option Name) :
    Option (Fs Loc × Py Name) :=
  writeGeneric reader .ok (transform env.toVtkEnv o.toOptions)
    (fun i => ic3Output tbl env.so env.host env.endian v env.conv (full env i)) ".ic3".toList s fuel filename outpath

/-- `cfdwrite_ic3v2`, `cfdwrite_ic3v3` (_cli.py:252-269) with `--fmt`, `--outpath`, `--remove-cell-data`, `--extrude`, `--scale`:
without reader, `None(..)` raises TypeError. -/
def cfdwriteIc3With [DecidableEq Loc] [Add R] [Mul R] [Zero R] [One R] (env : Ic3Env R) (v : Ver) (fmt : Option String)
    (o : Options R) (s : Fs Loc) (fuel : Nat) (filename : Name) (outpath : Option Name) : Option (Fs Loc × Py Name) :=
  match select fmt filename with
  | .error e => some (s, .error e)
  | .ok (some .ic3Reader, _) => fromIc3 env v o s fuel filename outpath
  | .ok (some .gmshReader, _) => fromMesh (gmshIn env.toVtkEnv) gmshElem2faces env v o s fuel filename outpath
  | .ok (some .cgnsReader, _) => fromMesh (cgnsIn env.toVtkEnv) cgnsElem2faces env v o s fuel filename outpath
  | .ok _ => some (s, .error .type)

end

end Cfd.Ic3Options

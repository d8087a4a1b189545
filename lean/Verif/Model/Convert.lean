import Verif.Model.Files
import Verif.Model.CgnsTree
import Verif.Model.Gmsh
import Verif.Model.Ic3Reader

/-!
# The command `cfdwrite_ic3` on Gmsh files (C64), CGNS files (C66) and IC3 files (C67)

`write_generic` (cfdtools/_cli.py:203-249) with the Gmsh reader and an IC3 writer, without the options that change the
mesh. The lines of the file are given by `text` (decoding of the bytes is not modelled), the double of a coordinate by
`store` (`None` for a node without coordinates).
-/

namespace Cfd.Convert
open Cfd.Ic3

/-- A mesh just imported: no data, no parameter (`Mesh.__init__`, _mesh.py:105-118). -/
def imported (m : Mesh F64) : FullMesh := ⟨m, ⟨none, []⟩, [], [], none⟩

/-- Coordinates as doubles, when the arrays of the writer are built (writerV2.py:97). -/
def stored {R : Type} (store : R → F64) (m : Mesh R) : Mesh F64 :=
  ⟨m.ncell, m.nnode, m.nface, m.cell2node, m.faces,
    m.coords.map fun q => (q.1.map store, q.2.1.map store, q.2.2.map store), m.bocos⟩

/-- `writer(mesh)` then `write_data(filename)` (_cli.py:246-247) for the IC3 writers: the exception of the construction,
or the bytes left in the file and the outcome. -/
def ic3Output (tbl : FaceTable) (so : List Int → List Int) (host : Order) (e : Endian) (v : Ver) (cv : Conv)
    (f : FullMesh) : PyErr ⊕ (Bytes × Py Unit) :=
  match writeIc3 tbl so host e v cv f with
  | (none, .error er) => .inl er
  | (some b, r) => .inr (b, r)
  -- does not happen
  | (none, .ok _) => .inl .runtime

/-- The mesh of a Gmsh file, ready for a writer: `reader(filename)`, `read_data()`, `export_mesh()` (_cli.py:214-220).
(`timer.stop(nelem=ncell)`, _cli.py:217, never divides by zero here: the cells are the elements of the largest dimension
found, gmsh/reader.py:52, 74-77.) -/
def gmshInput {R Loc : Type} (num : Gmsh.PyNum R) (store : Option R → F64) (text : Bytes → List String) (s : Fs Loc)
    (name : Name) : Py FullMesh :=
  match s.content (s.resolve name) with
  -- `error_stop("File not found")` (gmsh/reader.py:38-39)
  | none => .error .runtime
  | some b => do
      let m ← Gmsh.readFile num (text b)
      return imported (stored store m)

/-- `cfdwrite_ic3v2 filename`, `cfdwrite_ic3v3 filename` (_cli.py:252-269), with or without `--outpath`, on a Gmsh file.
Reading a Gmsh file selects its table of faces (gmsh/reader.py:42). -/
def gmshToIc3 {R Loc : Type} [DecidableEq Loc] (num : Gmsh.PyNum R) (store : Option R → F64) (text : Bytes → List String)
    (so : List Int → List Int) (host : Order) (e : Endian) (v : Ver) (cv : Conv) (s : Fs Loc) (fuel : Nat)
    (filename : Name) (outpath : Option Name) : Option (Fs Loc × Py Name) :=
  writeGeneric (gmshInput num store text) .ok .ok (ic3Output gmshElem2faces so host e v cv) ".ic3".toList s fuel filename
    outpath

/-- `--scale x y z` (_cli.py:101, 242-243) on a mesh imported from Gmsh: argparse gives floats, coordinates are lists. -/
def scaleOption (f : FullMesh) : Py FullMesh := do
  let m ← f.mesh.scaleLists (.float, .float, .float)
  return { f with mesh := m }

/-- The same commands with `--scale` (without `--extrude`). -/
def gmshToIc3Scaled {R Loc : Type} [DecidableEq Loc] (num : Gmsh.PyNum R) (store : Option R → F64)
    (text : Bytes → List String) (so : List Int → List Int) (host : Order) (e : Endian) (v : Ver) (cv : Conv) (s : Fs Loc)
    (fuel : Nat) (filename : Name) (outpath : Option Name) : Option (Fs Loc × Py Name) :=
  writeGeneric (gmshInput num store text) .ok scaleOption (ic3Output gmshElem2faces so host e v cv) ".ic3".toList s fuel
    filename outpath

/-- The mesh of a CGNS file, ready for a writer: `reader(filename)`, `read_data()`, `timer.stop(nelem=ncell)` which divides
by the number of cells (api.py:158), `export_mesh()` (_cli.py:214-220, cgns/cgns.py:157-211). `tree` gives the
objects of the HDF5 file. -/
def cgnsInput {R Loc : Type} (tree : Bytes → Py (Cgns.Tree R)) (store : R → F64) (so : List Int → List Int)
    (s : Fs Loc) (name : Name) : Py FullMesh :=
  match s.content (s.resolve name) with
  -- `error_stop("File not found")` (cgns/cgns.py:161-162)
  | none => .error .runtime
  | some b => do
      let root ← tree b
      let (dim, z) ← Cgns.readTree root none
      let n ← z.ncell
      if n = 0 then .error .zeroDiv
      else do
        let m ← z.exportMesh so dim
        return imported (stored store m)

/-- `cfdwrite_ic3v2 filename`, `cfdwrite_ic3v3 filename` (_cli.py:252-269), with or without `--outpath`, on a CGNS file.
The table of faces is the default one (_elements.py:228). -/
def cgnsToIc3 {R Loc : Type} [DecidableEq Loc] (tree : Bytes → Py (Cgns.Tree R)) (store : R → F64)
    (so : List Int → List Int) (host : Order) (e : Endian) (v : Ver) (cv : Conv) (s : Fs Loc) (fuel : Nat)
    (filename : Name) (outpath : Option Name) : Option (Fs Loc × Py Name) :=
  writeGeneric (cgnsInput tree store so) .ok .ok (ic3Output cgnsElem2faces so host e v cv) ".ic3".toList s fuel filename
    outpath

/-- The mesh of an IC3 file, ready for a writer: `reader(filename)`, `read_data()`, `timer.stop(nelem=ncell)` which divides
by the number of cells (api.py:158), `export_mesh()` (_cli.py:214-220, ic3/reader_legacy.py:101-162). -/
def ic3Input {Loc : Type} (s : Fs Loc) (name : Name) : Py FullMesh :=
  match s.content (s.resolve name) with
  -- `error_stop("Fatal error. File .. cannot be found.")` (ic3/reader_legacy.py:111-112)
  | none => .error .runtime
  | some b => do
      let r ← readData false b
      if r.mesh.cv = 0 then .error .zeroDiv
      else exportMesh r

/-- `cfdwrite_ic3v2 filename`, `cfdwrite_ic3v3 filename` (_cli.py:252-269), with or without `--outpath`, on an IC3 file. -/
def ic3ToIc3 {Loc : Type} [DecidableEq Loc] (so : List Int → List Int) (host : Order) (e : Endian) (v : Ver) (cv : Conv)
    (s : Fs Loc) (fuel : Nat) (filename : Name) (outpath : Option Name) : Option (Fs Loc × Py Name) :=
  writeGeneric ic3Input .ok .ok (ic3Output cgnsElem2faces so host e v cv) ".ic3".toList s fuel filename outpath

end Cfd.Convert

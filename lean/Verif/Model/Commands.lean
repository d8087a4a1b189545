import Verif.Model.Api
import Verif.Model.Convert
import Verif.Model.Cube

/-!
# The commands as a whole: choice of the format, reader, writer (C70)

cfdtools/_cli.py: `cfdwrite_ic3v2`, `cfdwrite_ic3v3`, `cfdwritecube`, `cfdinfo`, with the registrations made when the module
is imported. The options are given as values (argparse itself is not modelled, except the choices of `--fmt`).
-/

namespace Cfd.Commands
open Cfd.Ic3 Cfd.Convert

/-- The classes registered. -/
inductive Cls where
  | ic3Reader
  | ic3WriterV2
  | ic3WriterV3
  | gmshReader
  | cgnsReader
  | vtkWriter
  deriving DecidableEq, Repr

/-- The registrations made by the imports of _cli.py:11-15, in this order (ic3/__init__.py:1-4, reader_legacy.py:55,
writerV2.py:22, writerV3.py:21, gmsh/reader.py:19, cgns/cgns.py:147, vtk/_vtk.py:45). -/
def registrations : List (Registration Cls) :=
  [⟨true, "IC3", ".ic3".toList, .ic3Reader⟩, ⟨false, "IC3", ".ic3".toList, .ic3WriterV2⟩,
   ⟨false, "IC3", ".ic3".toList, .ic3WriterV3⟩, ⟨true, "GMSH", ".msh".toList, .gmshReader⟩,
   ⟨true, "CGNS", ".cgns".toList, .cgnsReader⟩, ⟨false, "VTK", ".vtu".toList, .vtkWriter⟩]

/-- `_fileformat_map` (api.py:9) once _cli.py is imported. -/
def formats : Registry Cls := registrations.foldl register []

/-- `parse_cli_args` and `parse_filenameformat` (_cli.py:105-128): reader and writer, for the value of `--fmt` if any. -/
def select (fmt : Option String) (filename : Name) : Py (Option Cls × Option Cls) := do
  let f ← fmtOption formats fmt none
  let (_, r, w) ← parseFormat formats f filename
  return (r, w)

/-- What is outside of the model: numbers of Gmsh files, trees of HDF5 files, order of sets, byte order of the machine. -/
structure Env (R : Type) where
  num : Gmsh.PyNum R
  storeGmsh : Option R → F64
  text : Bytes → List String
  tree : Bytes → Py (Cgns.Tree R)
  store : R → F64
  so : List Int → List Int
  host : Order
  endian : Endian
  conv : Conv

section
variable {R Loc : Type} [DecidableEq Loc]

/-- `cfdwrite_ic3v2`, `cfdwrite_ic3v3` (_cli.py:203-269) with `--fmt` and `--outpath`: without reader, `None(..)` raises
TypeError. Only readers are registered as readers. -/
def cfdwriteIc3 (env : Env R) (v : Ver) (fmt : Option String) (s : Fs Loc) (fuel : Nat) (filename : Name)
    (outpath : Option Name) : Option (Fs Loc × Py Name) :=
  match select fmt filename with
  | .error e => some (s, .error e)
  | .ok (some .ic3Reader, _) => ic3ToIc3 env.so env.host env.endian v env.conv s fuel filename outpath
  | .ok (some .gmshReader, _) =>
      gmshToIc3 env.num env.storeGmsh env.text env.so env.host env.endian v env.conv s fuel filename outpath
  | .ok (some .cgnsReader, _) =>
      cgnsToIc3 env.tree env.store env.so env.host env.endian v env.conv s fuel filename outpath
  | .ok _ => some (s, .error .type)

/-- `cfdwritecube` (_cli.py:277-323): `--nx`, `--ny`, `--nz` may be any integers; `range` of a negative number is empty. Without
writer, `None(..)` raises TypeError. `vtk` is the writer of VTK files. -/
def cfdwritecube [Div R] [NatCast R] (env : Env R) (vtk : FullMesh → PyErr ⊕ (Bytes × Py Unit)) (fmt : Option String)
    (nx ny nz : Int) (s : Fs Loc) (filename : Name) : Fs Loc × Py Name :=
  match select fmt filename with
  | .error e => (s, .error e)
  | .ok (_, w) => match ((Cube.mk nx.toNat ny.toNat nz.toNat).exportMesh : Py (Mesh R)) with
    | .error e => (s, .error e)
    | .ok m => match w with
      | some .ic3WriterV2 => writeCube (ic3Output cgnsElem2faces env.so env.host env.endian .v2 env.conv) s filename
          (imported (stored env.store m))
      | some .ic3WriterV3 => writeCube (ic3Output cgnsElem2faces env.so env.host env.endian .v3 env.conv) s filename
          (imported (stored env.store m))
      | some .vtkWriter => writeCube vtk s filename (imported (stored env.store m))
      | _ => (s, .error .type)

end

/-! ## `cfdinfo` -/

/-- `str(index)` (_connectivity.py:104-109): `min` of an empty array raises ValueError, an unset index returns `None`. -/
def showIndex : IndexList → Py Unit
  | .unset => .error .type
  | .list [] => .error .value
  | _ => .ok ()

/-- `elem_connectivity.print` (_connectivity.py:226-233), not detailed. -/
def showConn (c : ElemConn) : Py Unit := c.tbl.forM fun p => showIndex p.2.index

/-- `"{:.3f}".format(*minavgmax(l))` (_mesh.py:373-376, utils/maths.py:4-5): ValueError without values, TypeError with a
`None`. -/
def showRange {R : Type} (number : R → Bool) (l : List R) : Py Unit :=
  if l.isEmpty then .error .value else if l.all number then .ok () else .error .type

/-- The lines on the cells (_mesh.py:379-382). -/
def showCells : Option ElemConn → Py Unit
  | some c => showConn c
  | none => .ok ()

/-- `Mesh.printinfo()` (_mesh.py:371-393): only its exceptions are modelled. -/
def printinfo {R : Type} (number : R → Bool) (m : Mesh R) : Py Unit :=
  match m.coords with
  | none => .error .key
  | some (x, y, z) => do
      showRange number x
      showRange number y
      showRange number z
      showCells m.cell2node
      m.faces.forM fun p => showConn p.2.f2n
      m.bocos.forM fun p => showIndex p.2.index

/-- `cfdinfo` (_cli.py:131-147): `check` is the option `--check`, given to the reader as `cIntegrity`, an argument that the
CGNS reader does not have (cgns/cgns.py:149). -/
def cfdinfo {R Loc : Type} (env : Env R) (fmt : Option String) (check : Bool) (s : Fs Loc) (filename : Name) : Py Unit :=
  match select fmt filename with
  | .error e => .error e
  | .ok (some .ic3Reader, _) => match s.content (s.resolve (PyPath.parse filename).str) with
    | none => .error .runtime
    | some b => do
        let f ← readIc3 check b
        printinfo (fun _ => true) f.mesh
  | .ok (some .gmshReader, _) => match s.content (s.resolve (PyPath.parse filename).str) with
    | none => .error .runtime
    | some b => do
        let m ← Gmsh.readFile env.num (env.text b)
        printinfo Option.isSome m
  | .ok _ => .error .type

end Cfd.Commands

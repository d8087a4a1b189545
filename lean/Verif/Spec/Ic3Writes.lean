import Verif.Spec.Ic3Cells
import Verif.Spec.Cube

/-!
Specification of the meshes that the IC3 format can hold: numbers on 32 bits, zones of known types, data of
the right sizes.
-/

namespace Cfd.Spec.Ic3
open Cfd.Ic3

/-- Below 2³¹. -/
def Small (n : Nat) : Prop := n < 2 ^ 31

instance (n : Nat) : Decidable (Small n) := inferInstanceAs (Decidable (_ < _))

/-- The scalars of an array can be stored: V3 stores doubles and 64-bit integers only. -/
def ScalarFits (v : Ver) (a : NpArr) : Prop :=
  v = .v3 → a.shape.length = 1 → match a.data with
    | .f64 _ => True
    | .i64 l => ∀ n ∈ l, FitsInt 8 n
    | .other _ => False

/-- The value of an integer parameter can be stored, as it is or converted to an integer. -/
def StepFits (cv : Conv) : SimVal → Prop
  | .int n => FitsInt 8 n
  | .f64 x => ∃ n, cv.toInt x = .ok n ∧ FitsInt 8 n
  | .wgts _ => False

/-- The data and parameters of a mesh can be stored, with `nnode` nodes and `ncell` cells. -/
structure DataFits (v : Ver) (cv : Conv) (f : FullMesh) (ncell : Nat) : Prop where
  part : f.partition = none ∨ ∃ p, f.partition = some (some p) ∧ FitsInt 8 (p.npart.getD 1) ∧
    (p.icvpart = .missing ∨ ∃ l, p.icvpart = .arr l ∧ l.length = ncell ∧ ∀ n ∈ l, FitsInt 4 n)
  step : ∀ s, f.params.get? "step" = some s → StepFits cv s
  dt : ∀ s, f.params.get? "dt" = some s → ∀ d, s ≠ .wgts d
  time : ∀ s, f.params.get? "time" = some s → ∀ d, s ≠ .wgts d
  wgt : ∀ s, f.params.get? "wgt" = some s → ∃ d, s = .wgts d
  nodes : ∀ p ∈ f.nodes, ScalarFits v p.2
  cells : ∀ p ∈ f.cells.data, ScalarFits v p.2
  attrs : v = .v3 → f.cells.data ≠ [] → ∃ a, f.cells.attrs = some a ∧ 0 ≤ a.ndof ∧ a.ndof < 2 ^ 20

/-- The faces `l` and the marks of a completed mesh can be stored. -/
structure MeshFits (m : Mesh F64) (l : List Face) : Prop where
  counts : Small m.nnode ∧ Small m.ncell ∧ Small m.nface
  count : m.nface = l.length
  coords : ∃ x y z, m.coords = some (x, y, z)
  numbers : ∀ x ∈ l, (∀ n ∈ x.1, FitsInt 4 n) ∧ FitsInt 4 x.2.1 ∧ FitsInt 4 x.2.2
  marks : ∀ p ∈ m.bocos, p.2.type ≠ "internal" → p.2.name = p.1 ∧ p.2.onFaces = true ∧
    p.2.type ∈ zoneTypes ∧ (p.2.perio.getD []).length ≤ 16 ∧
    ∀ a b, p.2.index = .range a b → FitsInt 8 b

/-- Number of faces of a mesh of cells: of different sets of nodes. -/
def faceCount (tbl : FaceTable) (c : ElemConn) : Nat :=
  ((facesOfCells tbl c).map fun o => sortInts o.1).dedup.length

/-- The face `o` of a cell is on the boundary, in the mark `b`: no other cell has it, all its nodes are in
the mark. -/
def OnMark (tbl : FaceTable) (c : ElemConn) (b : Mark) (o : List Int × Int) : Prop :=
  o ∈ facesOfCells tbl c ∧ (facesOn tbl c o.1).length = 1 ∧ ∀ n ∈ o.1, n ∈ markItems b

/-- What a mesh of cells and node marks must satisfy to be written: no empty
type of cells; no face shared by three cells; for each
number of nodes per face, a face shared by two cells and a face that is not; a face in each mark and no face
in two marks; zones of known types; numbers on 32 bits. -/
structure CellsFit (tbl : FaceTable) (m : Mesh F64) (c : ElemConn) : Prop where
  types : ∀ t ∈ c.tbl.keys, elementsOf c t ≠ []
  conforming : Conforming tbl c
  width : ∀ o ∈ facesOfCells tbl c, 1 ≤ o.1.length ∧ o.1.length ≤ 4
  outer : ∀ o ∈ facesOfCells tbl c, ∃ o' ∈ facesOfCells tbl c, o'.1.length = o.1.length ∧
    (facesOn tbl c o'.1).length = 1
  inner : ∀ o ∈ facesOfCells tbl c, ∃ o' ∈ facesOfCells tbl c, o'.1.length = o.1.length ∧
    (facesOn tbl c o'.1).length = 2
  markSome : ∀ p ∈ m.bocos, ∃ o, OnMark tbl c p.2 o
  markApart : ∀ p ∈ m.bocos, ∀ q ∈ m.bocos, p.1 ≠ q.1 → ∀ o, ¬ (OnMark tbl c p.2 o ∧ OnMark tbl c q.2 o)
  markKnown : ∀ p ∈ m.bocos, p.2.name = p.1 ∧ p.2.type ∈ zoneTypes ∧ (p.2.perio.getD []).length ≤ 16
  counts : Small m.nnode ∧ Small m.ncell ∧ Small (faceCount tbl c)
  numbers : ∀ x ∈ elements c, ∀ n ∈ x.2.2, FitsInt 4 n
  coords : ∃ x y z, m.coords = some (x, y, z)

/-! ### Structured cubes -/

/-- Number of faces of a cube. -/
def cubeFaces (c : Cube) : Nat :=
  (c.nx + 1) * c.ny * c.nz + c.nx * (c.ny + 1) * c.nz + c.nx * c.ny * (c.nz + 1)

/-- A mesh with its coordinates stored as doubles. -/
def storedMesh {R : Type} (bits : R → F64) (m : Mesh R) : Mesh F64 :=
  ⟨m.ncell, m.nnode, m.nface, m.cell2node, m.faces,
    m.coords.map fun q => (q.1.map bits, q.2.1.map bits, q.2.2.map bits), m.bocos⟩

/-- The mesh `g` read is the cube `c`, with boundary faces `lb`, internal faces `li` and coordinates `xyz`. -/
structure CubeRead (c : Cube) (xyz : Option (List F64 × List F64 × List F64)) (lb li : List Face)
    (g : Mesh F64) : Prop where
  ncell : g.ncell = c.nx * c.ny * c.nz
  nnode : g.nnode = (c.nx + 1) * (c.ny + 1) * (c.nz + 1)
  coords : g.coords = xyz
  faces : MeshFaces g (lb ++ li)
  count : (lb ++ li).length = cubeFaces c
  /-- a boundary face is the side of a cell of the grid, on a side of the cube -/
  outer : ∀ f ∈ lb, ∃ ax p cell, InGrid (c.nx, c.ny, c.nz) cell ∧ IsGridFace c f.1 ax p ∧
    (ax.coord p = 0 ∧ cell = p ∨ ax.coord p = cellsAlong c ax ∧ ax.next cell = p) ∧
    f.2 = ((c.elemIndex cell : Int), -1)
  /-- an internal face is between two cells of the grid -/
  inner : ∀ f ∈ li, ∃ ax p, InGrid (c.nx, c.ny, c.nz) p ∧ InGrid (c.nx, c.ny, c.nz) (ax.next p) ∧
    IsGridFace c f.1 ax (ax.next p) ∧
    (f.2 = ((c.elemIndex p : Int), (c.elemIndex (ax.next p) : Int)) ∨
     f.2 = ((c.elemIndex (ax.next p) : Int), (c.elemIndex p : Int)))
  /-- the zones are the six sides of the cube, and the internal faces -/
  sides : ∀ q ∈ cubeSides c, ∃ b, g.bocos.get? q.1 = some b ∧ b.geodim = .bdface ∧ b.type = "boundary" ∧
    ∀ i : Int, i ∈ markItems b ↔ 0 ≤ i ∧ ∃ f p, lb[i.toNat]? = some f ∧ IsGridFace c f.1 q.2.1 p ∧
      q.2.1.coord p = q.2.2
  others : ∀ name ∈ g.bocos.keys, name ∈ (cubeSides c).map (·.1) ∨ name = "internal-domain"
  tiles : (marked g).Perm (pyRange 0 (cubeFaces c))

end Cfd.Spec.Ic3

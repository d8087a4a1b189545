import Verif.Model.Mesh

/-!
# Model of `Cube` (cfdtools/meshbase/simple.py:9-86)

Simplification: coordinates are exact quotients `i / nx` in a type `R` (no rounding).
-/

namespace Cfd

/-- `Cube(nx, ny, nz)` (simple.py:10-15). -/
structure Cube where
  nx : Nat
  ny : Nat
  nz : Nat
  deriving DecidableEq, Repr

namespace Cube

/-- `ncell` (simple.py:14). -/
def ncell (c : Cube) : Nat := c.nx * c.ny * c.nz

/-- `nnode` (simple.py:15). -/
def nnode (c : Cube) : Nat := (c.nx + 1) * (c.ny + 1) * (c.nz + 1)

/-- `itertools.product` of three sequences. -/
def product (a b c : List Nat) : List (Nat × Nat × Nat) :=
  a.flatMap fun i => b.flatMap fun j => c.map fun k => (i, j, k)

/-- `elem_ijk` (simple.py:17-18). -/
def elemIjk (c : Cube) : List (Nat × Nat × Nat) :=
  product (List.range c.nx) (List.range c.ny) (List.range c.nz)

/-- `nodes_ijk` (simple.py:20-21). -/
def nodesIjk (c : Cube) : List (Nat × Nat × Nat) :=
  product (List.range (c.nx + 1)) (List.range (c.ny + 1)) (List.range (c.nz + 1))

/-- `nodeglobindex_ijk` (simple.py:26-28). -/
def nodeIndex (c : Cube) (p : Nat × Nat × Nat) : Nat :=
  p.2.2 + (c.nz + 1) * (p.2.1 + (c.ny + 1) * p.1)

/-- `elemglobindex_ijk` (simple.py:30-32). -/
def elemIndex (c : Cube) (p : Nat × Nat × Nat) : Nat := p.2.2 + c.nz * (p.2.1 + c.ny * p.1)

/-- One row of `hexa2node` (simple.py:42-49). -/
def hexaNodes (c : Cube) (p : Nat × Nat × Nat) : List Int :=
  let (i, j, k) := p
  [(c.nodeIndex (i, j, k) : Int), c.nodeIndex (i + 1, j, k), c.nodeIndex (i + 1, j + 1, k),
   c.nodeIndex (i, j + 1, k), c.nodeIndex (i, j, k + 1), c.nodeIndex (i + 1, j, k + 1),
   c.nodeIndex (i + 1, j + 1, k + 1), c.nodeIndex (i, j + 1, k + 1)]

/-- `_elems` (simple.py:34-56): unpacking `zip(*[])` raises ValueError when there is no cell. -/
def elems (c : Cube) : Py (List (List Int) × List Int) :=
  if c.elemIjk = [] then .error .value
  else .ok (c.elemIjk.map c.hexaNodes, c.elemIjk.map fun p => (c.elemIndex p : Int))

/-- The table `tasks` (simple.py:70-77). -/
def marks (c : Cube) : List (String × List (Nat × Nat × Nat)) :=
  let ri := List.range (c.nx + 1)
  let rj := List.range (c.ny + 1)
  let rk := List.range (c.nz + 1)
  [("imin", product [0] rj rk), ("imax", product [c.nx] rj rk),
   ("jmin", product ri [0] rk), ("jmax", product ri [c.ny] rk),
   ("kmin", product ri rj [0]), ("kmax", product ri rj [c.nz])]

/-- `export_mesh` (simple.py:58-86). -/
def exportMesh {R : Type} [Div R] [NatCast R] (c : Cube) : Py (Mesh R) := do
  let (hexa, ielem) ← c.elems
  let conn ← ElemConn.empty.addElems "hexa8" ⟨some 8, hexa⟩ (some (.list ielem))
  let m := (Mesh.new c.ncell c.nnode : Mesh R).setCell2node conn
  let m ← m.setCoords (c.nodesIjk.map fun p => (p.1 : R) / (c.nx : R))
    (c.nodesIjk.map fun p => (p.2.1 : R) / (c.ny : R))
    (c.nodesIjk.map fun p => (p.2.2 : R) / (c.nz : R))
  return c.marks.foldl (fun m q => m.addBoco
    ⟨q.1, .bdnode, "boundary", .list (q.2.map fun p => (c.nodeIndex p : Int)), none⟩) m

end Cube
end Cfd

import Verif.Model.Cube
import Verif.Spec.Mesh
import Verif.Spec.Extrude
import Verif.Spec.Elements

/-! Specification of a structured grid. -/

namespace Cfd.Spec

/-- A point of the integer grid, or the lowest corner of a grid cell. -/
abbrev Ijk := Nat × Nat × Nat

/-- `p` is below `d` in each direction: a cell of a grid of `d` cells. -/
def InGrid (d p : Ijk) : Prop := p.1 < d.1 ∧ p.2.1 < d.2.1 ∧ p.2.2 < d.2.2

instance (d p : Ijk) : Decidable (InGrid d p) := by unfold InGrid; infer_instance

/-- Grid directions. -/
inductive Axis where
  | x | y | z
  deriving DecidableEq, Repr

/-- The next point in a direction. -/
def Axis.next : Axis → Ijk → Ijk
  | .x, p => (p.1 + 1, p.2.1, p.2.2)
  | .y, p => (p.1, p.2.1 + 1, p.2.2)
  | .z, p => (p.1, p.2.1, p.2.2 + 1)

/-- A coordinate of a point. -/
def Axis.coord : Axis → Ijk → Nat
  | .x, p => p.1
  | .y, p => p.2.1
  | .z, p => p.2.2

/-- The four corners of the grid face orthogonal to a direction, from its lowest corner. -/
def gridFace : Axis → Ijk → List Ijk
  | .x, p => [p, Axis.y.next p, Axis.y.next (Axis.z.next p), Axis.z.next p]
  | .y, p => [p, Axis.z.next p, Axis.z.next (Axis.x.next p), Axis.x.next p]
  | .z, p => [p, Axis.x.next p, Axis.x.next (Axis.y.next p), Axis.y.next p]

/-- The corners of a grid cell, in the order of the reference hexahedron (whose edges have length 2). -/
def cellCorners (p : Ijk) : List Ijk :=
  (refNodes "hexa8").map fun (r : Vec Int) =>
    (p.1 + (r.1 / 2).toNat, p.2.1 + (r.2.1 / 2).toNat, p.2.2 + (r.2.2 / 2).toNat)

/-- Number of cells in a direction. -/
def cellsAlong (c : Cube) : Axis → Nat
  | .x => c.nx
  | .y => c.ny
  | .z => c.nz

/-- The six sides of the cube: name of the mark, direction and position. -/
def cubeSides (c : Cube) : List (String × Axis × Nat) :=
  [("imin", .x, 0), ("imax", .x, c.nx), ("jmin", .y, 0), ("jmax", .y, c.ny), ("kmin", .z, 0), ("kmax", .z, c.nz)]

/-- The nodes `n` are the corners (nodes of the grid) of the grid face orthogonal to `ax` with lowest corner `p`. -/
def IsGridFace (c : Cube) (n : List Int) (ax : Axis) (p : Ijk) : Prop :=
  (∀ q ∈ gridFace ax p, InGrid (c.nx + 1, c.ny + 1, c.nz + 1) q) ∧
  n.Perm ((gridFace ax p).map fun q => (c.nodeIndex q : Int))

end Cfd.Spec

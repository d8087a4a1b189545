import Mathlib.Algebra.Group.Prod
import Mathlib.Data.List.Rotate
import Verif.Spec.Elements
import Verif.Spec.Ic3Cells
import Verif.Spec.Cube
import Verif.Spec.Ic3Round

/-! Balance of the faces of a cell, for a finite volume solver: what leaves the cell through the faces it is the first
cell of, minus what enters through the faces it is the second cell of. -/

namespace Cfd.Spec
open Cfd.Spec.Ic3

/-- Cross product. -/
def cross {R : Type} [Mul R] [Sub R] (a b : Vec R) : Vec R :=
  (a.2.1 * b.2.2 - a.2.2 * b.2.1, a.2.2 * b.1 - a.1 * b.2.2, a.1 * b.2.1 - a.2.1 * b.1)

/-- Directed edges of a face given by its nodes, the last one going back to the first node. -/
def contour (f : List Int) : List (Int × Int) := f.zip (f.rotate 1)

/-- Circulation of `w` along the contour of a face. -/
def circulation {M : Type} [AddCommGroup M] (w : Int → Int → M) (f : List Int) : M :=
  ((contour f).map fun e => w e.1 e.2).sum

/-- Twice the area vector of a face whose nodes are at positions `X`. -/
def area2 {R : Type} [CommRing R] (X : Int → Vec R) : List Int → Vec R := circulation fun a b => cross (X a) (X b)

/-- What leaves cell `a` through the faces `l` (nodes, first and second cell), `F` being the flux through each face
from its first cell to its second one. -/
def balance {M : Type} [AddCommGroup M] (F : Face → M) (l : List Face) (a : Int) : M :=
  ((l.filter fun f => f.2.1 = a).map F).sum - ((l.filter fun f => f.2.2 = a).map F).sum

/-- The cells are consistently oriented: two cells that share a face list its nodes in opposite directions. -/
def Oriented (tbl : FaceTable) (c : ElemConn) : Prop :=
  ∀ o₁ o₂, (facesOn tbl c o₁.1).Perm [o₁, o₂] → o₂.1.IsRotated o₁.1.reverse

/-- The side of the face `f` where node `n` is, for positions `X` (positive where the normal points). -/
def sideOfFace {R : Type} [CommRing R] (X : Int → Vec R) (f : List Int) (n : Int) : R :=
  side (X (f.getD 0 0)) (X (f.getD 1 0)) (X (f.getD 2 0)) (X n)

/-- The vector from the first node of a face to the last one: for an edge of a plane mesh, its normal turned by a
right angle. -/
def span {M : Type} [AddCommGroup M] (X : Int → M) (f : List Int) : M := X (f.getLastD 0) - X (f.headD 0)

/-- The cells of a plane mesh are consistently oriented: two cells that share an edge list it in opposite directions. -/
def OrientedPlane (tbl : FaceTable) (c : ElemConn) : Prop :=
  ∀ o₁ o₂, (facesOn tbl c o₁.1).Perm [o₁, o₂] → o₂.1 = o₁.1.reverse

/-- What a solver relies on in the faces `lb` (boundary) then `li` (internal) of a mesh of `n` cells: boundary faces
have no second cell; each cell is closed, whatever the positions of the nodes; fluxes are conserved. -/
structure Conservative (n : Nat) (lb li : List Face) : Prop where
  outer : ∀ f ∈ lb, f.2.2 = -1
  closed : ∀ (R : Type) [CommRing R] (X : Int → Vec R) (a : Int), 0 ≤ a →
    balance (fun f => area2 X f.1) (lb ++ li) a = 0
  conserved : ∀ (M : Type) [AddCommGroup M] (F : Face → M),
    ((pyRange 0 n).map fun a => balance F (lb ++ li) a).sum = (lb.map F).sum

/-- The cell `n` steps away in a direction. -/
def step (ax : Axis) (n : Int) (p : Ijk) : Vec Int :=
  match ax with
  | .x => (p.1 + n, p.2.1, p.2.2)
  | .y => (p.1, p.2.1 + n, p.2.2)
  | .z => (p.1, p.2.1, p.2.2 + n)

/-- The number of a cell of the grid (row-major), or -1 outside of the grid. -/
def cellAt (c : Cube) (v : Vec Int) : Int :=
  if (0 ≤ v.1 ∧ v.1 < c.nx) ∧ (0 ≤ v.2.1 ∧ v.2.1 < c.ny) ∧ (0 ≤ v.2.2 ∧ v.2.2 < c.nz) then
    (v.1 * c.ny + v.2.1) * c.nz + v.2.2 else -1

/-- The area vector of a face of a grid of spacing `d`, in the direction of increasing coordinate. -/
def gridArea {R : Type} [CommRing R] (d : Vec R) : Axis → Vec R
  | .x => (d.2.1 * d.2.2, 0, 0)
  | .y => (0, d.2.2 * d.1, 0)
  | .z => (0, 0, d.1 * d.2.1)

end Cfd.Spec

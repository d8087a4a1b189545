import Mathlib.Algebra.Field.Basic
import Mathlib.Algebra.Module.Prod
import Verif.Spec.Closure

/-! Integrals over the faces of a cell, as a finite volume solver takes them: the mean of the values at the nodes of a face times its
area vector. Volumes are those of tetrahedra. -/

namespace Cfd.Spec

/-- Scalar product. -/
def dot {R : Type} [Mul R] [Add R] (a b : Vec R) : R := a.1 * b.1 + a.2.1 * b.2.1 + a.2.2 * b.2.2

/-- Mean of the values at the nodes of a face. -/
def faceMean {R : Type} [Field R] (v : Int → R) (f : List Int) : R := (f.map v).sum / (f.length : R)

/-- Mean of the vectors at the nodes of a face. -/
def faceMeanV {R : Type} [Field R] (w : Int → Vec R) (f : List Int) : Vec R :=
  (faceMean (fun n => (w n).1) f, faceMean (fun n => (w n).2.1) f, faceMean (fun n => (w n).2.2) f)

/-- The area vector of a face. -/
def area {R : Type} [Field R] (X : Int → Vec R) (f : List Int) : Vec R := (1 / 2 : R) • area2 X f

/-- Tetrahedra that fill an element: a pyramid is two, a prism three, a hexahedron five. -/
def tetras : String → List (Nat × Nat × Nat × Nat)
  | "tetra4" => [(0, 1, 2, 3)]
  | "pyra5" => [(0, 1, 2, 4), (0, 2, 3, 4)]
  | "prism6" => [(0, 1, 2, 3), (1, 2, 3, 4), (2, 3, 4, 5)]
  | "hexa8" => [(0, 1, 3, 4), (1, 2, 3, 6), (1, 6, 4, 5), (3, 4, 6, 7), (1, 3, 4, 6)]
  | _ => []

/-- Volume of the tetrahedron on four nodes, positive if the last one is where the normal of the first three points. -/
def tetraVolume {R : Type} [Field R] (X : Int → Vec R) (a b c d : Int) : R := side (X a) (X b) (X c) (X d) / 6

/-- Volume of a cell. -/
def cellVolume {R : Type} [Field R] (X : Int → Vec R) (t : String) (row : List Int) : R :=
  ((tetras t).map fun q => tetraVolume X (row.getD q.1 0) (row.getD q.2.1 0) (row.getD q.2.2.1 0) (row.getD q.2.2.2 0)).sum

/-- The cell is a tetrahedron, or a pyramid over a parallelogram, a prism with translated triangles, a parallelepiped: the nodes are the
images of those of the reference element by an affine map. -/
def IsAffine {R : Type} [CommRing R] (X : Int → Vec R) (t : String) (row : List Int) : Prop :=
  ∃ A : Affine R, ∀ k < (refNodes t).length, X (row.getD k 0) = A.img (refNode t k)

/-- The cell is a plane quadrangle of any shape, extruded: the last four nodes are the first four moved by a vector. -/
def IsExtruded {R : Type} [CommRing R] (X : Int → Vec R) (t : String) (row : List Int) : Prop :=
  t = "hexa8" ∧ side (X (row.getD 0 0)) (X (row.getD 1 0)) (X (row.getD 2 0)) (X (row.getD 3 0)) = 0 ∧
    ∃ d : Vec R, ∀ k < 4, X (row.getD (k + 4) 0) = X (row.getD k 0) + d

/-- Area of a plane cell, positive if its nodes turn to the left. -/
def planeArea {R : Type} [Field R] (X : Int → R × R) (t : String) (row : List Int) : R :=
  1 / 2 * circulation (fun a b => (X a).1 * (X b).2 - (X a).2 * (X b).1)
    ((if t = "tri3" then [0, 1, 2] else [0, 1, 2, 3]).map fun k => row.getD k 0)

/-- Normal of an edge of a plane mesh, of its length: its span turned to the left. -/
def edgeNormal {R : Type} [CommRing R] (X : Int → R × R) (f : List Int) : R × R := (-(span X f).2, (span X f).1)

end Cfd.Spec

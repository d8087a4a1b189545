import Mathlib.Algebra.Order.Ring.Cast
import Verif.Model.Elements

/-! Geometry of the reference elements, written from the CGNS and Gmsh conventions (not from the code):
coordinates of the nodes, faces of the convex hull, orientation. -/

namespace Cfd.Spec

/-- A point or a vector. -/
abbrev Vec (R : Type) := R × R × R

/-- Difference of points. -/
def vsub {R : Type} [Sub R] (a b : Vec R) : Vec R := (a.1 - b.1, a.2.1 - b.2.1, a.2.2 - b.2.2)

/-- Scalar triple product. -/
def det3 {R : Type} [Mul R] [Sub R] [Add R] (u v w : Vec R) : R :=
  u.1 * (v.2.1 * w.2.2 - v.2.2 * w.2.1) - u.2.1 * (v.1 * w.2.2 - v.2.2 * w.1)
    + u.2.2 * (v.1 * w.2.1 - v.2.1 * w.1)

/-- `side a b c p > 0`: `p` is on the side of the plane `a b c` where the normal (b-a)x(c-a) points. -/
def side {R : Type} [Mul R] [Sub R] [Add R] (a b c p : Vec R) : R :=
  det3 (vsub b a) (vsub c a) (vsub p a)

/-- The linear volume elements. -/
def volumeTypes : List String := ["tetra4", "pyra5", "prism6", "hexa8"]

/-- Corner coordinates of the reference elements in CGNS order. -/
def refNodes : String → List (Vec Int)
  | "tetra4" => [(0, 0, 0), (2, 0, 0), (0, 2, 0), (0, 0, 2)]
  | "pyra5" => [(0, 0, 0), (2, 0, 0), (2, 2, 0), (0, 2, 0), (1, 1, 2)]
  | "prism6" => [(0, 0, 0), (2, 0, 0), (0, 2, 0), (0, 0, 2), (2, 0, 2), (0, 2, 2)]
  | "hexa8" => [(0, 0, 0), (2, 0, 0), (2, 2, 0), (0, 2, 0), (0, 0, 2), (2, 0, 2), (2, 2, 2), (0, 2, 2)]
  | _ => []

/-- Node `i` of the reference element. -/
def refNode (et : String) (i : Nat) : Vec Int := (refNodes et).getD i (0, 0, 0)

/-- The nodes `S` are a face of the convex hull: they are all the nodes of a plane that leaves all
other nodes (there are some) strictly on one side. -/
def isHullFace (et : String) (S : List Nat) : Bool :=
  decide (S.length < (refNodes et).length) && S.any fun i => S.any fun j => S.any fun k =>
    (List.range (refNodes et).length).all fun p =>
      let s := side (refNode et i) (refNode et j) (refNode et k) (refNode et p)
      if S.contains p then s = 0 else 0 < s

/-- All faces the table gives to an element type. -/
def facesOf (tbl : FaceTable) (et : String) : List (List Nat) :=
  ((tbl.get? et).getD []).flatMap (·.2)

/-- Directed edges of a face. -/
def dirEdges (f : List Nat) : List (Nat × Nat) := f.zip (f.rotate 1)

/-- An affine map: columns of the linear part, and translation. -/
structure Affine (R : Type) where
  u : Vec R
  v : Vec R
  w : Vec R
  t : Vec R

/-- Determinant of the linear part. -/
def Affine.det {R : Type} [Mul R] [Sub R] [Add R] (a : Affine R) : R := det3 a.u a.v a.w

/-- Image of an integer point. -/
def Affine.img {R : Type} [CommRing R] (a : Affine R) (p : Vec Int) : Vec R :=
  ((p.1 : R) * a.u.1 + (p.2.1 : R) * a.v.1 + (p.2.2 : R) * a.w.1 + a.t.1,
   (p.1 : R) * a.u.2.1 + (p.2.1 : R) * a.v.2.1 + (p.2.2 : R) * a.w.2.1 + a.t.2.1,
   (p.1 : R) * a.u.2.2 + (p.2.1 : R) * a.v.2.2 + (p.2.2 : R) * a.w.2.2 + a.t.2.2)

/-- Middle of two points (exact on the even coordinates used here). -/
def mid (a b : Vec Int) : Vec Int := ((a.1 + b.1) / 2, (a.2.1 + b.2.1) / 2, (a.2.2 + b.2.2) / 2)

/-- The 27 node hexahedron from its corners, its edges in the order of a convention, the pairs of
opposite corners of its faces in that order, and its centre. -/
def hexa27Of (edges faces : List (Nat × Nat)) : List (Vec Int) :=
  refNodes "hexa8" ++ edges.map (fun e => mid (refNode "hexa8" e.1) (refNode "hexa8" e.2)) ++
    faces.map (fun e => mid (refNode "hexa8" e.1) (refNode "hexa8" e.2)) ++ [(1, 1, 1)]

/-- CGNS HEXA_27 (SIDS, unstructured grid conventions). -/
def hexa27Cgns : List (Vec Int) := hexa27Of
  [(0, 1), (1, 2), (2, 3), (3, 0), (0, 4), (1, 5), (2, 6), (3, 7), (4, 5), (5, 6), (6, 7), (7, 4)]
  [(0, 2), (0, 5), (1, 6), (2, 7), (0, 7), (4, 6)]

/-- Gmsh Hexahedron27 (Gmsh reference manual, node ordering). -/
def hexa27Gmsh : List (Vec Int) := hexa27Of
  [(0, 1), (0, 3), (0, 4), (1, 2), (1, 5), (2, 3), (2, 6), (3, 7), (4, 5), (4, 7), (5, 6), (6, 7)]
  [(0, 2), (0, 5), (0, 7), (1, 6), (2, 7), (4, 6)]

/-- Reordering of a row by a list of positions starting at 1. -/
def reorder (perm : List Nat) (row : List Int) : List Int := perm.map fun i => row.getD (i - 1) 0

end Cfd.Spec

import Verif.Model.Faces
import Verif.Spec.Conn

/-! Specification of the faces of cells, independent of how the code groups them. -/

namespace Cfd.Spec

/-- Local faces of face type `ft` that the table gives to element type `et` (node positions). -/
def localFaces (tbl : FaceTable) (et ft : String) : List (List Nat) :=
  ((tbl.get? et).getD []).flatMap fun q => if q.1 = ft then q.2 else []

/-- Every face of type `ft` of every cell: its nodes in reversed table order, and its cell. -/
def cellFaces (tbl : FaceTable) (c : ElemConn) (ft : String) : List (List Int × Int) :=
  (elements c).flatMap fun x =>
    (localFaces tbl x.1 ft).map fun f => (f.reverse.map fun k => x.2.2.getD k 0, x.2.1)

/-- How many cell faces of type `ft` have the nodes `n`, in any order. -/
def occurrences (tbl : FaceTable) (c : ElemConn) (ft : String) (n : List Int) : Nat :=
  (cellFaces tbl c ft).countP fun o => o.1.isPerm n

/-- How many elements of type `ft` of a connectivity have the nodes `n`, in any order. -/
def facesWith (c : ElemConn) (ft : String) (n : List Int) : Nat :=
  (elementsOf c ft).countP fun q => q.2.isPerm n

/-- Face types of the element types present in `c`. -/
def faceTypes (tbl : FaceTable) (c : ElemConn) : List String :=
  c.tbl.keys.flatMap fun et => ((tbl.get? et).getD []).flatMap fun q =>
    if q.2 = [] then [] else [q.1]

/-- Number of different node sets among the faces of type `ft` of the cells. -/
def distinctFaces (tbl : FaceTable) (c : ElemConn) (ft : String) : Nat :=
  (firstUse ((cellFaces tbl c ft).map fun o => sortInts o.1)).length

/-- The table gives to each face type a fixed number of nodes, and at least one face to each
element type. -/
def TableWF (tbl : FaceTable) : Prop :=
  (∃ w : String → Nat, ∀ et, ∀ q ∈ (tbl.get? et).getD [], ∀ f ∈ q.2, f.length = w q.1) ∧
  ∀ et fs, tbl.get? et = some fs → ∃ q ∈ fs, q.2 ≠ []

/-- The cells are of types known to the table, with enough nodes. -/
def CellsKnown (tbl : FaceTable) (c : ElemConn) : Prop :=
  ∀ p ∈ c.tbl, ∃ fs k, tbl.get? p.1 = some fs ∧ p.2.e2n.ncol = some k ∧
    ∀ q ∈ fs, ∀ f ∈ q.2, ∀ i ∈ f, i < k

end Cfd.Spec

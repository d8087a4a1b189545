import Verif.Spec.Ic3Round

/-!
Specification of an IC3 file written from a mesh which has cells and node marks only: what its faces and
zones must be, in terms of the faces of the cells.
-/

namespace Cfd.Spec

/-- Every face of every cell, whatever its type: its nodes in reversed table order, and its cell. -/
def facesOfCells (tbl : FaceTable) (c : ElemConn) : List (List Int × Int) :=
  (elements c).flatMap fun x => ((tbl.get? x.1).getD []).flatMap fun q =>
    q.2.map fun f => (f.reverse.map fun k => x.2.2.getD k 0, x.2.1)

/-- The faces of the cells that have the nodes `n`, in any order. -/
def facesOn (tbl : FaceTable) (c : ElemConn) (n : List Int) : List (List Int × Int) :=
  (facesOfCells tbl c).filter fun o => o.1.isPerm n

/-- Faces of different types have different numbers of nodes. -/
def DistinctWidths (tbl : FaceTable) : Prop :=
  ∀ et et' : String, ∀ q ∈ (tbl.get? et).getD [], ∀ q' ∈ (tbl.get? et').getD [], ∀ f ∈ q.2, ∀ f' ∈ q'.2,
    f.length = f'.length → q.1 = q'.1

/-- No face is shared by more than two cells. -/
def Conforming (tbl : FaceTable) (c : ElemConn) : Prop :=
  ∀ o ∈ facesOfCells tbl c, (facesOn tbl c o.1).length ≤ 2

end Cfd.Spec

namespace Cfd.Spec.Ic3
open Cfd.Ic3

/-- A mesh of cells and node marks, without any face. -/
structure NodeCells (m : Mesh F64) (c : ElemConn) : Prop where
  cells : m.cell2node = some c
  conn : ConnWF c
  some : elements c ≠ []
  noFaces : m.faces = []
  coords : ∀ x y z, m.coords = Option.some (x, y, z) →
    x.length = m.nnode ∧ y.length = m.nnode ∧ z.length = m.nnode
  markKeys : m.bocos.keys.Nodup
  onNodes : ∀ p ∈ m.bocos, p.2.geodim ∈ [GeoDim.node, .intnode, .bdnode]
  marksSet : ∀ p ∈ m.bocos, p.2.index ≠ .unset
  notInternal : ∀ p ∈ m.bocos, p.2.type ≠ "internal"
  notReserved : "unmarked" ∉ m.bocos.keys ∧ "internal-domain" ∉ m.bocos.keys

/-- The same with cells numbered from 0: what the Gmsh import, the extrusion by one layer and the structured cube give. -/
structure CellMesh (m : Mesh F64) (c : ElemConn) : Prop extends NodeCells m c where
  numbering : ValidNumbering (allIndices c)
  ncell : m.ncell = c.nelem

/-- All the nodes of face `f` are in the mark `b`. -/
def Holds (b : Mark) (f : Face) : Prop := ∀ n ∈ f.1, n ∈ markItems b

/-- The faces `lb` (boundary) and `li` (internal) are those of the cells: each one once; a boundary face
belongs to a single cell, an internal one to the two cells of its pair; the nodes are in the (reversed)
table order of the first cell. -/
structure FacesOf (tbl : FaceTable) (c : ElemConn) (lb li : List Face) : Prop where
  once : ∀ o ∈ facesOfCells tbl c, ((lb ++ li).countP fun f => f.1.isPerm o.1) = 1
  boundary : ∀ f ∈ lb, ∃ a, f.2 = (a, -1) ∧ facesOn tbl c f.1 = [(f.1, a)]
  internal : ∀ f ∈ li, ∃ nodes, (facesOn tbl c f.1).Perm [(f.1, f.2.1), (nodes, f.2.2)]

/-- The mesh `g` read from the file of the mesh `m` of cells `c`. -/
structure FromCells (tbl : FaceTable) (c : ElemConn) (m : Mesh F64) (lb li : List Face) (g : Mesh F64) :
    Prop where
  ncell : g.ncell = m.ncell
  nnode : g.nnode = m.nnode
  coords : g.coords = m.coords
  facesOf : FacesOf tbl c lb li
  faces : MeshFaces g (lb ++ li)
  /-- a mark of the mesh is a zone of boundary faces, with the same type: those with all nodes in the mark -/
  marks : ∀ name b, m.bocos.get? name = some b → ∃ b', g.bocos.get? name = some b' ∧ b'.geodim = .bdface ∧
    b'.type = b.type ∧ ∀ i : Int, i ∈ markItems b' ↔ 0 ≤ i ∧ ∃ f, lb[i.toNat]? = some f ∧ Holds b f
  /-- the boundary faces in no mark are in the zone `unmarked`, present only if there are some -/
  unmarked : ∀ b', g.bocos.get? "unmarked" = some b' → b'.type = "boundary" ∧ markItems b' ≠ [] ∧
    ∀ i : Int, i ∈ markItems b' ↔ 0 ≤ i ∧ ∃ f, lb[i.toNat]? = some f ∧ ∀ p ∈ m.bocos, ¬ Holds p.2 f
  unmarkedPresent : (∃ f ∈ lb, ∀ p ∈ m.bocos, ¬ Holds p.2 f) → "unmarked" ∈ g.bocos.keys
  /-- nothing else -/
  others : ∀ name ∈ g.bocos.keys, name ∈ m.bocos.keys ∨ name = "unmarked" ∨ name = "internal-domain"
  /-- every face is in one zone exactly -/
  tiles : lb ≠ [] → (marked g).Perm (pyRange 0 (lb ++ li).length)

end Cfd.Spec.Ic3

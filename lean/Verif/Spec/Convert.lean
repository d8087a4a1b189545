import Verif.Spec.Gmsh
import Verif.Spec.Ic3Writes
import Verif.Model.Convert

/-!
Specification of the conversion of a Gmsh file to an IC3 file: from the elements of the Gmsh file to the faces and zones
of the IC3 mesh.
-/

namespace Cfd.Spec.Convert
open Cfd.Ic3 Cfd.Spec.Ic3 Cfd.Spec.Gmsh

/-- The faces of an element, as node numbers (tables checked in C11). -/
def eltFaces (e : Elt) : List (List Int) :=
  ((gmshElem2faces.get? e.name).getD []).flatMap fun q => q.2.map fun f => f.reverse.map fun k => e.nodes.getD k 0

/-- Number of faces of cells that have the nodes `n`, in any order. -/
def sharing (elts : List Elt) (n : List Int) : Nat := ((cellsOf elts).flatMap eltFaces).countP fun f => f.isPerm n

/-- Boundary faces: faces of a single cell. -/
def OnSkin (elts : List Elt) (n : List Int) : Prop := (∃ e ∈ cellsOf elts, n ∈ eltFaces e) ∧ sharing elts n = 1

/-- No face is shared by three cells. -/
def NoTriple (elts : List Elt) : Prop := ∀ e ∈ cellsOf elts, ∀ n ∈ eltFaces e, sharing elts n ≤ 2

/-- The nodes `n` are those of an element of the boundary `name` of the file. -/
def InFile (names : Option (List PhysName)) (elts : List Elt) (name : String) (n : List Int) : Prop :=
  ∃ e ∈ bordersOf elts, boundaryOf names e = some name ∧ n.Perm e.nodes

/-- All boundary faces are elements of some boundary of the file. -/
def Closed (names : Option (List PhysName)) (elts : List Elt) : Prop := ∀ n, OnSkin elts n → ∃ name, InFile names elts name n

/-- The boundaries of the file. -/
def IsBoundary (names : Option (List PhysName)) (elts : List Elt) (name : String) : Prop :=
  ∃ e ∈ bordersOf elts, boundaryOf names e = some name

/-- All the nodes `n` are nodes of elements of the boundary `name`. -/
def NodesIn (names : Option (List PhysName)) (elts : List Elt) (name : String) (n : List Int) : Prop :=
  ∀ k ∈ n, ∃ e ∈ bordersOf elts, boundaryOf names e = some name ∧ k ∈ e.nodes

/-- Node numbers of a face of the mesh, as in the file (from 1). -/
def fileNodes (f : Face) : List Int := f.1.map (· + 1)

/-- The mesh `g` of the IC3 file, with boundary faces `lb` then internal faces `li`, is the one of the Gmsh file: points
`pts`, physical names, elements. `c` numbers the cells. -/
structure Converted {R : Type} (store : Option R → F64) (pts : List (Option (R × R × R)))
    (names : Option (List PhysName)) (elts : List Elt) (c : ElemConn) (lb li : List Face) (g : Mesh F64) : Prop where
  cells : IsCells (cellsOf elts) c
  ncell : g.ncell = (cellsOf elts).length
  nnode : g.nnode = pts.length
  coords : g.coords = some (pts.map fun q => store (q.map fun q => q.1), pts.map fun q => store (q.map fun q => q.2.1),
    pts.map fun q => store (q.map fun q => q.2.2))
  facesOf : FacesOf gmshElem2faces c lb li
  faces : MeshFaces g (lb ++ li)
  /-- a boundary of the file is a zone: the boundary faces with all their nodes in it -/
  zones : ∀ name, IsBoundary names elts name → ∃ b, g.bocos.get? name = some b ∧ b.geodim = .bdface ∧
    b.type = "boundary" ∧
    ∀ i : Int, i ∈ markItems b ↔ 0 ≤ i ∧ ∃ f, lb[i.toNat]? = some f ∧ NodesIn names elts name (fileNodes f)
  /-- when the boundaries of the file cover the boundary faces: exactly the elements of this boundary -/
  exact : Closed names elts → ∀ name b, IsBoundary names elts name → g.bocos.get? name = some b →
    ∀ i : Int, i ∈ markItems b ↔ 0 ≤ i ∧ ∃ f, lb[i.toNat]? = some f ∧ InFile names elts name (fileNodes f)
  /-- there are no other zones than internal faces, and boundary faces left out by the file -/
  others : ∀ name ∈ g.bocos.keys, IsBoundary names elts name ∨ name = "internal-domain" ∨
    (name = "unmarked" ∧ ¬ Closed names elts)
  /-- every face is in one zone -/
  tiles : lb ≠ [] → (marked g).Perm (pyRange 0 (lb ++ li).length)

/-- Node marks can tell the boundaries apart: every boundary has a face, no boundary face has all its nodes in two
boundaries. -/
structure Separable (names : Option (List PhysName)) (elts : List Elt) : Prop where
  some : ∀ name, IsBoundary names elts name → ∃ n, OnSkin elts n ∧ NodesIn names elts name n
  apart : ∀ name name' n, name ≠ name' → OnSkin elts n → ¬ (NodesIn names elts name n ∧ NodesIn names elts name' n)

/-- Every shape of face occurs on the boundary and inside. -/
def Mixed (elts : List Elt) : Prop := ∀ e ∈ cellsOf elts, ∀ n ∈ eltFaces e,
  (∃ e' ∈ cellsOf elts, ∃ n' ∈ eltFaces e', n'.length = n.length ∧ sharing elts n' = 1) ∧
  (∃ e' ∈ cellsOf elts, ∃ n' ∈ eltFaces e', n'.length = n.length ∧ sharing elts n' = 2)

/-- Number of faces. -/
def faceTotal (elts : List Elt) : Nat := (((cellsOf elts).flatMap eltFaces).map sortInts).dedup.length

/-- Limits of the format on the file: numbers on 32 bits. -/
def Fits {R : Type} (pts : List (Option (R × R × R))) (elts : List Elt) : Prop :=
  Small pts.length ∧ Small (cellsOf elts).length ∧ Small (faceTotal elts) ∧
    ∀ e ∈ cellsOf elts, ∀ k ∈ e.nodes, FitsInt 4 (k - 1)

/-- Names of boundaries which the format accepts. -/
def GoodNames (names : Option (List PhysName)) (elts : List Elt) : Prop :=
  ∀ name, IsBoundary names elts name → UserName name ∧ name ≠ "unmarked" ∧ name ≠ "internal-domain"

end Cfd.Spec.Convert

import Verif.Spec.Cgns
import Verif.Spec.Ic3Writes

/-!
Specification of the conversion of a CGNS file of hexahedra to an IC3 file: from the sections and boundary conditions of
the CGNS zone to the faces and zones of the IC3 mesh.
-/

namespace Cfd.Spec.CgnsConvert
open Cfd.Ic3 Cfd.Spec.Ic3 Cfd.Cgns Cfd.Spec.Cgns

variable {R : Type}

/-- The cells of the file: number and nodes, from 0. -/
def cells (z : Zone R) : List (Int × List Int) := elemsOfDim z 3

/-- The six sides of a hexahedron (CGNS standard, HEXA_8). -/
def sixSides : List Int → List (List Int)
  | [a, b, c, d, e, f, g, h] =>
      [[a, d, c, b], [a, b, f, e], [b, c, g, f], [c, d, h, g], [a, e, h, d], [e, f, g, h]]
  | _ => []

/-- The sides of all cells, with their cell. -/
def sides (z : Zone R) : List (List Int × Int) := (cells z).flatMap fun p => (sixSides p.2).map fun s => (s, p.1)

/-- The cells that have the side `n`, its nodes being in any order. -/
def around (z : Zone R) (n : List Int) : List Int := ((sides z).filter fun s => s.1.isPerm n).map (·.2)

/-- A side of a single cell. -/
def Outer (z : Zone R) (n : List Int) : Prop := (∃ s ∈ sides z, n.Perm s.1) ∧ (around z n).length = 1

/-- The node `n` is listed by the boundary condition `b`, or is a node of a face that it lists. -/
def NodeIn (z : Zone R) (b : Bc) (n : Int) : Prop :=
  (OnNodes b ∧ n + 1 ∈ listed b) ∨ (OnFaces z b ∧ ∃ e ∈ listed b, ∃ r, (e - 1, r) ∈ elemsOfDim z 2 ∧ n ∈ r)

/-- The nodes `n` are those of a face listed by the boundary condition `b`. -/
def FaceIn (z : Zone R) (b : Bc) (n : List Int) : Prop :=
  OnFaces z b ∧ ∃ e ∈ listed b, ∃ r, (e - 1, r) ∈ elemsOfDim z 2 ∧ n.Perm r

/-- The boundary condition `b` is imported under this name: the last one, the whole domain apart. -/
def Named (z : Zone R) (name : String) (b : Bc) : Prop := ∃ p, lastNamed z name = some p ∧ p.2 = b

/-- A zone of hexahedra which can be read: at least one cell, no boundary condition on cells, numbers of cells from 1
that are all different. -/
structure HexaZone (z : Zone R) : Prop where
  zone : ZoneOk z 3
  some : cells z ≠ []
  marks : ∀ p ∈ z.bcs, Whole z p.2 ∨ ¬ OnCells z p.2
  apart : (fileNumbers z 3).Nodup
  positive : ∀ k ∈ fileNumbers z 3, 1 ≤ k

/-- No side is shared by three cells. -/
def NoTriple (z : Zone R) : Prop := ∀ s ∈ sides z, (around z s.1).length ≤ 2

/-- The cells come first in the numbers of the file: they are numbered 1, 2, ... -/
def CellsFirst (z : Zone R) : Prop := (fileNumbers z 3).Perm (pyRange 1 ((cells z).length + 1))

/-- Names of boundary conditions that the IC3 format can hold. -/
def GoodNames (z : Zone R) : Prop :=
  ∀ name b, Named z name b → UserName name ∧ name ≠ "unmarked" ∧ name ≠ "internal-domain"

/-- All outer sides are listed as faces of boundary conditions. -/
def Closed (z : Zone R) : Prop := ∀ n, Outer z n → ∃ name b, Named z name b ∧ FaceIn z b n

/-- The mesh `g` of the IC3 file, with boundary faces `lb` then internal faces `li`, is the one of the zone. -/
structure Converted (store : R → F64) (z : Zone R) (lb li : List Face) (g : Mesh F64) : Prop where
  ncell : g.ncell = (cells z).length
  nnode : g.nnode = z.nnode
  coords : g.coords = some (z.x.map store, z.y.map store, z.z.map store)
  faces : MeshFaces g (lb ++ li)
  /-- each side of a cell is one face -/
  once : ∀ s ∈ sides z, ((lb ++ li).countP fun f => f.1.isPerm s.1) = 1
  /-- boundary faces: sides of one cell -/
  outer : ∀ f ∈ lb, ∃ a, f.2 = (a, -1) ∧ around z f.1 = [a] ∧ Outer z f.1
  /-- internal faces: sides of the two cells of the face -/
  inner : ∀ f ∈ li, (around z f.1).Perm [f.2.1, f.2.2]
  /-- a boundary condition is a zone: the boundary faces with all their nodes in it -/
  zones : ∀ name bc, Named z name bc → ∃ b, g.bocos.get? name = some b ∧ b.geodim = .bdface ∧ b.type = "boundary" ∧
    ∀ i : Int, i ∈ markItems b ↔ 0 ≤ i ∧ ∃ f, lb[i.toNat]? = some f ∧ ∀ n ∈ f.1, NodeIn z bc n
  /-- when the conditions list all the outer sides: exactly the faces it lists -/
  exact : Closed z → ∀ name bc b, Named z name bc → g.bocos.get? name = some b →
    ∀ i : Int, i ∈ markItems b ↔ 0 ≤ i ∧ ∃ f, lb[i.toNat]? = some f ∧ FaceIn z bc f.1
  /-- there are no other zones than internal faces, and boundary faces in no condition -/
  others : ∀ name ∈ g.bocos.keys, (∃ bc, Named z name bc) ∨ name = "internal-domain" ∨
    (name = "unmarked" ∧ ∃ f ∈ lb, ∀ name bc, Named z name bc → ¬ ∀ n ∈ f.1, NodeIn z bc n)
  /-- every face is in one zone -/
  tiles : lb ≠ [] → (marked g).Perm (pyRange 0 (lb ++ li).length)

/-- Node marks can tell the conditions apart: each one has an outer side, no outer side is in two. -/
structure Separable (z : Zone R) : Prop where
  some : ∀ name b, Named z name b → ∃ n, Outer z n ∧ ∀ k ∈ n, NodeIn z b k
  apart : ∀ name b name' b' n, Named z name b → Named z name' b' → name ≠ name' → Outer z n →
    ¬ ((∀ k ∈ n, NodeIn z b k) ∧ ∀ k ∈ n, NodeIn z b' k)

/-- There is a side of one cell and a side of two cells. -/
def Mixed (z : Zone R) : Prop := (∃ s ∈ sides z, (around z s.1).length = 1) ∧ ∃ s ∈ sides z, (around z s.1).length = 2

/-- Limits of the format: numbers on 32 bits. -/
def Fits (z : Zone R) : Prop :=
  Small z.nnode ∧ Small (6 * (cells z).length) ∧ ∀ p ∈ cells z, ∀ k ∈ p.2, FitsInt 4 k

end Cfd.Spec.CgnsConvert

import Verif.Spec.Ic3Writes
import Verif.Spec.Extrude

/-!
Specification of the IC3 file of a plane mesh of quadrangles extruded by one layer of cells, in terms of the
quadrangles and of their edges.
-/

namespace Cfd.Spec.Ic3
open Cfd.Ic3

/-- Cells of a plane mesh: number and nodes, in order around the cell. -/
abbrev Quads := List (Int × List Int)

/-- The four edges of a quadrangle. -/
def edgesOf : List Int → List (Int × Int)
  | [a, b, c, d] => [(a, b), (b, c), (c, d), (d, a)]
  | _ => []

/-- All the edges of the cells, with their cell. -/
def edges (q : Quads) : List ((Int × Int) × Int) := q.flatMap fun p => (edgesOf p.2).map fun e => (e, p.1)

/-- The same edge, whatever its direction. -/
def SameEdge (e e' : Int × Int) : Prop := e = e' ∨ e = (e'.2, e'.1)

instance (e e' : Int × Int) : Decidable (SameEdge e e') := inferInstanceAs (Decidable (_ ∨ _))

/-- The cells around an edge. -/
def cellsOn (q : Quads) (e : Int × Int) : List Int := ((edges q).filter fun x => decide (SameEdge x.1 e)).map (·.2)

/-- A plane mesh of `q`: only quadrangles, at least one, numbered from 0, of four different existing nodes. -/
structure QuadMesh {R : Type} (m : Mesh R) (c : ElemConn) (q : Quads) : Prop where
  mesh : Extrudable m c
  types : c.tbl.keys = ["quad4"]
  quads : elementsOf c "quad4" = q
  some : q ≠ []
  numbering : ValidNumbering (q.map (·.1))
  nodes : ∀ p ∈ q, p.2.Nodup ∧ ∀ n ∈ p.2, 0 ≤ n ∧ n < (m.nnode : Int)

/-- An edge of the boundary with its two nodes in the mark `b`. -/
def EdgeOnMark (q : Quads) (b : Mark) (e : Int × Int) : Prop :=
  (cellsOn q e).length = 1 ∧ e.1 ∈ markItems b ∧ e.2 ∈ markItems b

/-- What the plane mesh must satisfy for its extrusion to be written: no two quadrangles on the same nodes, no edge of
three cells, at least one edge of two cells; an edge of the boundary in each mark, none in two marks, no quadrangle in
a mark; names and types of marks that the format knows; numbers on 32 bits. -/
structure LayerFits {R : Type} (m : Mesh R) (q : Quads) (domain : String) : Prop where
  apart : q.Pairwise fun p p' => ¬ p.2.Perm p'.2
  conforming : ∀ x ∈ edges q, (cellsOn q x.1).length ≤ 2
  inner : ∃ x ∈ edges q, (cellsOn q x.1).length = 2
  markSome : ∀ p ∈ m.bocos, ∃ x ∈ edges q, EdgeOnMark q p.2 x.1
  markApart : ∀ p ∈ m.bocos, ∀ p' ∈ m.bocos, p.1 ≠ p'.1 → ∀ x ∈ edges q,
    ¬ (EdgeOnMark q p.2 x.1 ∧ EdgeOnMark q p'.2 x.1)
  markEdges : ∀ p ∈ m.bocos, ∀ v ∈ q, ∃ n ∈ v.2, n ∉ markItems p.2
  markNodes : ∀ p ∈ m.bocos, ∀ n ∈ markItems p.2, 0 ≤ n ∧ n < (m.nnode : Int)
  markType : ∀ p ∈ m.bocos, p.2.type ∈ zoneTypes ∧ p.2.type ≠ "internal"
  markName : ∀ p ∈ m.bocos, UserName p.1 ∧ p.1 ≠ "unmarked" ∧ p.1 ≠ "internal-domain" ∧ p.1 ≠ domain ++ "0" ∧
    p.1 ≠ domain ++ "1"
  names : UserName (domain ++ "0") ∧ UserName (domain ++ "1")
  counts : Small (2 * m.nnode) ∧ Small (6 * q.length)

/-- The quadrangle between the edge `e` of the first plane and its copy. -/
def sideOf (N : Nat) (e : Int × Int) : List Int := [e.1, e.2, e.1 + N, e.2 + N]

/-- The boundary face `f` is a quadrangle of the first plane, of the cell above it. -/
def IsBottom (q : Quads) (f : Face) : Prop := ∃ p ∈ q, f.1.Perm p.2 ∧ f.2 = (p.1, -1)

/-- The boundary face `f` is the copy of a quadrangle in the second plane. -/
def IsTop (N : Nat) (q : Quads) (f : Face) : Prop := ∃ p ∈ q, f.1.Perm (p.2.map (· + (N : Int))) ∧ f.2 = (p.1, -1)

/-- The boundary face `f` is above the edge `e` of a single cell. -/
def IsSide (N : Nat) (q : Quads) (e : Int × Int) (f : Face) : Prop :=
  (∃ x ∈ edges q, x.1 = e) ∧ f.1.Perm (sideOf N e) ∧ ∃ a, cellsOn q e = [a] ∧ f.2 = (a, -1)

/-- The mesh `g` of the file, with boundary faces `lb` and internal faces `li`, is the layer of hexahedra between the
plane mesh `q` of `N` nodes with marks `bocos` and its copy. -/
structure LayerRead (N : Nat) (q : Quads) (bocos : Dict String Mark) (domain : String) (lb li : List Face)
    (g : Mesh F64) : Prop where
  ncell : g.ncell = q.length
  nnode : g.nnode = 2 * N
  faces : MeshFaces g (lb ++ li)
  /-- boundary faces: a quadrangle, its copy, or the side above an edge of one cell -/
  outer : ∀ f ∈ lb, IsBottom q f ∨ IsTop N q f ∨ ∃ e, IsSide N q e f
  /-- internal faces: above an edge of two cells, between the hexahedra of these cells -/
  inner : ∀ f ∈ li, ∃ x ∈ edges q, f.1.Perm (sideOf N x.1) ∧ (cellsOn q x.1).Perm [f.2.1, f.2.2]
  /-- all these faces are there, once -/
  once : (∀ p ∈ q, ((lb ++ li).countP fun f => f.1.isPerm p.2) = 1 ∧
      ((lb ++ li).countP fun f => f.1.isPerm (p.2.map (· + (N : Int)))) = 1) ∧
    ∀ x ∈ edges q, ((lb ++ li).countP fun f => f.1.isPerm (sideOf N x.1)) = 1
  /-- the zone of the first plane -/
  first : ∃ b, g.bocos.get? (domain ++ "0") = some b ∧ b.geodim = .bdface ∧ b.type = "boundary" ∧
    ∀ i : Int, i ∈ markItems b ↔ 0 ≤ i ∧ ∃ f, lb[i.toNat]? = some f ∧ IsBottom q f
  /-- the zone of the second plane -/
  last : ∃ b, g.bocos.get? (domain ++ "1") = some b ∧ b.geodim = .bdface ∧ b.type = "boundary" ∧
    ∀ i : Int, i ∈ markItems b ↔ 0 ≤ i ∧ ∃ f, lb[i.toNat]? = some f ∧ IsTop N q f
  /-- a mark becomes the zone of the sides above its edges -/
  marks : ∀ name b, bocos.get? name = some b → ∃ b', g.bocos.get? name = some b' ∧ b'.geodim = .bdface ∧
    b'.type = b.type ∧ ∀ i : Int, i ∈ markItems b' ↔ 0 ≤ i ∧ ∃ f e, lb[i.toNat]? = some f ∧ IsSide N q e f ∧
      EdgeOnMark q b e
  /-- the sides above the other edges of one cell are in the zone `unmarked`, present only if there are some -/
  unmarked : ∀ b, g.bocos.get? "unmarked" = some b → b.type = "boundary" ∧ markItems b ≠ [] ∧
    ∀ i : Int, i ∈ markItems b ↔ 0 ≤ i ∧ ∃ f e, lb[i.toNat]? = some f ∧ IsSide N q e f ∧
      ∀ p ∈ bocos, ¬ EdgeOnMark q p.2 e
  others : ∀ name ∈ g.bocos.keys, name ∈ bocos.keys ∨ name = domain ++ "0" ∨ name = domain ++ "1" ∨
    name = "unmarked" ∨ name = "internal-domain"
  tiles : (marked g).Perm (pyRange 0 (lb ++ li).length)

end Cfd.Spec.Ic3

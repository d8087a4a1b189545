import Verif.Model.Cgns
import Verif.Spec.Conn

/-!
# Specification of the CGNS reader (C56)
-/

namespace Cfd.Spec.Cgns
open Cfd.Cgns

/-- A supported type of elements: CGNS code, local name, number of nodes, dimension. -/
structure Kind where
  code : Int
  name : String
  nodes : Nat
  dim : Nat
  deriving DecidableEq, Repr

/-- Supported types (CGNS standard: NODE = 2, BAR_2 = 3, TRI_3 = 5, QUAD_4 = 7, HEXA_8 = 17). -/
def kinds : List Kind :=
  [⟨2, "node1", 1, 0⟩, ⟨3, "bar2", 2, 1⟩, ⟨5, "tri3", 3, 2⟩, ⟨7, "quad4", 4, 2⟩, ⟨17, "hexa8", 8, 3⟩]

/-- A section of this type, with as many nodes as its range asks for. -/
structure SectionOk (k : Kind) (s : Section) : Prop where
  code : s.cgtype = k.code
  size : (s.conn.length : Int) = (s.last - s.first + 1) * k.nodes

/-- Elements of a section: numbers of the file minus one, nodes of the file minus one. -/
def sectionElems (k : Kind) (s : Section) : List (Int × List Int) :=
  (List.range (s.last - s.first + 1).toNat).map fun (j : Nat) =>
    (s.first + j - 1, ((s.conn.drop (j * k.nodes)).take k.nodes).map (· - 1))

variable {R : Type}

/-- Elements of one type in the zone, in the order of the sections. -/
def elemsOfKind (z : Zone R) (k : Kind) : List (Int × List Int) :=
  (z.sections.filter fun p => p.2.cgtype = k.code).flatMap fun p => sectionElems k p.2

/-- All elements of one dimension. -/
def elemsOfDim (z : Zone R) (dim : Int) : List (Int × List Int) :=
  (kinds.filter fun k => (k.dim : Int) = dim).flatMap (elemsOfKind z)

/-- Numbers in the file of the elements of one dimension. -/
def fileNumbers (z : Zone R) (dim : Int) : List Int :=
  (kinds.filter fun k => (k.dim : Int) = dim).flatMap fun k =>
    (z.sections.filter fun p => p.2.cgtype = k.code).flatMap fun p => pyRange p.2.first (p.2.last + 1)

/-- All sections are supported and complete. -/
def SectionsOk (z : Zone R) : Prop := ∀ p ∈ z.sections, ∃ k ∈ kinds, SectionOk k p.2

/-- Name of the mark of a boundary condition: the family if it has one. -/
def markName (p : String × Bc) : String := match p.2.family with | some f => f | none => p.1

/-- The condition lists nodes. -/
def OnNodes (b : Bc) : Prop := b.points.isSome ∧ (b.location = none ∨ b.location = some "Vertex")

/-- The condition lists cells. -/
def OnCells (z : Zone R) (b : Bc) : Prop :=
  (b.points.isSome ∧ b.location = some "CellCenter") ∨ (b.points = none ∧ ∃ l, b.elems = some l ∧ l.length = z.ncell)

/-- The condition lists faces. -/
def OnFaces (z : Zone R) (b : Bc) : Prop :=
  (b.points.isSome ∧ b.location = some "FaceCenter") ∨ (b.points = none ∧ ∃ l, b.elems = some l ∧ l.length ≠ z.ncell)

/-- Indices listed, from 1. -/
def listed (b : Bc) : List Int :=
  match b.points with
  | some l => l
  | none => match b.elems with | some l => l | none => []

/-- The condition covers the whole domain: all nodes, or (`ElementList`) as many elements as cells. -/
def Whole (z : Zone R) (b : Bc) : Prop :=
  (OnNodes b ∧ (listed b).length = z.nnode) ∨ (b.points = none ∧ (listed b).length = z.ncell)

instance (z : Zone R) (b : Bc) : Decidable (Whole z b) := by unfold Whole OnNodes; infer_instance

/-- The last condition of that name that is not the whole domain. -/
def lastNamed (z : Zone R) (name : String) : Option (String × Bc) :=
  (z.bcs.filter fun p => ¬ Whole z p.2 ∧ markName p = name).getLast?

/-- Node marks: the nodes listed, or the nodes of the faces listed, each once; cell marks: the cells listed. -/
def IsIndex (z : Zone R) (geodim : Int) (b : Bc) (g : GeoDim) (l : List Int) : Prop :=
  (OnNodes b ∧ g = .node ∧ l = (listed b).map (· - 1)) ∨
  (OnCells z b ∧ g = .cell ∧ l = (listed b).map (· - 1)) ∨
  (OnFaces z b ∧ g = .node ∧ l.Nodup ∧
    ∀ n, n ∈ l ↔ ∃ e ∈ listed b, ∃ r, (e - 1, r) ∈ elemsOfDim z (geodim - 1) ∧ n ∈ r)

/-- A condition that can be read: known location, faces of the file, and something listed unless it is the whole domain. -/
def BcOk (z : Zone R) (geodim : Int) (b : Bc) : Prop :=
  (OnNodes b ∨ OnCells z b ∨ OnFaces z b) ∧
  (OnFaces z b → ∀ e ∈ listed b, ∃ r, (e - 1, r) ∈ elemsOfDim z (geodim - 1)) ∧
  (¬ Whole z b → listed b ≠ [])

/-- A zone that can be read. -/
structure ZoneOk (z : Zone R) (geodim : Int) : Prop where
  sections : SectionsOk z
  lx : z.x.length = z.nnode
  ly : z.y.length = z.nnode
  lz : z.z.length = z.nnode
  faces : ((elemsOfDim z (geodim - 1)).map (·.1)).Nodup
  names : (z.bcs.map (·.1)).Nodup
  bcs : ∀ p ∈ z.bcs, BcOk z geodim p.2

end Cfd.Spec.Cgns

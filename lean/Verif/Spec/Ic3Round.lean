import Verif.Spec.Ic3File
import Verif.Spec.Mesh

/-!
Specification of what a mesh written to an IC3 file and read again must keep. A mesh is described by the
ordered list of its faces, without reference to the way they are stored (by type, boundary and internal
sets or a single set).
-/

namespace Cfd.Spec.Ic3
open Cfd.Ic3

/-- A face: its nodes in order, and the cells on its two sides. -/
abbrev Face := List Int × (Int × Int)

/-- The face set `fs` holds the faces `l`: face number k has the nodes and the cells of entry k. -/
structure IsFaces (fs : FaceSet) (l : List Face) : Prop where
  conn : ConnWF fs.f2n
  nodes : ((elements fs.f2n).map (·.2)).Perm (l.zipIdx.map fun x => ((x.2 : Int), x.1.1))
  cells : fs.f2c = some (some (l.map (·.2)))

/-- The faces of a mesh, numbered from 0: the single set `mixed` if there is one, otherwise the boundary
faces followed by the internal faces. -/
def MeshFaces (m : Mesh F64) (l : List Face) : Prop :=
  (∃ fs, m.faces.get? "mixed" = some fs ∧ IsFaces fs l) ∨
  (m.faces.get? "mixed" = none ∧ ∃ b i lb li, m.faces.get? "boundary" = some b ∧
    m.faces.get? "internal" = some i ∧ IsFaces b lb ∧ IsFaces i li ∧ l = lb ++ li)

/-- The mesh is one the format can hold: faces of one to four nodes, no cell number above the last cell,
which has a face; one value per node in each coordinate; marks with distinct names, each a range of
faces; the name of the internal zone is not used for something else. -/
structure Storable (m : Mesh F64) (l : List Face) : Prop where
  faces : MeshFaces m l
  nodesPerFace : ∀ f ∈ l, 1 ≤ f.1.length ∧ f.1.length ≤ 4
  cells : ∀ f ∈ l, f.2.1 < m.ncell ∧ f.2.2 < m.ncell
  lastCell : ∃ f ∈ l, f.2.1 = (m.ncell : Int) - 1 ∨ f.2.2 = (m.ncell : Int) - 1
  coords : ∀ x y z, m.coords = some (x, y, z) → x.length = m.nnode ∧ y.length = m.nnode ∧ z.length = m.nnode
  markKeys : m.bocos.keys.Nodup
  markNames : ∀ p ∈ m.bocos, p.2.type ≠ "internal" → p.1 ≠ "internal-domain"
  markRanges : ∀ p ∈ m.bocos, p.2.type ≠ "internal" → ∃ a b, p.2.index = .range a b ∧ 0 ≤ a ∧
    a ≤ (l.length : Int) ∧ b < (l.length : Int)

/-- Degrees of freedom per cell that a version can store. -/
def dofOf (v : Ver) (c : CellSet) : Int :=
  match v with
  | .v2 => 1
  | .v3 => (c.attrs.map (·.ndof)).getD 1

/-- The data are scalars, vectors or tensors at the nodes and cells of the mesh, under distinct names;
cell data need the number of cells to differ from the numbers of nodes and faces, the only means the
reader has to tell the location of an array. -/
structure DataStorable (v : Ver) (f : FullMesh) (m : Mesh F64) : Prop where
  nodeKeys : f.nodes.keys.Nodup
  cellKeys : f.cells.data.keys.Nodup
  nodes : ∀ p ∈ f.nodes, GoodArr m.nnode p.2
  cells : ∀ p ∈ f.cells.data, GoodArr (dofOf v f.cells * m.ncell).toNat p.2
  someNode : f.nodes ≠ [] → 0 < m.nnode
  someCell : f.cells.data ≠ [] → 0 < m.ncell ∧ 1 ≤ dofOf v f.cells ∧ m.ncell ≠ m.nnode ∧ m.ncell ≠ m.nface

/-- Periodic data completed to 16 values. -/
def perio16 (b : Mark) : List F64 := b.perio.getD [] ++ List.replicate (16 - (b.perio.getD []).length) 0

/-- The mesh read again: same counts, coordinates, faces (nodes and cells), marks and partition. The only
other mark is the zone of the internal faces. -/
structure SameMesh (f : FullMesh) (m : Mesh F64) (l : List Face) (g : FullMesh) : Prop where
  ncell : g.mesh.ncell = m.ncell
  nnode : g.mesh.nnode = m.nnode
  nface : g.mesh.nface = m.nface
  count : m.nface = l.length
  coords : g.mesh.coords = m.coords
  faces : MeshFaces g.mesh l
  marks : ∀ name b, m.bocos.get? name = some b → b.type ≠ "internal" →
    g.mesh.bocos.get? name = some ⟨name, .bdface, b.type, b.index, some (perio16 b)⟩
  internal : ∃ a, g.mesh.bocos.get? "internal-domain" =
    some ⟨"internal-domain", .intface, "internal", .range a ((l.length : Int) - 1), some (List.replicate 16 0)⟩
  others : ∀ name, name ∈ g.mesh.bocos.keys →
    name = "internal-domain" ∨ ∃ b, m.bocos.get? name = some b ∧ b.type ≠ "internal"
  part : ∃ n icv, g.partition = some (some ⟨some n, .arr icv⟩) ∧ icv.length = m.ncell ∧
    match f.partition with
    | some (some p) => n = p.npart.getD 1 ∧ (∀ q, p.icvpart = .arr q → icv = q) ∧
        (p.icvpart = .missing → icv = List.replicate m.ncell 0)
    | _ => n = 1 ∧ icv = List.replicate m.ncell 0

/-- The data and parameters read again: under the same names, the cell arrays and the node scalars that
were written, in the form the file keeps them (`stored`: doubles unchanged, V3 also keeps integer
scalars), and nothing else; the iteration, time step and time. More than one degree of freedom per cell
is announced by the attributes of the cell data. -/
structure SameData (v : Ver) (cv : Conv) (f g : FullMesh) : Prop where
  cells : ∀ name, g.cells.data.get? name = (f.cells.data.get? name).map (stored v cv)
  nodes : ∀ name, g.nodes.get? name =
    ((f.nodes.get? name).filter fun a => decide (a.shape.length = 1)).map (stored v cv)
  dof : f.cells.data ≠ [] → ∃ a, g.cells.attrs = some a ∧ a.ndof = dofOf v f.cells ∧
    a.xrep = if 1 < dofOf v f.cells then "spectralcell" else "cellaverage"
  step : ∀ n, f.params.get? "step" = some (.int n) → g.params.get? "step" = some (.int n)
  dt : ∀ x, f.params.get? "dt" = some (.f64 x) → g.params.get? "dt" = some (.f64 x)
  time : ∀ x, f.params.get? "time" = some (.f64 x) → g.params.get? "time" = some (.f64 x)

/-- Faces designated by the marks of the mesh that are written as zones, in mark order. -/
def zoneItems (m : Mesh F64) : List Int :=
  (m.bocos.filter fun p => decide (p.2.type ≠ "internal")).flatMap fun p => markItems p.2

end Cfd.Spec.Ic3

import Verif.Spec.Ic3Writes

/-!
Specification of the copy of an IC3 file: what the mesh written from a file that was read must keep.
-/

namespace Cfd.Spec.Ic3
open Cfd.Ic3

/-- What the reader does not check and the writer of version `v` relies on. -/
structure Copyable (v : Ver) (f : FullMesh) : Prop where
  /-- numbers on 32 bits -/
  counts : Small f.mesh.nnode ∧ Small f.mesh.ncell ∧ Small f.mesh.nface
  /-- the zones of boundary faces are ranges of existing faces, none has the name of the internal zone -/
  zones : ∀ p ∈ f.mesh.bocos, p.2.type ≠ "internal" → p.1 ≠ "internal-domain" ∧
    ∀ a b, p.2.index = .range a b → 0 ≤ a ∧ a ≤ (f.mesh.nface : Int) ∧ b < (f.mesh.nface : Int)
  /-- the partition is complete -/
  part : ∃ n l, f.partition = some (some ⟨some n, .arr l⟩)
  /-- the iteration is an integer, no parameter is called `WGT` -/
  step : ∃ n, f.params.get? "step" = some (.int n)
  wgt : f.params.get? "wgt" = some (.wgts [])
  /-- all cell data have the same number of degrees of freedom, which the version can hold -/
  rows : ∀ p ∈ f.cells.data, p.2.shape.head? = some (dofOf v f.cells * f.mesh.ncell).toNat
  dof : f.cells.data ≠ [] → dofOf v f.cells < 2 ^ 20
  /-- if the cell data are all tensors: as many cells as nodes, or as faces, is not possible -/
  tensors : f.cells.data ≠ [] → (∀ p ∈ f.cells.data, p.2.shape.length = 3) →
    f.mesh.ncell ≠ f.mesh.nnode ∧ f.mesh.ncell ≠ f.mesh.nface

/-- `g` has the same mesh and the same data as `f`, as version `v` holds them. -/
structure Kept (v : Ver) (cv : Conv) (f g : FullMesh) : Prop where
  ncell : g.mesh.ncell = f.mesh.ncell
  nnode : g.mesh.nnode = f.mesh.nnode
  nface : g.mesh.nface = f.mesh.nface
  coords : g.mesh.coords = f.mesh.coords
  /-- the same faces in the same order: nodes and cells -/
  faces : ∃ l, MeshFaces f.mesh l ∧ MeshFaces g.mesh l
  /-- the same zones of boundary faces: name, type, faces, periodicity -/
  zones : ∀ name b, b.type ≠ "internal" → (g.mesh.bocos.get? name = some b ↔ f.mesh.bocos.get? name = some b)
  /-- one zone of internal faces, to the last face -/
  internal : ∃ a, g.mesh.bocos.get? "internal-domain" =
    some ⟨"internal-domain", .intface, "internal", .range a ((f.mesh.nface : Int) - 1), some (List.replicate 16 0)⟩
  single : ∀ name b, g.mesh.bocos.get? name = some b → b.type = "internal" → name = "internal-domain"
  part : g.partition = f.partition
  cells : ∀ name, g.cells.data.get? name = (f.cells.data.get? name).map (stored v cv)
  nodes : ∀ name, g.nodes.get? name = (f.nodes.get? name).map (stored v cv)
  dof : f.cells.data ≠ [] → ∃ a, g.cells.attrs = some a ∧ a.ndof = dofOf v f.cells
  step : g.params.get? "step" = f.params.get? "step"
  dt : ∀ x, f.params.get? "dt" = some (.f64 x) → g.params.get? "dt" = some (.f64 x)
  time : ∀ x, f.params.get? "time" = some (.f64 x) → g.params.get? "time" = some (.f64 x)

end Cfd.Spec.Ic3

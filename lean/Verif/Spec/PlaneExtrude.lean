import Verif.Spec.PlaneValues
import Verif.Spec.Extrude

/-! # Plane meshes of quadrangles and the centers of hexahedra -/

namespace Cfd.Spec.PlaneExtrude
open Cfd.Spec.Vtk Cfd.Spec.PlaneValues

/-- Mean of numbers. -/
noncomputable def mean (l : List ℝ) : ℝ := l.sum / l.length

/-- Center of points. -/
noncomputable def center (l : List (ℝ × ℝ × ℝ)) : ℝ × ℝ × ℝ := (mean (l.map (·.1)), mean (l.map (·.2.1)), mean (l.map (·.2.2)))

/-- Centers of the cells of a grid. For hexahedra, `cell_centers` of VTK is the image of the middle of the parametric cube, where the
eight shape functions are equal: the mean of the points. -/
noncomputable def centers (g : Vtk.Grid (ℝ × ℝ × ℝ)) : List (ℝ × ℝ × ℝ) :=
  g.items.map fun c => center (c.2.filterMap (pointAt g))

/-- First two coordinates of the centers, as the default `splitcoords` of `vtk_zconvolution`. -/
noncomputable def centersXY (g : Vtk.Grid (ℝ × ℝ × ℝ)) : List (ℝ × ℝ) := (centers g).map fun p => (p.1, p.2.1)

/-- Third coordinate of the centers. -/
noncomputable def centersZ (g : Vtk.Grid (ℝ × ℝ × ℝ)) : List ℝ := (centers g).map (·.2.2)

/-- The middle of a quadrangle given by node numbers. -/
noncomputable def middle (pts : List (ℝ × ℝ)) (q : List Int) : ℝ × ℝ :=
  (mean ((q.filterMap fun v => pts[v.toNat]?).map (·.1)), mean ((q.filterMap fun v => pts[v.toNat]?).map (·.2)))

/-- The corners of a quadrangle at some height. -/
def cornersAt (pts : List (ℝ × ℝ)) (z : ℝ) (q : List Int) : List (Option (ℝ × ℝ × ℝ)) :=
  q.map fun v => pts[v.toNat]?.map fun p => (p.1, p.2, z)

/-- `n + 1` heights from `a` with step `e`. -/
noncomputable def regular (n : Nat) (a e : ℝ) : List ℝ := (List.range (n + 1)).map fun k : Nat => a + k * e

/-- A mesh of the quadrangles `quads` on the points `pts` of the plane of height `level`, with marks on nodes only. -/
structure PlaneQuads (m : Mesh ℝ) (c : ElemConn) (pts : List (ℝ × ℝ)) (level : ℝ) (quads : List (List Int)) : Prop where
  coords : m.coords = some (pts.map (·.1), pts.map (·.2), pts.map fun _ => level)
  nnode : m.nnode = pts.length
  cells : m.cell2node = some c
  wf : ConnWF c
  types : c.tbl.keys = ["quad4"]
  rows : rowsOfType c "quad4" = quads
  some : quads ≠ []
  corners : ∀ q ∈ quads, q.length = 4 ∧ ∀ v ∈ q, 0 ≤ v ∧ v < pts.length
  marks : ∀ p ∈ m.bocos, p.1 = p.2.name ∧ p.2.index ≠ .unset ∧ p.2.geodim ∈ [GeoDim.node, GeoDim.intnode, GeoDim.bdnode]
  names : m.bocos.keys.Nodup

end Cfd.Spec.PlaneExtrude

import Verif.Model.Ic3Object
import Verif.Spec.Mesh
import Verif.Spec.Faces

/-!
# Specification: meshes given to the IC3 writers (C79)
-/

namespace Cfd.Spec

/-- All marks have an index, the boundary faces (if any) are numbered from 0 with one row of cells each, and a mesh without faces has
cells. -/
structure GivenMesh {R : Type} (m : Mesh R) : Prop where
  marks : MarksSet m
  boundary : ∀ fs, m.faces.get? "boundary" = some fs → ∃ rows, FaceSetWF fs rows
  cells : m.faces = [] → ∀ c, m.cell2node = some c → ConnWF c ∧ c.tbl ≠ []

end Cfd.Spec

import Verif.Model.VtkObject

/-!
# Specification of the history of a `vtkMesh` object (C77)
-/

namespace Cfd.Spec.VtkObject
open Cfd.VtkObject Vtk

variable {R : Type}

/-- The grid given last, in a history with the latest operation first. A mesh that could not be converted or a file that could not
be read leaves no grid. -/
def current : List (Op R) → Option (Grid (R × R × R))
  | [] => none
  | .setMesh m :: _ => (Vtk.setMesh m).toOption
  | .setPvmesh g :: _ => some g
  | .read file :: _ => file.toOption
  | .volumes :: earlier => current earlier

/-- Were the volumes asked since the last grid was given? -/
def asked : List (Op R) → Bool
  | .volumes :: _ => true
  | _ => false

end Cfd.Spec.VtkObject

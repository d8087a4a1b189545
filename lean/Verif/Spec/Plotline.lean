import Verif.Model.Plotline
import Verif.Spec.Probes

/-!
# Specification of maps of probe lines (C75)
-/

namespace Cfd.Spec.Probes
open Cfd.Probes

variable {F : Type}

/-- The file of a variable. -/
def fileOf (fs : String → Option (Raw F)) (pre : String) (var : String) : Option (Raw F) := fs (pre ++ "." ++ var)

/-- All files of physical variables have the times `t` in their second column. -/
def SameTimes (file : String → Option (Raw F)) (t : List F) : Prop :=
  ∀ k rows, file k = some (.arr (.mat rows)) → ¬ isCoordinate k → rows.map (fun r => r[1]?) = t.map some

/-- What the map of a variable needs from the files: the variable and the coordinate on the axis have values of the same points, the
lines of all files are at the times `t`. -/
structure CanMap (N : PhyNum F) (file : String → Option (Raw F)) (data axis : String) (x t : List F) (rows : List (List F)) : Prop where
  files : Consistent N [] file (.mat rows.length x.length)
  times : SameTimes file t
  size : 2 ≤ rows.length ∧ 2 ≤ x.length
  physical : ¬ isCoordinate data
  data : HasValue N [] file data (.mat rows)
  coordinate : isCoordinate axis
  axis : HasValue N [] file axis (.vec x)

end Cfd.Spec.Probes

import Verif.Model.Ic3Retry
import Verif.Spec.Ic3Cells

/-!
# Trying again after a refusal (C82)
-/

namespace Cfd.Spec.Ic3
open Cfd.Ic3

/-- What the caller sees of an attempt: the mesh, or the exception. -/
def seen {α : Type} (s : Left α) : Py α :=
  match s.2 with
  | .ok () => .ok s.1
  | .error e => .error e

/-- The mesh without some of its marks. -/
def without {R : Type} (names : List String) (m : Mesh R) : Mesh R :=
  { m with bocos := m.bocos.filter fun p => decide (p.1 ∉ names) }

/-- A boundary face of the cells with all its nodes in the mark. -/
def HoldsBoundaryFace (tbl : FaceTable) (c : ElemConn) (b : Mark) : Prop :=
  ∃ o ∈ facesOfCells tbl c, (facesOn tbl c o.1).length = 1 ∧ ∀ n ∈ o.1, n ∈ markItems b

/-- Nothing was written. -/
def Refused : Output → Prop
  | .legacy r => ∃ e, r = (none, .error e)
  | .v4 r => ∃ e, r = .error e

end Cfd.Spec.Ic3

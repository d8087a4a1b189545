import Verif.Spec.Mesh

/-! # Notions used by the exact conditions for C07, C16 and C17 -/

namespace Cfd.Spec

variable {R : Type}

/-- Connectivities with the shift that the code gives them: the number of elements of the previous one. -/
def withShifts (l : List ElemConn) : List (Int × ElemConn) :=
  ((0 : Int) :: l.map fun c => ((elements c).length : Int)).zip l

/-- A mark of another name than `name` has face `i`. -/
def MarkedElse (m : Mesh R) (name : String) (i : Int) : Prop := ∃ p ∈ m.bocos, p.1 ≠ name ∧ i ∈ markItems p.2

/-- The verdict of the `n`-th check of a history of checks (from 0). -/
def verdict (so : List Int → List Int) (m : Mesh R) (n : Nat) : Py Bool :=
  (((fun m => (Mesh.check so m).2)^[n] m).check so).1

/-- A mesh whose verdict depends on its marks only. -/
structure Checkable (m : Mesh R) (fs : FaceSet) : Prop where
  cells : m.ncell ≠ 0
  nodes : m.nnode ≠ 0
  conn : ∀ c, m.cell2node = some c → m.ncell = c.nelem
  faces : m.faces.get? "boundary" = some fs
  wf : ConnWF fs.f2n
  set : MarksSet m
  onFaces : MarksOnFaces m
  names : m.bocos.keys.Nodup

end Cfd.Spec

import Verif.Model.Mesh
import Verif.Spec.Faces

/-! Specification vocabulary for meshes, face sets and marks. -/

namespace Cfd.Spec

/-- What a mark designates (faces or nodes). -/
def markItems (b : Mark) : List Int :=
  match b.index.toList with
  | .ok l => l
  | .error _ => []

/-- Everything designated by the marks of a mesh, in mark order. -/
def marked {R : Type} (m : Mesh R) : List Int := m.bocos.flatMap fun p => markItems p.2

/-- All marks have an index. -/
def MarksSet {R : Type} (m : Mesh R) : Prop := ∀ p ∈ m.bocos, p.2.index ≠ .unset

/-- All marks are on faces. -/
def MarksOnFaces {R : Type} (m : Mesh R) : Prop :=
  ∀ p ∈ m.bocos, p.2.geodim = .face ∨ p.2.geodim = .bdface

/-- A set of faces numbered 0..n-1 with one row of two cells per face. -/
structure FaceSetWF (fs : FaceSet) (rows : List (Int × Int)) : Prop where
  conn : ConnWF fs.f2n
  numbering : ValidNumbering (allIndices fs.f2n)
  f2c : fs.f2c = some (some rows)
  length : rows.length = (elements fs.f2n).length

/-- `(c, rows)` holds the faces of `b` with unchanged index, then those of `i` shifted by the number of
faces of `b`; row k of `rows` is the row of the face of index k in its own table. -/
structure MixedAligned (b i : FaceSet) (rb ri : List (Int × Int)) (c : ElemConn)
    (rows : List (Int × Int)) : Prop where
  conn : ConnWF c
  numbering : ValidNumbering (allIndices c)
  length : rows.length = (elements c).length
  faces : (elements c).Perm (elements b.f2n ++
    (elements i.f2n).map fun x => (x.1, x.2.1 + ((elements b.f2n).length : Int), x.2.2))
  boundary : ∀ x ∈ elements b.f2n, rows[x.2.1.toNat]? = rb[x.2.1.toNat]?
  internal : ∀ x ∈ elements i.f2n,
    rows[(x.2.1 + ((elements b.f2n).length : Int)).toNat]? = ri[x.2.1.toNat]?

/-- A function standing for the iteration order of a Python set: it only reorders. -/
def Reorders (so : List Int → List Int) : Prop := ∀ l, (so l).Perm l

end Cfd.Spec

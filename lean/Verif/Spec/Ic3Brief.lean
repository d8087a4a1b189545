import Verif.Spec.Ic3Round

/-!
Specification of what `ic3brief` lists of a file written from a mesh: one line per section.
-/

namespace Cfd.Spec.Ic3
open Cfd.Ic3

/-- The averaging weights of a mesh. -/
def weightsOf (f : FullMesh) : Dict String F64 :=
  match f.params.get? "wgt" with
  | some (.wgts d) => d
  | _ => []

/-- An integer scalar is only kept as such by V3. -/
def keptInt (v : Ver) (a : NpArr) : Bool := decide (v = .v3) && isI64 a

/-- Names and codes of the sections of the file: the mesh, one zone per mark of the completed mesh `m` that is not an
internal zone, the parameters, then the data: scalars and vectors at nodes, scalars, vectors and tensors in cells. -/
def sections (v : Ver) (f : FullMesh) (m : Mesh F64) : List (String × Int) :=
  [("NO_FA_CV_NOOFA_COUNTS", 10)] ++
  (if v = .v2 then [("NO_CHECK", 30), ("FA_CHECK", 20), ("CV_CHECK", 40)] else []) ++
  [("NOOFA_I_AND_V", 21), ("CVOFA", 22)] ++
  ((m.bocos.filter fun p => decide (p.2.type ≠ "internal")).map fun p => (p.1, 23)) ++
  [("internal-domain", 23), ("CV_PART", 41), ("X_NO", 31), ("DATA", 50), ("STEP", 11), ("DT", 12),
   ("TIME", 12)] ++
  ((weightsOf f).map fun p => (p.1.toUpper ++ "_WGT", 12)) ++
  ((f.nodes.filter fun p => Scalar p.2).map fun p => (p.1, if keptInt v p.2 then 34 else 32)) ++
  ((f.nodes.filter fun p => decide (p.2.shape.length = 2)).map fun p => (p.1, 33)) ++
  ((f.cells.data.filter fun p => Scalar p.2).map fun p => (p.1, if keptInt v p.2 then 45 else 42)) ++
  ((f.cells.data.filter fun p => decide (p.2.shape.length = 2)).map fun p => (p.1, 43)) ++
  ((f.cells.data.filter fun p => decide (p.2.shape.length = 3)).map fun p => (p.1, 44)) ++
  [("EOF", 51)]

end Cfd.Spec.Ic3

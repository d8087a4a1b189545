import Verif.Model.Ic3Writer
import Verif.Spec.Ic3Copy
import Verif.Spec.Bytes

/-!
# Specification of replaced meshes (C80)
-/

namespace Cfd.Spec

/-- The same mesh with other positions of its nodes. -/
def replaced {R S : Type} (m : Mesh R) (c : Option (List S × List S × List S)) : Mesh S :=
  ⟨m.ncell, m.nnode, m.nface, m.cell2node, m.faces, c, m.bocos⟩

/-- The same mesh and data with other positions of the nodes. -/
def replacedFull (f : Ic3.FullMesh) (c : List F64 × List F64 × List F64) : Ic3.FullMesh := { f with mesh := replaced f.mesh (some c) }

/-- One position for each node. -/
def Positions {R : Type} (n : Nat) (c : List R × List R × List R) : Prop := c.1.length = n ∧ c.2.1.length = n ∧ c.2.2.length = n

/-- The bytes of the positions: node after node, its three coordinates as doubles. -/
def positionBytes (o : Order) (c : List F64 × List F64 × List F64) : Bytes :=
  f64sBytes o ((c.1.zip (c.2.1.zip c.2.2)).flatMap fun p => [p.1, p.2.1, p.2.2])

/-- A function of `morph` gives as many positions as it is given. -/
def KeepsCount {R : Type} (move : List R → List R → List R → List R × List R × List R) : Prop :=
  ∀ n x y z, Positions n (x, y, z) → Positions n (move x y z)

end Cfd.Spec

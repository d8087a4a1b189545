import Verif.Model.Extrude
import Verif.Spec.Mesh

/-! Specification of extruded meshes. -/

namespace Cfd.Spec

/-- Surface (or lower) elements: number of nodes, and the element swept by a translation. The name
given to the triangular prism is the one of the code (see C13). -/
def swept : String → Option (Nat × String)
  | "node1" => some (1, "bar2")
  | "bar2" => some (2, "quad4")
  | "tri3" => some (3, "penta6")
  | "quad4" => some (4, "hexa8")
  | _ => none

/-- Nodes of the element swept between planes `k` and `k+1`, for planes of `N` nodes. -/
def sweptNodes (N k : Nat) (v : List Int) : List Int :=
  v.map (fun (i : Int) => i + k * N) ++ v.map (fun (i : Int) => i + (k + 1) * N)

/-- Coordinates of node `i`. -/
def nodeAt {R : Type} (m : Mesh R) (i : Nat) : Option (R × R × R) :=
  match m.coords with
  | none => none
  | some (x, y, z) =>
    match x[i]?, y[i]?, z[i]? with
    | some a, some b, some c => some (a, b, c)
    | _, _, _ => none

/-- `p + s d`. -/
def translate {R : Type} [Add R] [Mul R] (p d : R × R × R) (s : R) : R × R × R :=
  (p.1 + s * d.1, p.2.1 + s * d.2.1, p.2.2 + s * d.2.2)

/-- A mesh made of surface cells, with a position for each node and node marks only. -/
structure Extrudable {R : Type} (m : Mesh R) (c : ElemConn) : Prop where
  coords : ∃ x y z, m.coords = some (x, y, z) ∧
    x.length = m.nnode ∧ y.length = m.nnode ∧ z.length = m.nnode
  cells : m.cell2node = some c
  wf : ConnWF c
  types : ∀ p ∈ c.tbl, ∃ n x, swept p.1 = some (n, x) ∧ p.2.e2n.ncol = some n
  marks : ∀ p ∈ m.bocos, p.1 = p.2.name ∧ p.2.index ≠ .unset ∧
    p.2.geodim ∈ [GeoDim.node, GeoDim.intnode, GeoDim.bdnode]
  names : m.bocos.keys.Nodup

end Cfd.Spec

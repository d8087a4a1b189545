import Verif.Spec.Cube
import Verif.Lemmas.Extrude
import Mathlib.Tactic.Ring
import Mathlib.Tactic.Linarith

/-! Lemmas on structured grids. -/

namespace Cfd
open Spec ElemConn

theorem range_blocks (a b : Nat) :
    ((List.range a).flatMap fun i => (List.range b).map fun j => j + b * i) = List.range (a * b) := by
  induction a with
  | zero => simp
  | succ a ih =>
    rw [List.range_succ, List.flatMap_append, ih]
    simp only [List.flatMap_cons, List.flatMap_nil, List.append_nil]
    rw [Nat.succ_mul, List.range_add]
    congr 1
    apply List.map_congr_left
    intro j _
    rw [Nat.mul_comm b a, Nat.add_comm]

theorem product_numbers (a b c : Nat) :
    (Cube.product (List.range a) (List.range b) (List.range c)).map
      (fun p => p.2.2 + c * (p.2.1 + b * p.1)) = List.range (a * b * c) := by
  rw [← range_blocks (a * b) c, ← range_blocks a b]
  unfold Cube.product
  simp only [List.map_flatMap, List.map_map, List.flatMap_assoc, List.flatMap_map, Function.comp_def]

theorem mem_product {a b c : List Nat} {p : Ijk} :
    p ∈ Cube.product a b c ↔ p.1 ∈ a ∧ p.2.1 ∈ b ∧ p.2.2 ∈ c := by
  obtain ⟨i, j, k⟩ := p
  unfold Cube.product
  simp only [List.mem_flatMap, List.mem_map, Prod.mk.injEq]
  constructor
  · rintro ⟨i', hi, j', hj, k', hk, rfl, rfl, rfl⟩
    exact ⟨hi, hj, hk⟩
  · rintro ⟨hi, hj, hk⟩
    exact ⟨i, hi, j, hj, k, hk, rfl, rfl, rfl⟩

theorem length_product (a b c : List Nat) :
    (Cube.product a b c).length = a.length * (b.length * c.length) := by
  unfold Cube.product
  rw [length_flatMap_const _ _ (b.length * c.length)]
  intro i _
  rw [length_flatMap_const _ _ c.length]
  simp

/-- Points of the grid of nodes. -/
def nodeDims (c : Cube) : Ijk := (c.nx + 1, c.ny + 1, c.nz + 1)

/-- Cells of the grid. -/
def cellDims (c : Cube) : Ijk := (c.nx, c.ny, c.nz)

theorem mem_nodesIjk {c : Cube} {p : Ijk} : p ∈ c.nodesIjk ↔ InGrid (nodeDims c) p := by
  unfold Cube.nodesIjk InGrid nodeDims
  rw [mem_product]; simp

theorem mem_elemIjk {c : Cube} {p : Ijk} : p ∈ c.elemIjk ↔ InGrid (cellDims c) p := by
  unfold Cube.elemIjk InGrid cellDims
  rw [mem_product]; simp

theorem nodes_numbers (c : Cube) : c.nodesIjk.map c.nodeIndex = List.range c.nnode :=
  product_numbers _ _ _

theorem elems_numbers (c : Cube) : c.elemIjk.map c.elemIndex = List.range c.ncell :=
  product_numbers _ _ _

theorem inj_of_map_range {α : Type} {l : List α} {f : α → Nat} {n : Nat}
    (h : l.map f = List.range n) : ∀ a ∈ l, ∀ b ∈ l, f a = f b → a = b := by
  have hnd : (l.map f).Nodup := by rw [h]; exact List.nodup_range
  exact List.inj_on_of_nodup_map hnd

theorem nodeIndex_inj {c : Cube} {p q : Ijk} (hp : InGrid (nodeDims c) p) (hq : InGrid (nodeDims c) q)
    (h : c.nodeIndex p = c.nodeIndex q) : p = q :=
  inj_of_map_range (nodes_numbers c) p (mem_nodesIjk.2 hp) q (mem_nodesIjk.2 hq) h

theorem elemIndex_inj {c : Cube} {p q : Ijk} (hp : InGrid (cellDims c) p) (hq : InGrid (cellDims c) q)
    (h : c.elemIndex p = c.elemIndex q) : p = q :=
  inj_of_map_range (elems_numbers c) p (mem_elemIjk.2 hp) q (mem_elemIjk.2 hq) h

theorem nodup_elemIjk (c : Cube) : c.elemIjk.Nodup := by
  have : (c.elemIjk.map c.elemIndex).Nodup := by rw [elems_numbers]; exact List.nodup_range
  exact this.of_map _

theorem nodesIjk_getElem {c : Cube} {p : Ijk} (hp : InGrid (nodeDims c) p) :
    c.nodesIjk[c.nodeIndex p]? = some p := by
  obtain ⟨i, hi, hpi⟩ := List.mem_iff_getElem.1 (mem_nodesIjk.2 hp)
  have h1 : (c.nodesIjk.map c.nodeIndex)[i]? = some (c.nodeIndex p) := by
    rw [List.getElem?_map, List.getElem?_eq_getElem hi, hpi]; rfl
  rw [nodes_numbers, List.getElem?_eq_some_iff] at h1
  obtain ⟨h2, h3⟩ := h1
  rw [List.getElem_range] at h3
  rw [← h3, List.getElem?_eq_getElem hi, hpi]

/-- The cells of the exported mesh. -/
def cubeConn (c : Cube) : ElemConn :=
  ⟨c.elemIjk.length, [("hexa8", ⟨.list (c.elemIjk.map fun p => (c.elemIndex p : Int)),
    ⟨some 8, c.elemIjk.map c.hexaNodes⟩⟩)]⟩

/-- The marks of the exported mesh. -/
def cubeMarks (c : Cube) : Dict String Mark :=
  c.marks.map fun q =>
    (q.1, ⟨q.1, .bdnode, "boundary", .list (q.2.map fun p => (c.nodeIndex p : Int)), none⟩)

/-- The exported mesh. -/
def cubeMesh {R : Type} [Div R] [NatCast R] (c : Cube) : Mesh R :=
  { ncell := c.elemIjk.length, nnode := c.nnode, nface := 0, cell2node := some (cubeConn c), faces := []
    coords := some (c.nodesIjk.map fun p => (p.1 : R) / (c.nx : R),
      c.nodesIjk.map fun p => (p.2.1 : R) / (c.ny : R),
      c.nodesIjk.map fun p => (p.2.2 : R) / (c.nz : R))
    bocos := cubeMarks c }

theorem exportMesh_eq {R : Type} [Div R] [NatCast R] (c : Cube) (h : c.elemIjk ≠ []) :
    (c.exportMesh : Py (Mesh R)) = .ok (cubeMesh c) := by
  unfold Cube.exportMesh Cube.elems
  rw [if_neg h]
  have hlen : c.nodesIjk.length = c.nnode := by
    have := congrArg List.length (nodes_numbers c)
    simpa using this
  have ha : ElemConn.empty.addElems "hexa8" ⟨some 8, c.elemIjk.map c.hexaNodes⟩
      (some (.list (c.elemIjk.map fun p => (c.elemIndex p : Int)))) = .ok (cubeConn c) := by
    simp [addElems, ElemConn.empty, Dict.get?, Dict.set, newIndex, cubeConn]
  simp only [Except_bind_ok, ha]
  have hs : ∀ m : Mesh R, m.nnode = c.nnode → m.setCoords (c.nodesIjk.map fun p => (p.1 : R) / (c.nx : R))
    (c.nodesIjk.map fun p => (p.2.1 : R) / (c.ny : R))
    (c.nodesIjk.map fun p => (p.2.2 : R) / (c.nz : R)) = .ok { m with coords := some (c.nodesIjk.map fun p => (p.1 : R) / (c.nx : R),
      c.nodesIjk.map fun p => (p.2.1 : R) / (c.ny : R),
      c.nodesIjk.map fun p => (p.2.2 : R) / (c.nz : R)) } := by
    intro m hm
    unfold Mesh.setCoords
    simp only [List.length_map, hlen, hm]
    rfl
  rw [hs _ rfl]
  rfl

theorem cubeConn_entry (c : Cube) : ∀ p ∈ (cubeConn c).tbl, EntryWF p.2 := by
  intro p hp
  simp only [cubeConn, List.mem_singleton] at hp
  subst hp
  refine ⟨⟨_, rfl, by simp⟩, ?_⟩
  simp only [Arr2.WF]
  intro r hr
  obtain ⟨q, _, rfl⟩ := List.mem_map.1 hr
  rfl

theorem cubeConn_elements (c : Cube) : elements (cubeConn c) =
    c.elemIjk.map fun p => ("hexa8", (c.elemIndex p : Int), c.hexaNodes p) := by
  simp only [elements, cubeConn, List.flatMap_cons, List.flatMap_nil, List.append_nil, indicesOf,
    IndexList.toList]
  rw [List.zip_map', List.map_map]
  rfl

theorem cubeConn_wf (c : Cube) : ConnWF (cubeConn c) :=
  ⟨by simp [cubeConn, Dict.keys], cubeConn_entry c, by rw [cubeConn_elements]; simp [cubeConn]⟩

end Cfd

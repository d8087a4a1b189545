import Verif.Lemmas.CubeFaces
import Verif.Props.Mesh
import Verif.Props.Extrude

/-! # Structured cubes (C23, C24) -/

namespace Cfd
open Spec ElemConn

/-! ## C23 -/

/-- C23: the node and cell numbers of a grid point are a bijection onto `0..n-1`. -/
theorem C23_numbering (c : Cube) :
    ((∀ p, InGrid (c.nx + 1, c.ny + 1, c.nz + 1) p → c.nodeIndex p < (c.nx + 1) * (c.ny + 1) * (c.nz + 1)) ∧
      ∀ n < (c.nx + 1) * (c.ny + 1) * (c.nz + 1),
        ∃! p, InGrid (c.nx + 1, c.ny + 1, c.nz + 1) p ∧ c.nodeIndex p = n) ∧
    ((∀ p, InGrid (c.nx, c.ny, c.nz) p → c.elemIndex p < c.nx * c.ny * c.nz) ∧
      ∀ n < c.nx * c.ny * c.nz, ∃! p, InGrid (c.nx, c.ny, c.nz) p ∧ c.elemIndex p = n) := by
  refine ⟨⟨?_, ?_⟩, ?_, ?_⟩
  · intro p hp
    have h1 : c.nodeIndex p ∈ c.nodesIjk.map c.nodeIndex := List.mem_map_of_mem (mem_nodesIjk.2 hp)
    rw [nodes_numbers, List.mem_range] at h1
    exact h1
  · intro n hn
    have h1 : n ∈ c.nodesIjk.map c.nodeIndex := by rw [nodes_numbers, List.mem_range]; exact hn
    obtain ⟨p, hp, rfl⟩ := List.mem_map.1 h1
    exact ⟨p, ⟨mem_nodesIjk.1 hp, rfl⟩, fun q hq => nodeIndex_inj hq.1 (mem_nodesIjk.1 hp) hq.2⟩
  · intro p hp
    have h1 : c.elemIndex p ∈ c.elemIjk.map c.elemIndex := List.mem_map_of_mem (mem_elemIjk.2 hp)
    rw [elems_numbers, List.mem_range] at h1
    exact h1
  · intro n hn
    have h1 : n ∈ c.elemIjk.map c.elemIndex := by rw [elems_numbers, List.mem_range]; exact hn
    obtain ⟨p, hp, rfl⟩ := List.mem_map.1 h1
    exact ⟨p, ⟨mem_elemIjk.1 hp, rfl⟩, fun q hq => elemIndex_inj hq.1 (mem_elemIjk.1 hp) hq.2⟩

theorem elemIjk_ne_nil {c : Cube} (hx : 1 ≤ c.nx) (hy : 1 ≤ c.ny) (hz : 1 ≤ c.nz) : c.elemIjk ≠ [] := by
  apply List.ne_nil_of_mem (a := (0, 0, 0))
  rw [mem_elemIjk]
  simp only [InGrid, cellDims]; omega

theorem length_elemIjk (c : Cube) : c.elemIjk.length = c.nx * c.ny * c.nz := by
  have := congrArg List.length (elems_numbers c)
  simpa [Cube.ncell] using this

theorem elemIjk_getElem {c : Cube} {p : Ijk} (hp : InGrid (cellDims c) p) :
    c.elemIjk[c.elemIndex p]? = some p := by
  obtain ⟨i, hi, hpi⟩ := List.mem_iff_getElem.1 (mem_elemIjk.2 hp)
  have h1 : (c.elemIjk.map c.elemIndex)[i]? = some (c.elemIndex p) := by
    rw [List.getElem?_map, List.getElem?_eq_getElem hi, hpi]; rfl
  rw [elems_numbers, List.getElem?_eq_some_iff] at h1
  obtain ⟨h2, h3⟩ := h1
  rw [List.getElem_range] at h3
  rw [← h3, List.getElem?_eq_getElem hi, hpi]

/-- C23: the exported mesh has the announced sizes, node `nodeIndex (i,j,k)` is at
`(i/nx, j/ny, k/nz)`, and the cell of rank `elemIndex (i,j,k)` has that number and the corners of the
grid cell, in the order of the reference hexahedron (positively oriented). -/
theorem C23_mesh {R : Type} [Div R] [NatCast R] (c : Cube) (hx : 1 ≤ c.nx) (hy : 1 ≤ c.ny) (hz : 1 ≤ c.nz) :
    ∃ (m : Mesh R) (conn : ElemConn), c.exportMesh = .ok m ∧ m.cell2node = some conn ∧
      m.ncell = c.nx * c.ny * c.nz ∧ m.nnode = (c.nx + 1) * (c.ny + 1) * (c.nz + 1) ∧
      (∀ p, InGrid (c.nx + 1, c.ny + 1, c.nz + 1) p → nodeAt m (c.nodeIndex p) =
        some ((p.1 : R) / (c.nx : R), (p.2.1 : R) / (c.ny : R), (p.2.2 : R) / (c.nz : R))) ∧
      ConnWF conn ∧ (elements conn).length = m.ncell ∧
      (∀ p, InGrid (c.nx, c.ny, c.nz) p → (elements conn)[c.elemIndex p]? =
        some ("hexa8", (c.elemIndex p : Int), (cellCorners p).map fun q => (c.nodeIndex q : Int))) := by
  refine ⟨cubeMesh c, cubeConn c, exportMesh_eq c (elemIjk_ne_nil hx hy hz), rfl, length_elemIjk c, rfl,
    ?_, cubeConn_wf c, ?_, ?_⟩
  · intro p hp
    simp only [nodeAt, cubeMesh, List.getElem?_map, nodesIjk_getElem (c := c) hp, Option.map_some]
  · rw [cubeConn_elements, List.length_map]; rfl
  · intro p hp
    rw [cubeConn_elements, List.getElem?_map, elemIjk_getElem hp]
    rfl

example := C23_mesh (R := Nat) ⟨2, 1, 3⟩ (by decide) (by decide) (by decide)

/-- C23: with no cell in a direction there is no mesh. -/
theorem C23_empty {R : Type} [Div R] [NatCast R] (c : Cube) (h : c.nx = 0 ∨ c.ny = 0 ∨ c.nz = 0) :
    (c.exportMesh : Py (Mesh R)) = .error .value := by
  have : c.elemIjk = [] := by
    rw [← List.length_eq_zero_iff, length_elemIjk]
    rcases h with h | h | h <;> rw [h] <;> simp
  unfold Cube.exportMesh Cube.elems
  rw [if_pos this]; rfl

example := C23_empty (R := Nat) ⟨2, 0, 3⟩ (by decide)

/-- The reference hexahedron is positively oriented. -/
example : 0 < det3 (vsub (refNode "hexa8" 1) (refNode "hexa8" 0)) (vsub (refNode "hexa8" 3) (refNode "hexa8" 0))
    (vsub (refNode "hexa8" 4) (refNode "hexa8" 0)) := by decide

/-- The second cell of the 2 x 1 x 1 cube. -/
example : (Cube.mk 2 1 1).elemIndex (1, 0, 0) = 1 ∧
    (cellCorners (1, 0, 0)).map (Cube.mk 2 1 1).nodeIndex = [4, 8, 10, 6, 5, 9, 11, 7] := by decide

/-! ## C24 -/

/-- A grid face on the boundary of the grid. -/
def sideLabels (c : Cube) : List Label :=
  ([0, c.nx].flatMap fun i => (Cube.product [i] (List.range c.ny) (List.range c.nz)).map fun p => (Axis.x, p)) ++
  (([0, c.ny].flatMap fun j => (Cube.product (List.range c.nx) [j] (List.range c.nz)).map fun p => (Axis.y, p)) ++
  ([0, c.nz].flatMap fun k => (Cube.product (List.range c.nx) (List.range c.ny) [k]).map fun p => (Axis.z, p)))

theorem labelOk_iff {c : Cube} {F : Label} : LabelOk c F ↔
    F.1.coord F.2 ≤ cellsAlong c F.1 ∧ ∀ ax, ax ≠ F.1 → ax.coord F.2 < cellsAlong c ax := by
  obtain ⟨ax, i, j, k⟩ := F
  constructor
  · intro h
    cases ax <;> simp only [LabelOk, gridFace, Axis.next, InGrid, nodeDims, List.mem_cons, List.not_mem_nil,
      or_false, forall_eq_or_imp, forall_eq] at h <;>
      refine ⟨by simp only [Axis.coord, cellsAlong]; omega, ?_⟩ <;> intro ax hax <;>
      cases ax <;> simp only [ne_eq, not_true_eq_false, Axis.coord, cellsAlong] at hax ⊢ <;> omega
  · rintro ⟨h1, h2⟩
    have hx := h2 .x
    have hy := h2 .y
    have hz := h2 .z
    cases ax <;> simp only [ne_eq, reduceCtorEq, not_true_eq_false, not_false_eq_true, forall_const, Axis.coord,
      cellsAlong] at h1 hx hy hz <;>
      simp only [LabelOk, gridFace, Axis.next, InGrid, nodeDims, List.mem_cons, List.not_mem_nil,
      or_false, forall_eq_or_imp, forall_eq] <;> omega

theorem adjacent_length {c : Cube} {F : Label} (h : LabelOk c F) : (adjacent c F).length =
    (if F.1.coord F.2 < cellsAlong c F.1 then 1 else 0) + (if 1 ≤ F.1.coord F.2 then 1 else 0) := by
  rw [labelOk_iff] at h
  obtain ⟨ax, i, j, k⟩ := F
  obtain ⟨h1, h2⟩ := h
  have hx := h2 .x
  have hy := h2 .y
  have hz := h2 .z
  unfold adjacent
  rw [List.length_append, apply_ite List.length, apply_ite List.length]
  have e1 : InGrid (cellDims c) (i, j, k) ↔ ax.coord (i, j, k) < cellsAlong c ax := by
    cases ax <;> simp only [ne_eq, reduceCtorEq, not_true_eq_false, not_false_eq_true, forall_const, Axis.coord,
      cellsAlong, InGrid, cellDims] at h1 hx hy hz ⊢ <;> omega
  have e2 : (1 ≤ ax.coord (i, j, k) ∧ InGrid (cellDims c) (prev ax (i, j, k))) ↔ 1 ≤ ax.coord (i, j, k) := by
    cases ax <;> simp only [ne_eq, reduceCtorEq, not_true_eq_false, not_false_eq_true, forall_const, Axis.coord,
      cellsAlong, InGrid, cellDims, prev] at h1 hx hy hz ⊢ <;> omega
  congr 1
  · exact if_congr e1 rfl rfl
  · exact if_congr e2 rfl rfl

theorem nodup_product {a b c : List Nat} (ha : a.Nodup) (hb : b.Nodup) (hc : c.Nodup) :
    (Cube.product a b c).Nodup := by
  unfold Cube.product
  rw [List.nodup_flatMap]
  refine ⟨?_, ?_⟩
  · intro i _
    rw [List.nodup_flatMap]
    refine ⟨?_, ?_⟩
    · intro j _
      apply hc.map
      intro x y h; simpa using h
    · apply hb.imp
      intro j j' hne p h1 h2
      obtain ⟨k, _, rfl⟩ := List.mem_map.1 h1
      obtain ⟨k', _, h⟩ := List.mem_map.1 h2
      simp at h; exact hne h.1.symm
  · apply ha.imp
    intro i i' hne p h1 h2
    obtain ⟨j, _, h1⟩ := List.mem_flatMap.1 h1
    obtain ⟨k, _, rfl⟩ := List.mem_map.1 h1
    obtain ⟨j', _, h2⟩ := List.mem_flatMap.1 h2
    obtain ⟨k', _, h⟩ := List.mem_map.1 h2
    simp at h; exact hne h.1.symm

theorem mem_sideLabels {c : Cube} {F : Label} : F ∈ sideLabels c ↔
    (F.1.coord F.2 = 0 ∨ F.1.coord F.2 = cellsAlong c F.1) ∧
      ∀ ax, ax ≠ F.1 → ax.coord F.2 < cellsAlong c ax := by
  obtain ⟨ax, i, j, k⟩ := F
  simp only [sideLabels, List.mem_append, List.mem_flatMap, List.mem_map, List.mem_cons, List.not_mem_nil,
    or_false, mem_product, List.mem_range, exists_eq_or_imp, exists_eq_left, Prod.mk.injEq]
  cases ax <;> simp only [reduceCtorEq, false_and, and_false, exists_false, or_false, false_or, true_and,
    Axis.coord, cellsAlong]
  all_goals
    constructor
    · intro h
      rcases h with ⟨p, hp, rfl⟩ | ⟨p, hp, rfl⟩ <;> simp only at hp <;>
        refine ⟨by omega, ?_⟩ <;> intro ax hax <;>
        cases ax <;> simp only [ne_eq, not_true_eq_false] at hax ⊢ <;> omega
    · rintro ⟨h1, h2⟩
      have hx := h2 .x
      have hy := h2 .y
      have hz := h2 .z
      simp only [ne_eq, reduceCtorEq, not_true_eq_false, not_false_eq_true, forall_const] at hx hy hz
      rcases h1 with h1 | h1
      · exact Or.inl ⟨(i, j, k), by simp only; omega, rfl⟩
      · exact Or.inr ⟨(i, j, k), by simp only; omega, rfl⟩

theorem nodup_sideLabels {c : Cube} (hx : 1 ≤ c.nx) (hy : 1 ≤ c.ny) (hz : 1 ≤ c.nz) : (sideLabels c).Nodup := by
  have hax : ∀ (ax : Axis) (a b : List Ijk), a.Nodup → b.Nodup → a.Disjoint b →
      (a.map (fun p => (ax, p)) ++ b.map fun p => (ax, p)).Nodup := by
    intro ax a b ha hb hd
    rw [← List.map_append]
    apply List.Nodup.map
    · intro p q h; simpa using h
    · exact ha.append hb hd
  have hr := fun n => List.nodup_range (n := n)
  have h1 := fun n : Nat => List.nodup_singleton n
  unfold sideLabels
  simp only [List.flatMap_cons, List.flatMap_nil, List.append_nil]
  refine List.Nodup.append ?_ (List.Nodup.append ?_ ?_ ?_) ?_
  · refine hax _ _ _ (nodup_product (h1 _) (hr _) (hr _)) (nodup_product (h1 _) (hr _) (hr _)) ?_
    intro p h2 h3
    rw [mem_product] at h2 h3; simp at h2 h3; omega
  · refine hax _ _ _ (nodup_product (hr _) (h1 _) (hr _)) (nodup_product (hr _) (h1 _) (hr _)) ?_
    intro p h2 h3
    rw [mem_product] at h2 h3; simp at h2 h3; omega
  · refine hax _ _ _ (nodup_product (hr _) (hr _) (h1 _)) (nodup_product (hr _) (hr _) (h1 _)) ?_
    intro p h2 h3
    rw [mem_product] at h2 h3; simp at h2 h3; omega
  · intro p h2 h3
    simp only [List.mem_append, List.mem_map] at h2 h3
    rcases h2 with ⟨_, _, rfl⟩ | ⟨_, _, rfl⟩ <;> simp at h3
  · intro p h2 h3
    simp only [List.mem_append, List.mem_map] at h2 h3
    rcases h2 with ⟨_, _, rfl⟩ | ⟨_, _, rfl⟩ <;> simp at h3

theorem length_sideLabels (c : Cube) :
    (sideLabels c).length = 2 * (c.nx * c.ny + c.ny * c.nz + c.nx * c.nz) := by
  simp only [sideLabels, List.flatMap_cons, List.flatMap_nil, List.append_nil, List.length_append,
    List.length_map, length_product, List.length_range, List.length_cons, List.length_nil]
  ring

/-- The node sets of the boundary faces are those of the boundary labels. -/
theorem boundary_keys {c : Cube} (hx : 1 ≤ c.nx) (hy : 1 ≤ c.ny) (hz : 1 ≤ c.nz) {r : FacesResult}
    (hr : createFaces cgnsElem2faces (cubeConn c) = .ok r) :
    ((elementsOf r.boundary "quad4").map fun q => sortInts q.2).Perm
      ((sideLabels c).map fun F => sortInts (faceNodes c F)) := by
  have h08 := C08_faces_exactly_once _ cgnsTable_wf _ (cubeConn_wf c) r hr "quad4"
  have hok : ∀ F ∈ sideLabels c, LabelOk c F := by
    intro F hF
    rw [mem_sideLabels] at hF
    rw [labelOk_iff]
    exact ⟨by omega, hF.2⟩
  have hone : ∀ F, LabelOk c F → ((adjacent c F).length = 1 ↔ F ∈ sideLabels c) := by
    intro F hF
    rw [adjacent_length hF, mem_sideLabels]
    rw [labelOk_iff] at hF
    have : 1 ≤ cellsAlong c F.1 := by cases F.1 <;> simpa [cellsAlong]
    constructor
    · intro h
      refine ⟨?_, hF.2⟩
      split at h <;> split at h <;> omega
    · rintro ⟨h1, _⟩
      split <;> split <;> omega
  have hcount : ∀ n, ((elementsOf r.boundary "quad4").map fun q => sortInts q.2).count (sortInts n) =
      facesWith r.boundary "quad4" n := by
    intro n
    unfold facesWith List.count
    rw [List.countP_map]
    apply List.countP_congr
    intro q _
    simp only [Function.comp_apply, beq_iff_eq, List.isPerm_iff]
    exact sortInts_eq_iff
  rw [List.perm_ext_iff_of_nodup]
  · intro k
    constructor
    · intro hk
      obtain ⟨q, hq, rfl⟩ := List.mem_map.1 hk
      have hpos : 0 < facesWith r.boundary "quad4" q.2 := by
        unfold facesWith
        rw [List.countP_pos_iff]
        exact ⟨q, hq, by simp [List.isPerm_iff]⟩
      rw [(h08 q.2).1] at hpos
      split at hpos
      · rename_i h1
        have : 0 < occurrences cgnsElem2faces (cubeConn c) "quad4" q.2 := by omega
        unfold occurrences at this
        rw [List.countP_pos_iff] at this
        obtain ⟨o, ho, hoq⟩ := this
        rw [List.isPerm_iff] at hoq
        obtain ⟨F, hF, hFo⟩ := label_of_cellFace ho
        have hp := hoq.symm.trans hFo
        rw [occurrences_perm _ _ _ hp, occurrences_cube c F hF] at h1
        exact List.mem_map.2 ⟨F, (hone F hF).1 h1, (sortInts_eq_iff.2 hp).symm⟩
      · omega
    · intro hk
      obtain ⟨F, hF, rfl⟩ := List.mem_map.1 hk
      have h1 : occurrences cgnsElem2faces (cubeConn c) "quad4" (faceNodes c F) = 1 := by
        rw [occurrences_cube c F (hok F hF)]
        exact (hone F (hok F hF)).2 hF
      have h2 := (h08 (faceNodes c F)).1
      rw [if_pos h1, ← hcount] at h2
      exact List.count_pos_iff.1 (by omega)
  · rw [List.nodup_iff_count_le_one]
    intro k
    by_cases hk : k ∈ (elementsOf r.boundary "quad4").map fun q => sortInts q.2
    · obtain ⟨q, hq, rfl⟩ := List.mem_map.1 hk
      rw [hcount, (h08 q.2).1]
      split <;> omega
    · rw [List.count_eq_zero_of_not_mem hk]; omega
  · apply List.Nodup.map_on _ (nodup_sideLabels hx hy hz)
    intro F hF G hG h
    exact faceNodes_inj (hok F hF) (hok G hG) (sortInts_eq_iff.1 h)

theorem elements_quad {c : Cube} {r : FacesResult}
    (hr : createFaces cgnsElem2faces (cubeConn c) = .ok r) :
    (∀ x ∈ elements r.boundary, x.1 = "quad4") ∧ ∀ x ∈ elements r.internal, x.1 = "quad4" := by
  constructor
  · rintro ⟨t, k, n⟩ hx
    obtain ⟨cell, _, h⟩ := (C09_boundary_cells _ cgnsTable_wf _ (cubeConn_wf c) r hr).2 t k n hx
    by_contra hne
    rw [cellFaces_cube_other c t hne] at h
    simp at h
  · rintro ⟨t, k, n⟩ hx
    obtain ⟨c1, c2, n2, rest, _, h⟩ := (C09_internal_cells _ cgnsTable_wf _ (cubeConn_wf c) r hr).2 t k n hx
    by_contra hne
    rw [cellFaces_cube_other c t hne] at h
    simp at h

theorem elements_length_of_type {c : ElemConn} (hk : c.tbl.keys.Nodup) (t : String)
    (h : ∀ x ∈ elements c, x.1 = t) : (elements c).length = (elementsOf c t).length := by
  have h1 := elements_filter hk t
  rw [List.filter_eq_self.2 (by simpa using h)] at h1
  rw [h1, List.length_map]

/-- Every boundary face has a label on a side. -/
theorem side_of_boundary {c : Cube} (hx : 1 ≤ c.nx) (hy : 1 ≤ c.ny) (hz : 1 ≤ c.nz) {r : FacesResult}
    (hr : createFaces cgnsElem2faces (cubeConn c) = .ok r) {t : String} {k : Int} {n : List Int}
    (h : (t, k, n) ∈ elements r.boundary) : ∃ F ∈ sideLabels c, n.Perm (faceNodes c F) := by
  have ht := (elements_quad hr).1 _ h
  simp only at ht
  subst ht
  have inv := facesInv_of_ok cgnsTable_wf (cubeConn_wf c).entries hr
  have h2 := (mem_elements inv.bwf.keys).1 h
  have h3 := (boundary_keys hx hy hz hr).mem_iff.1 (List.mem_map_of_mem (f := fun q => sortInts q.2) h2)
  obtain ⟨F, hF, hFn⟩ := List.mem_map.1 h3
  exact ⟨F, hF, (sortInts_eq_iff.1 hFn).symm⟩

/-- The faces of a cube with two cells or more can be generated. -/
theorem faces_ok {c : Cube} (hx : 1 ≤ c.nx) (hy : 1 ≤ c.ny) (hz : 1 ≤ c.nz) (h2 : 2 ≤ c.nx * c.ny * c.nz) :
    ∃ r, createFaces cgnsElem2faces (cubeConn c) = .ok r ∧
      (elements r.boundary).length = 2 * (c.nx * c.ny + c.ny * c.nz + c.nx * c.nz) ∧
      2 * (elements r.internal).length + 2 * (c.nx * c.ny + c.ny * c.nz + c.nx * c.nz) =
        6 * (c.nx * c.ny * c.nz) := by
  have hconf : ∀ ft, ∀ o ∈ cellFaces cgnsElem2faces (cubeConn c) ft,
      occurrences cgnsElem2faces (cubeConn c) ft o.1 ≤ 2 := by
    intro ft o ho
    by_cases hft : ft = "quad4"
    · subst hft
      obtain ⟨F, hF, hp⟩ := label_of_cellFace ho
      rw [occurrences_perm _ _ _ hp, occurrences_cube c F hF]
      exact adjacent_length_le c F
    · rw [cellFaces_cube_other c ft hft] at ho
      simp at ho
  have hshared : ∀ ft ∈ faceTypes cgnsElem2faces (cubeConn c),
      ∃ n, occurrences cgnsElem2faces (cubeConn c) ft n = 2 := by
    intro ft hft
    rw [cubeConn_faceTypes, List.mem_singleton] at hft
    subst hft
    have key : ∀ F, LabelOk c F → F.1.coord F.2 = 1 → 2 ≤ cellsAlong c F.1 →
        ∃ n, occurrences cgnsElem2faces (cubeConn c) "quad4" n = 2 := by
      intro F hF h1 h2
      refine ⟨faceNodes c F, ?_⟩
      rw [occurrences_cube c F hF, adjacent_length hF, if_pos (by omega), if_pos (by omega)]
    have h3 : 2 ≤ c.nx ∨ 2 ≤ c.ny ∨ 2 ≤ c.nz := by
      by_contra hn
      have h1 : c.nx = 1 := by omega
      have h3 : c.ny = 1 := by omega
      have h4 : c.nz = 1 := by omega
      rw [h1, h3, h4] at h2
      omega
    rcases h3 with h3 | h3 | h3
    · refine key (.x, (1, 0, 0)) (labelOk_iff.2 ⟨?_, ?_⟩) rfl h3
      · simp only [Axis.coord, cellsAlong]; omega
      · intro ax hax
        cases ax <;> simp only [ne_eq, not_true_eq_false, Axis.coord, cellsAlong] at hax ⊢ <;> omega
    · refine key (.y, (0, 1, 0)) (labelOk_iff.2 ⟨?_, ?_⟩) rfl h3
      · simp only [Axis.coord, cellsAlong]; omega
      · intro ax hax
        cases ax <;> simp only [ne_eq, not_true_eq_false, Axis.coord, cellsAlong] at hax ⊢ <;> omega
    · refine key (.z, (0, 0, 1)) (labelOk_iff.2 ⟨?_, ?_⟩) rfl h3
      · simp only [Axis.coord, cellsAlong]; omega
      · intro ax hax
        cases ax <;> simp only [ne_eq, not_true_eq_false, Axis.coord, cellsAlong] at hax ⊢ <;> omega
  obtain ⟨r, hr, hlen⟩ := C10_conforming_accepted _ cgnsTable_wf _ (cubeConn_wf c) (cubeConn_known c)
    hconf hshared
  have inv := facesInv_of_ok cgnsTable_wf (cubeConn_wf c).entries hr
  have hq := elements_quad hr
  have hb : (elements r.boundary).length = 2 * (c.nx * c.ny + c.ny * c.nz + c.nx * c.nz) := by
    rw [elements_length_of_type inv.bwf.keys _ hq.1, ← length_sideLabels]
    have := (boundary_keys hx hy hz hr).length_eq
    simpa using this
  refine ⟨r, hr, hb, ?_⟩
  have h1 := hlen "quad4"
  rw [← elements_length_of_type inv.bwf.keys _ hq.1, ← elements_length_of_type inv.iwf.keys _ hq.2,
    cellFaces_cube, length_flatMap_const _ _ 6 (by rintro ⟨i, j, k⟩ _; rfl), length_elemIjk, hb] at h1
  omega

/-- Node `n` belongs to the side `(ax, v)`. -/
theorem all_in_side {c : Cube} {F : Label} (hF : LabelOk c F) (ax : Axis) (v : Nat) :
    (∀ n ∈ faceNodes c F, ∃ p, InGrid (nodeDims c) p ∧ ax.coord p = v ∧ (c.nodeIndex p : Int) = n) ↔
      F.1 = ax ∧ F.1.coord F.2 = v := by
  have h1 : (∀ n ∈ faceNodes c F, ∃ p, InGrid (nodeDims c) p ∧ ax.coord p = v ∧ (c.nodeIndex p : Int) = n) ↔
      ∀ q ∈ gridFace F.1 F.2, ax.coord q = v := by
    constructor
    · intro h q hq
      obtain ⟨p, hp, hv, hn⟩ := h _ (List.mem_map_of_mem hq)
      have : p = q := nodeIndex_inj hp (hF q hq) (by exact_mod_cast hn)
      rw [← this]; exact hv
    · intro h n hn
      obtain ⟨q, hq, rfl⟩ := List.mem_map.1 hn
      exact ⟨q, hF q hq, h q hq, rfl⟩
  rw [h1]
  obtain ⟨bx, i, j, k⟩ := F
  cases bx <;> cases ax <;> simp [gridFace, Axis.next, Axis.coord] <;> omega

theorem perm_pair {α : Type} {a b c d : α} (h : [a, b].Perm [c, d]) : a = c ∧ b = d ∨ a = d ∧ b = c := by
  have h1 : a ∈ [c, d] := h.mem_iff.1 (by simp)
  rcases List.mem_cons.1 h1 with rfl | h1
  · left
    have := List.perm_cons _ |>.1 h
    simpa using this
  · right
    rw [List.mem_singleton] at h1
    subst h1
    have h2 := h.trans (List.Perm.swap a c [])
    have := List.perm_cons _ |>.1 h2
    simpa using this

/-- The cells beside a generated face of the cube. -/
theorem cells_beside {c : Cube} {F : Label} (hF : LabelOk c F) {n : List Int} (hn : n.Perm (faceNodes c F)) :
    (((cellFaces cgnsElem2faces (cubeConn c) "quad4").filter fun o => o.1.isPerm n).map (·.2)).Perm
      ((adjacent c F).map fun p => (c.elemIndex p : Int)) := by
  have : ((cellFaces cgnsElem2faces (cubeConn c) "quad4").filter fun o => o.1.isPerm n) =
      (cellFaces cgnsElem2faces (cubeConn c) "quad4").filter fun o => o.1.isPerm (faceNodes c F) := by
    apply List.filter_congr
    intro o _
    rw [Bool.eq_iff_iff, List.isPerm_iff, List.isPerm_iff]
    exact ⟨fun h => h.trans hn, fun h => h.trans hn.symm⟩
  rw [this]
  exact cells_of_face c F hF

theorem next_prev {ax : Axis} {p : Ijk} (h : 1 ≤ ax.coord p) : ax.next (prev ax p) = p := by
  obtain ⟨i, j, k⟩ := p
  cases ax <;> simp only [Axis.coord] at h <;> simp [Axis.next, prev] <;> omega

variable {R : Type} [Div R] [NatCast R]

/-- C24: the faces of a cube of two cells or more. There are as many boundary and internal faces as
announced; an internal face is the grid face between two neighbouring cells and knows them; a boundary
face is a grid face on a side and knows its cell. -/
theorem C24_faces (c : Cube) (hx : 1 ≤ c.nx) (hy : 1 ≤ c.ny) (hz : 1 ≤ c.nz)
    (h2 : 2 ≤ c.nx * c.ny * c.nz) (m : Mesh R) (hm : c.exportMesh = .ok m) :
    ∃ (m' : Mesh R) (b i : FaceSet) (rb ri : List (Int × Int)), m.makeFaces cgnsElem2faces = .ok m' ∧
      m'.faces.get? "boundary" = some b ∧ m'.faces.get? "internal" = some i ∧
      FaceSetWF b rb ∧ FaceSetWF i ri ∧ m'.bocos = m.bocos ∧
      (elements b.f2n).length = 2 * (c.nx * c.ny + c.ny * c.nz + c.nx * c.nz) ∧
      ((elements i.f2n).length : Int) = 3 * c.nx * c.ny * c.nz - c.nx * c.ny - c.ny * c.nz - c.nx * c.nz ∧
      (∀ t k nodes, (t, k, nodes) ∈ elements i.f2n → ∃ ax p,
        InGrid (c.nx, c.ny, c.nz) p ∧ InGrid (c.nx, c.ny, c.nz) (ax.next p) ∧
        IsGridFace c nodes ax (ax.next p) ∧
        (ri[k.toNat]? = some ((c.elemIndex p : Int), (c.elemIndex (ax.next p) : Int)) ∨
         ri[k.toNat]? = some ((c.elemIndex (ax.next p) : Int), (c.elemIndex p : Int)))) ∧
      (∀ t k nodes, (t, k, nodes) ∈ elements b.f2n → ∃ ax p cell,
        InGrid (c.nx, c.ny, c.nz) cell ∧ IsGridFace c nodes ax p ∧
        (ax.coord p = 0 ∧ cell = p ∨ ax.coord p = cellsAlong c ax ∧ ax.next cell = p) ∧
        rb[k.toNat]? = some ((c.elemIndex cell : Int), -1)) := by
  have hm' : m = cubeMesh c := by
    rw [exportMesh_eq c (elemIjk_ne_nil hx hy hz)] at hm
    simpa using hm.symm
  subst hm'
  obtain ⟨r, hr, hb, hi⟩ := faces_ok hx hy hz h2
  have hwf := faceSetWF_generated cgnsTable_wf (cubeConn_wf c) (by simp [cubeConn]) hr
  have hmk : (cubeMesh c : Mesh R).makeFaces cgnsElem2faces = .ok { (cubeMesh c : Mesh R) with
      faces := [("internal", ⟨r.internal, some r.i2c⟩), ("boundary", ⟨r.boundary, some r.b2c⟩)]
      nface := r.internal.nelem + r.boundary.nelem } := by
    unfold Mesh.makeFaces
    simp only [cubeMesh, hr, Except_bind_ok]
    rfl
  have hq := elements_quad hr
  have hocc : ∀ {k : Int} {n : List Int}, ("quad4", k, n) ∈ elements r.internal →
      2 ≤ occurrences cgnsElem2faces (cubeConn c) "quad4" n := by
    intro k n hkn
    have inv := facesInv_of_ok cgnsTable_wf (cubeConn_wf c).entries hr
    have h3 := (mem_elements inv.iwf.keys).1 hkn
    have h4 := (C08_faces_exactly_once _ cgnsTable_wf _ (cubeConn_wf c) r hr "quad4" n).2
    have hpos : 0 < facesWith r.internal "quad4" n := by
      unfold facesWith
      rw [List.countP_pos_iff]
      exact ⟨(k, n), h3, by simp [List.isPerm_iff]⟩
    rw [h4] at hpos
    split at hpos
    · assumption
    · omega
  refine ⟨_, ⟨r.boundary, some r.b2c⟩, ⟨r.internal, some r.i2c⟩, _, _, hmk, rfl, rfl, hwf.1, hwf.2, rfl, hb,
    ?_, ?_, ?_⟩
  · have : ((2 * (elements r.internal).length + 2 * (c.nx * c.ny + c.ny * c.nz + c.nx * c.nz) : Nat) : Int) =
        ((6 * (c.nx * c.ny * c.nz) : Nat) : Int) := by exact_mod_cast hi
    push_cast at this
    linarith
  · intro t k n hkn
    have ht := hq.2 _ hkn
    simp only at ht
    subst ht
    have h3 := hocc hkn
    obtain ⟨c1, c2, n2, rest, hrow, hp⟩ := (C09_internal_cells _ cgnsTable_wf _ (cubeConn_wf c) r hr).2 _ k n hkn
    have hmem : (n, c1) ∈ (cellFaces cgnsElem2faces (cubeConn c) "quad4").filter fun o => o.1.isPerm n :=
      hp.mem_iff.2 (by simp)
    obtain ⟨F, hF, hFn⟩ := label_of_cellFace (List.mem_of_mem_filter hmem)
    simp only at hFn
    rw [occurrences_perm _ _ _ hFn, occurrences_cube c F hF] at h3
    have hcells := (hp.map (·.2)).symm.trans (cells_beside hF hFn)
    simp only [List.map_cons] at hcells
    unfold adjacent at h3 hcells
    split at h3
    · split at h3
      · rename_i ha hb'
        refine ⟨F.1, prev F.1 F.2, hb'.2, ?_, ?_, ?_⟩
        · rw [next_prev hb'.1]; exact ha
        · rw [next_prev hb'.1]; exact ⟨hF, hFn⟩
        · rw [if_pos ha, if_pos hb'] at hcells
          simp only [List.map_cons, List.map_nil, List.cons_append, List.nil_append] at hcells
          have hl := hcells.length_eq
          have hrest : rest = [] := by
            rw [← List.length_eq_zero_iff]
            simpa using hl
          rw [hrest] at hcells
          simp only [List.map_nil] at hcells
          rw [next_prev hb'.1]
          simp only [hrow, Option.some.injEq, Prod.mk.injEq]
          rcases perm_pair hcells with h | h
          · right; exact ⟨h.1, h.2⟩
          · left; exact ⟨h.1, h.2⟩
      · simp at h3
    · split at h3 <;> simp at h3
  · intro t k n hkn
    obtain ⟨F, hF, hFn⟩ := side_of_boundary hx hy hz hr hkn
    have ht := hq.1 _ hkn
    simp only at ht
    subst ht
    obtain ⟨cell, hrow, hp⟩ := (C09_boundary_cells _ cgnsTable_wf _ (cubeConn_wf c) r hr).2 _ k n hkn
    rw [mem_sideLabels] at hF
    have hok : LabelOk c F := labelOk_iff.2 ⟨by omega, hF.2⟩
    have hcells := cells_beside hok hFn
    rw [hp] at hcells
    simp only [List.map_cons, List.map_nil] at hcells
    have h1 : (adjacent c F).length = 1 := by simpa using hcells.length_eq.symm
    obtain ⟨q, hq1⟩ := List.length_eq_one_iff.1 h1
    rw [hq1] at hcells
    simp only [List.map_cons, List.map_nil, List.perm_singleton, List.singleton_perm_singleton] at hcells
    have hqm : q ∈ adjacent c F := by rw [hq1]; simp
    refine ⟨F.1, F.2, q, ?_, ⟨hok, hFn⟩, ?_, ?_⟩
    · unfold adjacent at hqm
      rw [List.mem_append] at hqm
      rcases hqm with h | h
      · split at h
        · rename_i hin; simp at h; rw [h]; exact hin
        · simp at h
      · split at h
        · rename_i hin; simp at h; rw [h]; exact hin.2
        · simp at h
    · rw [adjacent_length hok] at h1
      unfold adjacent at hqm
      rw [List.mem_append] at hqm
      rcases hqm with h | h
      · split at h
        · rename_i hin
          simp at h
          left
          refine ⟨?_, h⟩
          have : F.1.coord F.2 < cellsAlong c F.1 := by
            obtain ⟨ax, i, j, k⟩ := F
            cases ax <;> simp only [InGrid, cellDims, Axis.coord, cellsAlong] at hin ⊢ <;> omega
          rw [if_pos this] at h1
          split at h1 <;> omega
        · simp at h
      · split at h
        · rename_i hin
          simp at h
          right
          rw [if_pos hin.1] at h1
          refine ⟨?_, by rw [h, next_prev hin.1]⟩
          split at h1 <;> omega
        · simp at h
    · simp only [List.cons.injEq, and_true] at hcells
      rw [hrow, hcells]

/-- The hypotheses are met by the mesh of a 2 x 1 x 3 cube (see `C23_mesh`). -/
example : ∃ m m' : Mesh Nat, (Cube.mk 2 1 3).exportMesh = .ok m ∧ m.makeFaces cgnsElem2faces = .ok m' := by
  obtain ⟨m, c, hm, -⟩ := C23_mesh (R := Nat) ⟨2, 1, 3⟩ (by decide) (by decide) (by decide)
  obtain ⟨m', -, -, -, -, h, -⟩ := C24_faces ⟨2, 1, 3⟩ (by decide) (by decide) (by decide) (by decide) m hm
  exact ⟨m, m', hm, h⟩

/-- Membership in the mark of a side. -/
theorem mem_cubeMarks {c : Cube} {k : Nat} {name : String} {b : Mark} (h : (cubeMarks c)[k]? = some (name, b)) :
    ∃ ax v, (cubeSides c)[k]? = some (name, ax, v) ∧ b.geodim = .bdnode ∧ v ≤ cellsAlong c ax ∧
      ∀ n, n ∈ markItems b ↔ ∃ p, InGrid (nodeDims c) p ∧ ax.coord p = v ∧ (c.nodeIndex p : Int) = n := by
  have key : ∀ (l : List Ijk) (ax : Axis) (v : Nat),
      (∀ p, p ∈ l ↔ InGrid (nodeDims c) p ∧ ax.coord p = v) → ∀ n,
      n ∈ markItems ⟨name, .bdnode, "boundary", .list (l.map fun p => (c.nodeIndex p : Int)), none⟩ ↔
        ∃ p, InGrid (nodeDims c) p ∧ ax.coord p = v ∧ (c.nodeIndex p : Int) = n := by
    intro l ax v hl n
    simp only [markItems, IndexList.toList, List.mem_map]
    constructor
    · rintro ⟨p, hp, hn⟩
      exact ⟨p, ((hl p).1 hp).1, ((hl p).1 hp).2, hn⟩
    · rintro ⟨p, hp, hv, hn⟩
      exact ⟨p, (hl p).2 ⟨hp, hv⟩, hn⟩
  have hlt : k < 6 := by
    rw [List.getElem?_eq_some_iff] at h
    obtain ⟨h, _⟩ := h
    simpa [cubeMarks, Cube.marks] using h
  have hk : k = 0 ∨ k = 1 ∨ k = 2 ∨ k = 3 ∨ k = 4 ∨ k = 5 := by omega
  rcases hk with rfl | rfl | rfl | rfl | rfl | rfl <;>
    simp only [cubeMarks, Cube.marks, List.map_cons, List.getElem?_cons_succ, List.getElem?_cons_zero,
      Option.some.injEq, Prod.mk.injEq] at h <;>
    obtain ⟨rfl, rfl⟩ := h
  · refine ⟨.x, 0, rfl, rfl, by simp, key _ _ _ ?_⟩
    intro p
    rw [mem_product]
    simp only [InGrid, nodeDims, Axis.coord, List.mem_singleton, List.mem_range]; omega
  · refine ⟨.x, c.nx, rfl, rfl, by simp [cellsAlong], key _ _ _ ?_⟩
    intro p
    rw [mem_product]
    simp only [InGrid, nodeDims, Axis.coord, List.mem_singleton, List.mem_range]; omega
  · refine ⟨.y, 0, rfl, rfl, by simp, key _ _ _ ?_⟩
    intro p
    rw [mem_product]
    simp only [InGrid, nodeDims, Axis.coord, List.mem_singleton, List.mem_range]; omega
  · refine ⟨.y, c.ny, rfl, rfl, by simp [cellsAlong], key _ _ _ ?_⟩
    intro p
    rw [mem_product]
    simp only [InGrid, nodeDims, Axis.coord, List.mem_singleton, List.mem_range]; omega
  · refine ⟨.z, 0, rfl, rfl, by simp, key _ _ _ ?_⟩
    intro p
    rw [mem_product]
    simp only [InGrid, nodeDims, Axis.coord, List.mem_singleton, List.mem_range]; omega
  · refine ⟨.z, c.nz, rfl, rfl, by simp [cellsAlong], key _ _ _ ?_⟩
    intro p
    rw [mem_product]
    simp only [InGrid, nodeDims, Axis.coord, List.mem_singleton, List.mem_range]; omega

/-- C24: the six node marks of a cube, converted to faces, are the six sides: each side contains the
boundary faces that lie in its plane, and every boundary face is on exactly one side. -/
theorem C24_marks (c : Cube) (hx : 1 ≤ c.nx) (hy : 1 ≤ c.ny) (hz : 1 ≤ c.nz) (m m' : Mesh R)
    (hm : c.exportMesh = .ok m) (hf : m.makeFaces cgnsElem2faces = .ok m') :
    ∃ (m'' : Mesh R) (b : FaceSet), m'.bocosToFaces = .ok m'' ∧ m''.faces.get? "boundary" = some b ∧
      m''.bocos.keys = ["imin", "imax", "jmin", "jmax", "kmin", "kmax"] ∧ MarksOnFaces m'' ∧
      (∀ (k : Nat) (name : String) (ax : Axis) (v : Nat), (cubeSides c)[k]? = some (name, ax, v) →
        ∃ s, m''.bocos[k]? = some (name, s) ∧ ∀ i, i ∈ markItems s ↔
          ∃ t nodes p, (t, i, nodes) ∈ elements b.f2n ∧ IsGridFace c nodes ax p ∧ ax.coord p = v) ∧
      (marked m'').Perm (allIndices b.f2n) ∧
      (∀ so name, Reorders so → m''.makeUnmarked so name = .ok ([], m'')) := by
  have hm' : m = cubeMesh c := by
    rw [exportMesh_eq c (elemIjk_ne_nil hx hy hz)] at hm
    simpa using hm.symm
  subst hm'
  obtain ⟨r, hr, hfb, hfi⟩ := makeFaces_ok (c := cubeConn c) rfl hf
  have hwf := (faceSetWF_generated cgnsTable_wf (cubeConn_wf c) (by simp [cubeConn]) hr).1
  have hbocos : m'.bocos = cubeMarks c := by
    unfold Mesh.makeFaces at hf
    simp only [cubeMesh, hr, Except_bind_ok] at hf
    change Except.ok _ = Except.ok _ at hf
    simp only [Except.ok.injEq] at hf
    exact (congrArg Mesh.bocos hf).symm
  have hset : MarksSet m' := by
    intro p hp
    rw [hbocos] at hp
    obtain ⟨q, _, rfl⟩ := List.mem_map.1 hp
    simp
  obtain ⟨m'', h1, h2, h3, h4⟩ := C15_node_marks m' _ hfb hwf.conn hset
  rw [hbocos] at h3 h4
  have hlen6 : (cubeMarks c).length = 6 := rfl
  -- each mark of the result
  have hmark : ∀ k, k < 6 → ∃ name ax v s, (cubeSides c)[k]? = some (name, ax, v) ∧ m''.bocos[k]? = some (name, s) ∧
      s.geodim = .bdface ∧ s.index ≠ .unset ∧ (markItems s).Nodup ∧ v ≤ cellsAlong c ax ∧ ∀ i, i ∈ markItems s ↔
        ∃ t nodes p, (t, i, nodes) ∈ elements r.boundary ∧ IsGridFace c nodes ax p ∧ ax.coord p = v := by
    intro k hk
    obtain ⟨⟨name, b⟩, hb⟩ : ∃ x, (cubeMarks c)[k]? = some x :=
      ⟨_, List.getElem?_eq_getElem (by rw [hlen6]; exact hk)⟩
    obtain ⟨ax, v, hside, hdim, hv, hitems⟩ := mem_cubeMarks hb
    obtain ⟨s, hs, _, h6⟩ := h4 k name b hb
    obtain ⟨h7, h8, h9, h10⟩ := h6 (by rw [hdim]; simp)
    refine ⟨name, ax, v, s, hside, hs, by rw [h7], h8, h10 hwf.numbering, hv, ?_⟩
    intro i
    rw [h9]
    constructor
    · rintro ⟨t, nodes, hel, hall⟩
      obtain ⟨F, hF, hFn⟩ := side_of_boundary hx hy hz hr hel
      rw [mem_sideLabels] at hF
      have hok : LabelOk c F := labelOk_iff.2 ⟨by omega, hF.2⟩
      have := (all_in_side hok ax v).1 (fun n hn => (hitems n).1 (hall n (hFn.mem_iff.2 hn)))
      exact ⟨t, nodes, F.2, hel, by rw [← this.1]; exact ⟨hok, hFn⟩, by rw [← this.1]; exact this.2⟩
    · rintro ⟨t, nodes, p, hel, hp, hpv⟩
      refine ⟨t, nodes, hel, ?_⟩
      intro n hn
      exact (hitems n).2 ((all_in_side (F := (ax, p)) hp.1 ax v).2 ⟨rfl, hpv⟩ n (hp.2.mem_iff.1 hn))
  have hl6 : m''.bocos.length = 6 := by rw [h3]; rfl
  have hon : MarksOnFaces m'' := by
    intro p hp
    obtain ⟨k, hk, hpk⟩ := List.mem_iff_getElem.1 hp
    obtain ⟨name, ax, v, s, _, hs, hd, _⟩ := hmark k (by omega)
    rw [List.getElem?_eq_getElem hk, hpk, Option.some.injEq] at hs
    rw [hs]; exact Or.inr hd
  have hset2 : MarksSet m'' := by
    intro p hp
    obtain ⟨k, hk, hpk⟩ := List.mem_iff_getElem.1 hp
    obtain ⟨name, ax, v, s, _, hs, _, hd, _⟩ := hmark k (by omega)
    rw [List.getElem?_eq_getElem hk, hpk, Option.some.injEq] at hs
    rw [hs]; exact hd
  have hfaces : m''.faces.get? "boundary" = some ⟨r.boundary, some r.b2c⟩ := by
    rw [h2]; exact hfb
  have hside : ∀ {k l : Nat} {ax : Axis} {v : Nat} {n n' : String}, (cubeSides c)[k]? = some (n, ax, v) →
      (cubeSides c)[l]? = some (n', ax, v) → k = l := by
    intro k l ax v n n' hk hl
    have hnd : ((cubeSides c).map (·.2)).Nodup := by
      simp only [cubeSides, List.map_cons, List.map_nil, List.nodup_cons, List.mem_cons, Prod.mk.injEq,
        reduceCtorEq, false_and, true_and, or_false, false_or, List.not_mem_nil, not_false_eq_true, List.nodup_nil,
        and_true, not_true_eq_false]
      omega
    rw [List.getElem?_eq_some_iff] at hk hl
    obtain ⟨hk, hk2⟩ := hk
    obtain ⟨hl, hl2⟩ := hl
    apply (List.Nodup.getElem_inj_iff hnd (hi := by simpa using hk) (hj := by simpa using hl)).1
    rw [List.getElem_map, List.getElem_map, hk2, hl2]
  have hmarked : ∀ i, i ∈ marked m'' ↔ i ∈ allIndices r.boundary := by
    intro i
    unfold marked
    rw [List.mem_flatMap]
    constructor
    · rintro ⟨p, hp, hi⟩
      obtain ⟨k, hk, hpk⟩ := List.mem_iff_getElem.1 hp
      obtain ⟨name, ax, v, s, _, hs, _, _, _, _, hitems⟩ := hmark k (by omega)
      rw [List.getElem?_eq_getElem hk, hpk, Option.some.injEq] at hs
      rw [hs] at hi
      obtain ⟨t, nodes, _, hel, _⟩ := (hitems i).1 hi
      exact List.mem_map.2 ⟨_, hel, rfl⟩
    · intro hi
      obtain ⟨⟨t, i', nodes⟩, hel, rfl⟩ := List.mem_map.1 hi
      obtain ⟨F, hF, hFn⟩ := side_of_boundary hx hy hz hr hel
      rw [mem_sideLabels] at hF
      have hok : LabelOk c F := labelOk_iff.2 ⟨by omega, hF.2⟩
      have hex : ∃ k, k < 6 ∧ ∃ name, (cubeSides c)[k]? = some (name, F.1, F.1.coord F.2) := by
        rcases hF.1 with h0 | h0 <;> rw [h0] <;> cases F.1
        · exact ⟨0, by omega, _, rfl⟩
        · exact ⟨2, by omega, _, rfl⟩
        · exact ⟨4, by omega, _, rfl⟩
        · exact ⟨1, by omega, _, rfl⟩
        · exact ⟨3, by omega, _, rfl⟩
        · exact ⟨5, by omega, _, rfl⟩
      obtain ⟨k, hk, name, hside1⟩ := hex
      obtain ⟨name', ax, v, s, hside2, hs, _, _, _, _, hitems⟩ := hmark k hk
      rw [hside1] at hside2
      simp only [Option.some.injEq, Prod.mk.injEq] at hside2
      obtain ⟨rfl, rfl, rfl⟩ := hside2
      exact ⟨_, List.mem_of_getElem? hs, (hitems _).2 ⟨t, nodes, F.2, hel, ⟨hok, hFn⟩, rfl⟩⟩
  refine ⟨m'', ⟨r.boundary, some r.b2c⟩, h1, hfaces, ?_, hon, ?_, ?_, ?_⟩
  · have : m''.bocos.keys = (cubeSides c).map (·.1) := by
      apply List.ext_getElem?
      intro k
      unfold Dict.keys
      rw [List.getElem?_map, List.getElem?_map]
      by_cases hk : k < 6
      · obtain ⟨name, ax, v, s, hside1, hs, _⟩ := hmark k hk
        rw [hside1, hs]; rfl
      · rw [List.getElem?_eq_none (by omega), List.getElem?_eq_none (by simp [cubeSides]; omega)]
        rfl
    rw [this]; rfl
  · intro k name ax v hk
    have hk6 : k < 6 := by
      rw [List.getElem?_eq_some_iff] at hk
      obtain ⟨h, _⟩ := hk
      simpa [cubeSides] using h
    obtain ⟨name', ax', v', s, hside2, hs, _, _, _, _, hitems⟩ := hmark k hk6
    rw [hk] at hside2
    simp only [Option.some.injEq, Prod.mk.injEq] at hside2
    obtain ⟨rfl, rfl, rfl⟩ := hside2
    exact ⟨s, hs, hitems⟩
  · rw [List.perm_ext_iff_of_nodup _ ?_]
    · exact hmarked
    · unfold marked
      rw [List.nodup_flatMap]
      refine ⟨?_, ?_⟩
      · intro p hp
        obtain ⟨k, hk, hpk⟩ := List.mem_iff_getElem.1 hp
        obtain ⟨name, ax, v, s, _, hs, _, _, hd, _⟩ := hmark k (by omega)
        rw [List.getElem?_eq_getElem hk, hpk, Option.some.injEq] at hs
        rw [hs]; exact hd
      · rw [List.pairwise_iff_getElem]
        intro k l hk hl hkl i hi1 hi2
        obtain ⟨name, ax, v, s, hs1, hs, _, _, _, _, hitems⟩ := hmark k (by omega)
        obtain ⟨name', ax', v', s', hs1', hs', _, _, _, _, hitems'⟩ := hmark l (by omega)
        rw [List.getElem?_eq_getElem hk, Option.some.injEq] at hs
        rw [List.getElem?_eq_getElem hl, Option.some.injEq] at hs'
        rw [hs] at hi1
        rw [hs'] at hi2
        obtain ⟨t, nodes, p, hel, hp, hpv⟩ := (hitems i).1 hi1
        obtain ⟨t', nodes', p', hel', hp', hpv'⟩ := (hitems' i).1 hi2
        have hsame : nodes = nodes' := by
          have := List.inj_on_of_nodup_map (f := fun x : String × Int × List Int => x.2.1) hwf.numbering.1 hel hel' rfl
          simp only [Prod.mk.injEq] at this
          exact this.2.2
        subst hsame
        have := faceNodes_inj (F := (ax, p)) (G := (ax', p')) hp.1 hp'.1 (hp.2.symm.trans hp'.2)
        simp only [Prod.mk.injEq] at this
        obtain ⟨rfl, rfl⟩ := this
        have : v = v' := hpv.symm.trans hpv'
        subst this
        have := hside hs1 hs1'
        omega
    · exact hwf.numbering.1
  · intro so name hso
    obtain ⟨missing, hmiss, hok⟩ := makeUnmarked_ok so hfaces hwf.conn.entries hset2 hon name
    have hnil : ((allIndices r.boundary).dedup.filter fun i => !(marked m'').contains i) = [] := by
      rw [List.filter_eq_nil_iff]
      intro i hi
      rw [List.mem_dedup, ← hmarked] at hi
      simp [hi]
    rw [hnil] at hmiss
    have h0 : missing = [] := by
      rw [hmiss]
      exact List.Perm.eq_nil (hso [])
    rw [hok, h0, if_pos rfl]

example : ∃ m m' m'' : Mesh Nat, (Cube.mk 2 1 3).exportMesh = .ok m ∧ m.makeFaces cgnsElem2faces = .ok m' ∧
    m'.bocosToFaces = .ok m'' ∧ m''.makeUnmarked id "rest" = .ok ([], m'') := by
  obtain ⟨m, c, hm, -⟩ := C23_mesh (R := Nat) ⟨2, 1, 3⟩ (by decide) (by decide) (by decide)
  obtain ⟨m', -, -, -, -, h, -⟩ := C24_faces ⟨2, 1, 3⟩ (by decide) (by decide) (by decide) (by decide) m hm
  obtain ⟨m'', -, h2, -, -, -, -, -, h3⟩ := C24_marks ⟨2, 1, 3⟩ (by decide) (by decide) (by decide) m m' hm h
  exact ⟨m, m', m'', hm, h, h2, h3 id "rest" (fun l => List.Perm.refl l)⟩

/-- C24: a cube of one cell is refused (no face is shared). -/
theorem C24_one_cell (m : Mesh R) (hm : (Cube.mk 1 1 1).exportMesh = .ok m) :
    m.makeFaces cgnsElem2faces = .error .assertion := by
  rw [exportMesh_eq _ (by decide)] at hm
  simp only [Except.ok.injEq] at hm
  subst hm
  have : createFaces cgnsElem2faces (cubeConn ⟨1, 1, 1⟩) = .error .assertion := by decide +kernel
  unfold Mesh.makeFaces
  simp only [cubeMesh, this]
  rfl

example : ∃ m : Mesh Nat, (Cube.mk 1 1 1).exportMesh = .ok m ∧ m.makeFaces cgnsElem2faces = .error .assertion := by
  obtain ⟨m, c, hm, -⟩ := C23_mesh (R := Nat) ⟨1, 1, 1⟩ (by decide) (by decide) (by decide)
  exact ⟨m, hm, C24_one_cell m hm⟩

/-- Hypotheses met by a 2 x 1 x 3 cube: 22 boundary faces and 7 internal faces. -/
example : (do let m ← (Cube.exportMesh (R := Nat) ⟨2, 1, 3⟩)
              let m' ← m.makeFaces cgnsElem2faces
              let m'' ← m'.bocosToFaces
              return (m''.bocos.map fun p => (p.1, (markItems p.2).length), m''.nface)) =
    Except.ok ([("imin", 3), ("imax", 3), ("jmin", 6), ("jmax", 6), ("kmin", 2), ("kmax", 2)], 29) := by
  decide +kernel

end Cfd

import Verif.Lemmas.Closure
import Verif.Props.Ic3Cube

/-! # C83: the faces of each cell form a closed surface, directed from the first cell to the second -/

namespace Cfd
open Spec Spec.Ic3 ElemConn

theorem cross_antisymm {R : Type} [CommRing R] (a b : Vec R) : cross a b = - cross b a := by
  unfold cross
  ext <;> simp only [Prod.fst_neg, Prod.snd_neg] <;> ring

/-- `area2` is what it says: for a triangle, the cross product of two sides; for a quadrangle, of the diagonals. -/
theorem area2_triangle {R : Type} [CommRing R] (X : Int → Vec R) (a b c : Int) :
    area2 X [a, b, c] = cross (vsub (X b) (X a)) (vsub (X c) (X a)) := by
  simp only [area2, circulation, contour, List.rotate_cons_succ, List.rotate_zero, List.cons_append, List.nil_append,
    List.zip_cons_cons, List.zip_nil_right, List.map_cons, List.map_nil, List.sum_cons, List.sum_nil, cross, vsub]
  ext <;> simp only [Prod.fst_add, Prod.snd_add, Prod.fst_zero, Prod.snd_zero] <;> ring

theorem area2_quadrangle {R : Type} [CommRing R] (X : Int → Vec R) (a b c d : Int) :
    area2 X [a, b, c, d] = cross (vsub (X c) (X a)) (vsub (X d) (X b)) := by
  simp only [area2, circulation, contour, List.rotate_cons_succ, List.rotate_zero, List.cons_append, List.nil_append,
    List.zip_cons_cons, List.zip_nil_right, List.map_cons, List.map_nil, List.sum_cons, List.sum_nil, cross, vsub]
  ext <;> simp only [Prod.fst_add, Prod.snd_add, Prod.fst_zero, Prod.snd_zero] <;> ring

/-- A sufficient check of the orientation. -/
def orientedOk (tbl : FaceTable) (c : ElemConn) : Bool :=
  decide (facesOfCells tbl c).Nodup && (facesOfCells tbl c).all fun o₁ => (facesOn tbl c o₁.1).all fun o₂ =>
    decide (o₂ = o₁) || decide (o₂.1.IsRotated o₁.1.reverse)

theorem oriented_of_ok {tbl : FaceTable} {c : ElemConn} (h : orientedOk tbl c = true) : Oriented tbl c := by
  unfold orientedOk at h
  simp only [Bool.and_eq_true, decide_eq_true_eq, List.all_eq_true, Bool.or_eq_true] at h
  intro o₁ o₂ hp
  have h1 : o₁ ∈ facesOn tbl c o₁.1 := by rw [hp.mem_iff]; simp
  have h2 : o₂ ∈ facesOn tbl c o₁.1 := by rw [hp.mem_iff]; simp
  rcases h.2 o₁ (Ic3.mem_facesOn.1 h1).1 o₂ h2 with e | e
  · have hn : (facesOn tbl c o₁.1).Nodup := h.1.filter _
    rw [hp.nodup_iff, e] at hn
    simp at hn
  · exact e

/-- C83: whatever the positions of the nodes, in a mesh of tetrahedra, pyramids, prisms and hexahedra whose faces are
those of the cells, the area vectors of the faces of each cell cancel, faces being counted positively for their first
cell and negatively for their second one. -/
theorem C83_closed {R : Type} [CommRing R] (X : Int → Vec R) (tbl : FaceTable) (ht : tbl ∈ faceTables) (c : ElemConn)
    (hv : ∀ x ∈ elements c, x.1 ∈ volumeTypes) (ho : Oriented tbl c) (lb li : List Face) (hf : FacesOf tbl c lb li)
    (a : Int) (ha : a ≠ -1) : balance (fun f => area2 X f.1) (lb ++ li) a = 0 := by
  have hw : ∀ a b, cross (X a) (X b) = - cross (X b) (X a) := fun a b => cross_antisymm _ _
  rw [balance_of_cells hf (area2 X) (fun o₁ o₂ h => ?_) a ha]
  · exact closed_of_elements _ (fun x hx => circulation_cell _ hw ht (hv x hx) _) a
  · unfold area2
    rw [circulation_rotated _ (ho o₁ o₂ h), circulation_reverse _ hw]

/-- C83, plane meshes: the edges of each cell form a closed contour. -/
theorem C83_closed_plane {M : Type} [AddCommGroup M] (X : Int → M) (tbl : FaceTable) (ht : tbl ∈ faceTables)
    (c : ElemConn) (hv : ∀ x ∈ elements c, x.1 ∈ ["tri3", "quad4"]) (ho : OrientedPlane tbl c) (lb li : List Face)
    (hf : FacesOf tbl c lb li) (a : Int) (ha : a ≠ -1) : balance (fun f => span X f.1) (lb ++ li) a = 0 := by
  rw [balance_of_cells hf (span X) (fun o₁ o₂ h => ?_) a ha]
  · exact closed_of_elements _ (fun x hx => span_cell X ht (hv x hx) _) a
  · have hlen : o₁.1.length = 2 := by
      have hm : o₁ ∈ facesOn tbl c o₁.1 := by rw [h.mem_iff]; simp
      have hm := (Ic3.mem_facesOn.1 hm).1
      unfold facesOfCells at hm
      simp only [List.mem_flatMap, List.mem_map] at hm
      obtain ⟨x, hx, q, hq, f, hf, rfl⟩ := hm
      have := edges_plane tbl ht x.1 (hv x hx) f (List.mem_flatMap.2 ⟨q, hq, hf⟩)
      simpa using this
    rw [ho o₁ o₂ h]
    match h : o₁.1, hlen with
    | [a, b], _ => simp [span]

/-- The cell of a face of the cells is a cell. -/
theorem cell_of_face {tbl : FaceTable} {c : ElemConn} {o : List Int × Int} (h : o ∈ facesOfCells tbl c) :
    ∃ x ∈ elements c, x.2.1 = o.2 ∧ ∃ g ∈ facesOf tbl x.1, o.1 = g.reverse.map fun k => x.2.2.getD k 0 := by
  unfold facesOfCells at h
  simp only [List.mem_flatMap, List.mem_map] at h
  obtain ⟨x, hx, q, hq, f, hf, rfl⟩ := h
  exact ⟨x, hx, rfl, f, List.mem_flatMap.2 ⟨q, hq, hf⟩, rfl⟩

theorem faces_cells {tbl : FaceTable} {c : ElemConn} {lb li : List Face} (hf : FacesOf tbl c lb li) :
    (∀ f ∈ lb ++ li, (f.1, f.2.1) ∈ facesOfCells tbl c) ∧
    ∀ f ∈ li, ∃ nodes, (nodes, f.2.2) ∈ facesOfCells tbl c ∧
      (facesOn tbl c f.1).Perm [(f.1, f.2.1), (nodes, f.2.2)] := by
  have h2 : ∀ f ∈ li, ∃ nodes, (f.1, f.2.1) ∈ facesOfCells tbl c ∧ (nodes, f.2.2) ∈ facesOfCells tbl c ∧
      (facesOn tbl c f.1).Perm [(f.1, f.2.1), (nodes, f.2.2)] := by
    intro f hfm
    obtain ⟨nodes, h⟩ := hf.internal f hfm
    have h1 : (f.1, f.2.1) ∈ facesOn tbl c f.1 := by rw [h.mem_iff]; simp
    have h2 : (nodes, f.2.2) ∈ facesOn tbl c f.1 := by rw [h.mem_iff]; simp
    exact ⟨nodes, (Ic3.mem_facesOn.1 h1).1, (Ic3.mem_facesOn.1 h2).1, h⟩
  constructor
  · intro f hm
    rcases List.mem_append.1 hm with hm | hm
    · obtain ⟨a, h1, h3⟩ := hf.boundary f hm
      have : (f.1, a) ∈ facesOn tbl c f.1 := by rw [h3]; simp
      rw [h1]
      exact (Ic3.mem_facesOn.1 this).1
    · obtain ⟨_, h, _⟩ := h2 f hm
      exact h
  · intro f hm
    obtain ⟨nodes, _, h1, h3⟩ := h2 f hm
    exact ⟨nodes, h1, h3⟩

/-- C83: conservation. Whatever the fluxes through the faces, the balances of all cells add up to the flux through the
boundary faces: what leaves a cell through an internal face enters another cell. -/
theorem C83_conservation {M : Type} [AddCommGroup M] (F : Face → M) (tbl : FaceTable) (c : ElemConn)
    (hn : ValidNumbering (allIndices c)) (lb li : List Face) (hf : FacesOf tbl c lb li) :
    ((allIndices c).map fun a => balance F (lb ++ li) a).sum = (lb.map F).sum := by
  have hmem : ∀ o ∈ facesOfCells tbl c, o.2 ∈ allIndices c := by
    intro o ho
    obtain ⟨x, hx, h, _⟩ := cell_of_face ho
    rw [← h]
    exact List.mem_map_of_mem hx
  have h1 : ∀ f ∈ lb, f.2.1 ∈ allIndices c ∧ f.2.2 ∉ allIndices c := by
    intro f hm
    refine ⟨hmem _ ((faces_cells hf).1 f (List.mem_append_left _ hm)), ?_⟩
    obtain ⟨a, h, _⟩ := hf.boundary f hm
    rw [h, hn.2]
    simp
  have h2 : ∀ f ∈ li, f.2.1 ∈ allIndices c ∧ f.2.2 ∈ allIndices c := by
    intro f hm
    refine ⟨hmem _ ((faces_cells hf).1 f (List.mem_append_right _ hm)), ?_⟩
    obtain ⟨_, h, _⟩ := (faces_cells hf).2 f hm
    exact hmem _ h
  have swap : ∀ L : List Face, ((allIndices c).map fun a => balance F L a).sum =
      (L.map fun f => (if f.2.1 ∈ allIndices c then F f else 0) - (if f.2.2 ∈ allIndices c then F f else 0)).sum := by
    intro L
    induction L with
    | nil => simp [balance_eq]
    | cons f t ih =>
      rw [List.map_cons, List.sum_cons, ← ih, ← sum_ite_mem hn.1, ← sum_ite_mem hn.1]
      generalize allIndices c = l
      induction l with
      | nil => simp
      | cons a s ihs =>
        simp only [List.map_cons, List.sum_cons, balance_eq] at ihs ⊢
        rw [ihs]
        abel
  rw [swap, List.map_append, List.sum_append]
  have e1 : (lb.map fun f => (if f.2.1 ∈ allIndices c then F f else 0) - (if f.2.2 ∈ allIndices c then F f else 0)) =
      lb.map F := by
    apply List.map_congr_left
    intro f hm
    simp [h1 f hm]
  have e2 : (li.map fun f => (if f.2.1 ∈ allIndices c then F f else 0) - (if f.2.2 ∈ allIndices c then F f else 0)) =
      li.map fun _ => 0 := by
    apply List.map_congr_left
    intro f hm
    simp [h2 f hm]
  rw [e1, e2]
  simp

/-- C83: the boundary of the mesh is a closed surface. -/
theorem C83_boundary_closed {R : Type} [CommRing R] (X : Int → Vec R) (tbl : FaceTable) (ht : tbl ∈ faceTables)
    (c : ElemConn) (hv : ∀ x ∈ elements c, x.1 ∈ volumeTypes) (hn : ValidNumbering (allIndices c))
    (ho : Oriented tbl c) (lb li : List Face) (hf : FacesOf tbl c lb li) :
    (lb.map fun f => area2 X f.1).sum = 0 := by
  rw [← C83_conservation (fun f => area2 X f.1) tbl c hn lb li hf]
  have : ((allIndices c).map fun a => balance (fun f => area2 X f.1) (lb ++ li) a) = (allIndices c).map fun _ => 0 := by
    apply List.map_congr_left
    intro a ha
    refine C83_closed X tbl ht c hv ho lb li hf a ?_
    have := (hn.2 a).1 ha
    omega
  rw [this]
  simp

/-! ## Direction -/

theorem inward_rotations : ∀ tbl ∈ faceTables, ∀ et ∈ volumeTypes, ∀ f ∈ facesOf tbl et,
    ∀ r ∈ List.range f.length, ∀ p ∈ List.range (refNodes et).length, p ∉ f →
      0 < side (refNode et ((f.rotate r).getD 0 0)) (refNode et ((f.rotate r).getD 1 0))
        (refNode et ((f.rotate r).getD 2 0)) (refNode et p) := by decide +kernel

theorem faces_lengths : ∀ tbl ∈ faceTables, ∀ et ∈ volumeTypes, ∀ f ∈ facesOf tbl et,
    3 ≤ f.length ∧ ∀ i ∈ f, i < (refNodes et).length := by decide +kernel

/-- C83: when the cells are affine images, with positive determinant, of the reference elements, the normal of each face
points out of its first cell and into its second cell: all the other nodes of the first cell are behind, all the other
nodes of the second cell ahead. -/
theorem C83_directed {R : Type} [CommRing R] [LinearOrder R] [IsStrictOrderedRing R] (X : Int → Vec R)
    (tbl : FaceTable) (ht : tbl ∈ faceTables) (c : ElemConn) (hv : ∀ x ∈ elements c, x.1 ∈ volumeTypes)
    (hn : ValidNumbering (allIndices c)) (ho : Oriented tbl c)
    (hA : ∀ x ∈ elements c, ∃ A : Affine R, 0 < A.det ∧
      ∀ k < (refNodes x.1).length, X (x.2.2.getD k 0) = A.img (refNode x.1 k))
    (lb li : List Face) (hf : FacesOf tbl c lb li) (f : Face) (hfm : f ∈ lb ++ li)
    (t : String) (a : Int) (row : List Int) (hx : (t, a, row) ∈ elements c) (k : Nat) (hk : k < (refNodes t).length)
    (hkf : row.getD k 0 ∉ f.1) :
    (f.2.1 = a → sideOfFace X f.1 (row.getD k 0) < 0) ∧ (f.2.2 = a → 0 < sideOfFace X f.1 (row.getD k 0)) := by
  have huniq : ∀ y ∈ elements c, y.2.1 = a → y = (t, a, row) := by
    intro y hy e
    have hnd := hn.1
    unfold allIndices at hnd
    exact List.inj_on_of_nodup_map hnd hy hx e
  obtain ⟨A, hdet, hX⟩ := hA _ hx
  simp only at hX
  have hpos : ∀ g ∈ facesOf tbl t, ∀ g' : List Nat, g'.Perm g → f.1 = (g'.map fun k => row.getD k 0) →
      sideOfFace X f.1 (row.getD k 0) = A.det * (side (refNode t (g'.getD 0 0)) (refNode t (g'.getD 1 0))
        (refNode t (g'.getD 2 0)) (refNode t k) : Int) ∧ k ∉ g := by
    intro g hg g' hp e
    obtain ⟨hl, hr⟩ := faces_lengths tbl ht t (hv _ hx) g hg
    have hl' : 3 ≤ g'.length := by rw [hp.length_eq]; exact hl
    constructor
    · have hi : ∀ i < 3, X (f.1.getD i 0) = A.img (refNode t (g'.getD i 0)) := by
        intro i hi
        have h1 : i < g'.length := by omega
        have h2 : f.1.getD i 0 = row.getD (g'.getD i 0) 0 := by
          rw [e]
          simp [List.getD_eq_getElem?_getD, List.getElem?_map, List.getElem?_eq_getElem h1]
        rw [h2]
        apply hX
        apply hr
        rw [← hp.mem_iff, List.getD_eq_getElem?_getD, List.getElem?_eq_getElem h1, Option.getD_some]
        exact List.getElem_mem h1
      unfold sideOfFace
      rw [hi 0 (by omega), hi 1 (by omega), hi 2 (by omega), hX k hk, side_affine]
    · intro hkg
      apply hkf
      rw [e]
      exact List.mem_map_of_mem (f := fun k => row.getD k 0) (hp.mem_iff.2 hkg)
  constructor
  · intro e
    obtain ⟨y, hy, h1, g, hg, h2⟩ := cell_of_face ((faces_cells hf).1 f hfm)
    obtain rfl := huniq y hy (by rw [h1]; exact e)
    obtain ⟨h3, h4⟩ := hpos g hg g.reverse (List.reverse_perm g) h2
    rw [h3]
    have h := outward_reference tbl ht t (hv _ hx) g hg k (List.mem_range.2 hk) h4
    have h' : ((side (refNode t (g.reverse.getD 0 0)) (refNode t (g.reverse.getD 1 0))
        (refNode t (g.reverse.getD 2 0)) (refNode t k) : Int) : R) < 0 := by exact_mod_cast h
    exact mul_neg_of_pos_of_neg hdet h'
  · intro e
    have ha : a ∈ allIndices c := List.mem_map_of_mem hx
    have hli : f ∈ li := by
      rcases List.mem_append.1 hfm with hb | hi
      · obtain ⟨b, h1, _⟩ := hf.boundary f hb
        rw [h1] at e
        have := (hn.2 a).1 ha
        simp only at e
        omega
      · exact hi
    obtain ⟨nodes, h0, hp⟩ := (faces_cells hf).2 f hli
    obtain ⟨y, hy, h1, g, hg, h2⟩ := cell_of_face h0
    obtain rfl := huniq y hy (by rw [h1]; exact e)
    have hrot : f.1.IsRotated (g.map fun k => row.getD k 0) := by
      have h3 := ho (f.1, f.2.1) (nodes, f.2.2) hp
      simp only at h3 h2
      rw [← List.isRotated_reverse_comm_iff, h2, ← List.map_reverse, List.reverse_reverse] at h3
      exact h3.symm
    obtain ⟨r, hr⟩ := hrot.symm
    have hlen := (faces_lengths tbl ht t (hv _ hx) g hg).1
    obtain ⟨h3, h4⟩ := hpos g hg (g.rotate (r % g.length)) (List.rotate_perm _ _) (by
      rw [List.rotate_mod, List.map_rotate]
      exact hr.symm)
    rw [h3]
    have h := inward_rotations tbl ht t (hv _ hx) g hg (r % g.length)
      (List.mem_range.2 (Nat.mod_lt _ (by omega))) k (List.mem_range.2 hk) h4
    have h' : (0 : R) < ((side (refNode t ((g.rotate (r % g.length)).getD 0 0))
        (refNode t ((g.rotate (r % g.length)).getD 1 0)) (refNode t ((g.rotate (r % g.length)).getD 2 0))
        (refNode t k) : Int) : R) := by exact_mod_cast h
    exact mul_pos hdet h'

/-! ## Structured cubes -/

theorem labels_direction (c : Cube) (p : Ijk) : ∀ q ∈ cellLabels c p,
    (q.1.2 = p ∧ q.2.IsRotated (faceNodes c q.1).reverse) ∨
    (q.1.2 = q.1.1.next p ∧ q.2.IsRotated (faceNodes c q.1)) := by
  obtain ⟨i, j, k⟩ := p
  intro q hq
  simp only [cellLabels, List.mem_cons, List.not_mem_nil, or_false] at hq
  rcases hq with rfl | rfl | rfl | rfl | rfl | rfl <;>
    simp only [faceNodes, gridFace, Axis.next, List.map_cons, List.map_nil, List.reverse_cons, List.reverse_nil,
      List.nil_append, List.cons_append, Prod.mk.injEq, true_and, Nat.left_eq_add, Nat.succ_ne_self, one_ne_zero,
      false_and, and_false, false_or, and_true, or_false, Nat.add_eq_left]
  · exact List.IsRotated.refl _
  · exact List.IsRotated.refl _
  · exact ⟨3, rfl⟩
  · exact List.IsRotated.refl _
  · exact List.IsRotated.refl _
  · exact ⟨3, rfl⟩

/-- A face of a cell of the cube, with the label it has. -/
theorem cube_label {c : Cube} {o : List Int × Int} (h : o ∈ facesOfCells cgnsElem2faces (cubeConn c)) :
    ∃ p, InGrid (cellDims c) p ∧ o.2 = c.elemIndex p ∧ ∃ F, LabelOk c F ∧ o.1.Perm (faceNodes c F) ∧
      ((F.2 = p ∧ o.1.IsRotated (faceNodes c F).reverse) ∨ (F.2 = F.1.next p ∧ o.1.IsRotated (faceNodes c F))) := by
  have h1 := (Ic3.cube_face h).1
  rw [cellFaces_cube] at h1
  obtain ⟨p, hp, h1⟩ := List.mem_flatMap.1 h1
  obtain ⟨q, hq, rfl⟩ := List.mem_map.1 h1
  exact ⟨p, mem_elemIjk.1 hp, rfl, q.1, cellLabels_ok (mem_elemIjk.1 hp) q hq, cellLabels_perm c p q hq,
    labels_direction c p q hq⟩

theorem prev_next (ax : Axis) (p : Ijk) : prev ax (ax.next p) = p ∧ 1 ≤ ax.coord (ax.next p) := by
  obtain ⟨i, j, k⟩ := p
  cases ax <;> simp [Axis.coord, Axis.next, prev]

theorem next_ne (ax : Axis) (p : Ijk) : ax.next p ≠ p := by
  obtain ⟨i, j, k⟩ := p
  cases ax <;> simp [Axis.next]

theorem adjacent_nodup (c : Cube) (F : Label) : ((adjacent c F).map fun p => (c.elemIndex p : Int)).Nodup := by
  unfold adjacent
  by_cases h1 : InGrid (cellDims c) F.2 <;>
    by_cases h2 : 1 ≤ F.1.coord F.2 ∧ InGrid (cellDims c) (prev F.1 F.2) <;> simp only [h1, h2, if_true, if_false] <;>
    simp only [and_self, if_true, List.nil_append, List.append_nil, List.cons_append, List.map_cons, List.map_nil,
      List.nodup_cons, List.mem_singleton, List.not_mem_nil, not_false_eq_true, List.nodup_nil, and_true]
  intro e
  have := elemIndex_inj h1 h2.2 (by exact_mod_cast e)
  have h3 := next_prev h2.1
  rw [← this] at h3
  exact next_ne _ _ h3

/-- Two cells of a cube that share a face list it in opposite directions. -/
theorem cube_oriented (c : Cube) : Oriented cgnsElem2faces (cubeConn c) := by
  intro o₁ o₂ h
  have m1 := Ic3.mem_facesOn.1 (show o₁ ∈ facesOn cgnsElem2faces (cubeConn c) o₁.1 by rw [h.mem_iff]; simp)
  have m2 := Ic3.mem_facesOn.1 (show o₂ ∈ facesOn cgnsElem2faces (cubeConn c) o₁.1 by rw [h.mem_iff]; simp)
  obtain ⟨p₁, hp₁, e₁, F, hF, hn₁, hd₁⟩ := cube_label m1.1
  obtain ⟨p₂, hp₂, e₂, G, hG, hn₂, hd₂⟩ := cube_label m2.1
  obtain rfl : G = F := faceNodes_inj hG hF (hn₂.symm.trans (m2.2.trans hn₁))
  have hne : p₁ ≠ p₂ := by
    rintro rfl
    have h1 := Ic3.cube_facesOn m1.1 (List.Perm.refl _) hF hn₁
    have h2 : [o₁.2, o₂.2].Nodup := by
      have := (h.map (·.2)).symm.trans h1
      simp only [List.map_cons, List.map_nil] at this
      rw [this.nodup_iff]
      exact adjacent_nodup c G
    rw [e₁, e₂] at h2
    simp at h2
  rcases hd₁ with ⟨a1, b1⟩ | ⟨a1, b1⟩ <;> rcases hd₂ with ⟨a2, b2⟩ | ⟨a2, b2⟩
  · exact absurd (a1.symm.trans a2) hne
  · exact b2.trans (List.isRotated_reverse_comm_iff.2 b1).symm
  · exact b2.trans (b1.symm.reverse)
  · exfalso
    apply hne
    have := a1.symm.trans a2
    have := congrArg (prev G.1) this
    rwa [(prev_next _ _).1, (prev_next _ _).1] at this

theorem cellAt_in {c : Cube} {a b d : Int} (h : (0 ≤ a ∧ a < c.nx) ∧ (0 ≤ b ∧ b < c.ny) ∧ (0 ≤ d ∧ d < c.nz)) :
    cellAt c (a, b, d) = (a * c.ny + b) * c.nz + d := if_pos h

theorem cellAt_out {c : Cube} {a b d : Int} (h : ¬ ((0 ≤ a ∧ a < c.nx) ∧ (0 ≤ b ∧ b < c.ny) ∧ (0 ≤ d ∧ d < c.nz))) :
    cellAt c (a, b, d) = -1 := if_neg h

theorem cellAt_low {c : Cube} {p : Ijk} (hp : InGrid (cellDims c) p) {ax : Axis} :
    cellAt c (step ax (-1) p) =
      if 1 ≤ ax.coord p ∧ InGrid (cellDims c) (prev ax p) then (c.elemIndex (prev ax p) : Int) else -1 := by
  by_cases h : 1 ≤ ax.coord p ∧ InGrid (cellDims c) (prev ax p)
  · rw [if_pos h]
    obtain ⟨i, j, k⟩ := p
    cases ax <;> simp only [InGrid, cellDims, Axis.coord, prev] at hp h <;> simp only [step] <;>
      refine (cellAt_in (by omega)).trans ?_ <;> simp only [prev, Cube.elemIndex] <;>
      push_cast [Nat.cast_sub h.1] <;> ring
  · rw [if_neg h]
    obtain ⟨i, j, k⟩ := p
    cases ax <;> simp only [InGrid, cellDims, Axis.coord, prev] at hp h <;> simp only [step] <;>
      exact cellAt_out (by omega)

theorem cellAt_high {c : Cube} {p : Ijk} (hp : InGrid (cellDims c) p) {ax : Axis} :
    cellAt c (step ax 1 p) =
      if InGrid (cellDims c) (ax.next p) then (c.elemIndex (ax.next p) : Int) else -1 := by
  by_cases h : InGrid (cellDims c) (ax.next p)
  · rw [if_pos h]
    obtain ⟨i, j, k⟩ := p
    cases ax <;> simp only [InGrid, cellDims, Axis.next] at hp h <;> simp only [step] <;>
      refine (cellAt_in (by omega)).trans ?_ <;> simp only [Axis.next, Cube.elemIndex] <;>
      push_cast <;> ring
  · rw [if_neg h]
    obtain ⟨i, j, k⟩ := p
    cases ax <;> simp only [InGrid, cellDims, Axis.next] at hp h <;> simp only [step] <;>
      exact cellAt_out (by omega)

/-- The area vector of a grid face. -/
theorem area2_gridFace {R : Type} [CommRing R] {c : Cube} {X : Int → Vec R} {d : Vec R}
    (hX : ∀ p : Ijk, InGrid (nodeDims c) p →
      X (c.nodeIndex p) = ((p.1 : R) * d.1, (p.2.1 : R) * d.2.1, (p.2.2 : R) * d.2.2))
    {F : Label} (hF : LabelOk c F) : area2 X (faceNodes c F) = gridArea d F.1 + gridArea d F.1 := by
  obtain ⟨ax, i, j, k⟩ := F
  have h : ∀ q ∈ gridFace ax (i, j, k), X (c.nodeIndex q) = ((q.1 : R) * d.1, (q.2.1 : R) * d.2.1, (q.2.2 : R) * d.2.2) :=
    fun q hq => hX q (hF q hq)
  cases ax <;> simp only [gridFace, Axis.next, List.mem_cons, List.not_mem_nil, or_false, forall_eq_or_imp,
    forall_eq] at h <;> obtain ⟨h1, h2, h3, h4⟩ := h <;>
    simp only [faceNodes, gridFace, Axis.next, List.map_cons, List.map_nil] <;>
    rw [area2_quadrangle, h1, h2, h3, h4] <;> simp only [cross, vsub, gridArea] <;> push_cast <;>
    ext <;> simp only [Prod.fst_add, Prod.snd_add] <;> ring

/-- C83, cubes: on a grid of spacing `d`, each face of the file (of two cells or on a side) has its normal directed from
its first cell to its second cell, or out of the grid if there is none; its length is the area of the grid face. -/
theorem cube_normals {R : Type} [CommRing R] (c : Cube) (X : Int → Vec R) (d : Vec R)
    (hX : ∀ p : Ijk, InGrid (c.nx + 1, c.ny + 1, c.nz + 1) p →
      X (c.nodeIndex p) = ((p.1 : R) * d.1, (p.2.1 : R) * d.2.1, (p.2.2 : R) * d.2.2))
    (lb li : List Face) (hf : FacesOf cgnsElem2faces (cubeConn c) lb li) (f : Face) (hfm : f ∈ lb ++ li) :
    ∃ p ax, InGrid (c.nx, c.ny, c.nz) p ∧ f.2.1 = c.elemIndex p ∧
      (f.2.2 = cellAt c (step ax 1 p) ∧ area2 X f.1 = gridArea d ax + gridArea d ax ∨
       f.2.2 = cellAt c (step ax (-1) p) ∧ area2 X f.1 = - (gridArea d ax + gridArea d ax)) := by
  have hmem := (faces_cells hf).1 f hfm
  obtain ⟨p, hp, e, F, hF, hn, hd⟩ := cube_label hmem
  have hadj := Ic3.cube_facesOn hmem (List.Perm.refl _) hF hn
  simp only at e hn hd hadj
  have hw : ∀ a b, cross (X a) (X b) = - cross (X b) (X a) := fun a b => cross_antisymm _ _
  -- the second cell is the other adjacent cell
  have hsecond : ∀ q : Ijk, ∀ P : Prop, [Decidable P] →
      ((adjacent c F).map fun p => (c.elemIndex p : Int)).Perm
        ((c.elemIndex p : Int) :: if P then [(c.elemIndex q : Int)] else []) →
      f.2.2 = if P then (c.elemIndex q : Int) else -1 := by
    intro q P _ hperm
    have hall := hadj.trans hperm
    rcases List.mem_append.1 hfm with hb | hi
    · obtain ⟨a, h1, h2⟩ := hf.boundary f hb
      rw [h2] at hall
      have := hall.length_eq
      by_cases hP : P
      · simp [hP] at this
      · rw [h1, if_neg hP]
    · obtain ⟨nodes, h1⟩ := hf.internal f hi
      have h2 := (h1.map (·.2)).symm.trans hall
      simp only [List.map_cons, List.map_nil] at h2
      by_cases hP : P
      · rw [if_pos hP] at h2 ⊢
        rw [e, List.perm_cons, List.singleton_perm_singleton] at h2
        exact h2
      · rw [if_neg hP] at h2
        have := h2.length_eq
        simp at this
  rcases hd with ⟨a1, b1⟩ | ⟨a1, b1⟩
  · refine ⟨p, F.1, hp, e, .inr ⟨?_, ?_⟩⟩
    · rw [cellAt_low hp]
      apply hsecond
      unfold adjacent
      rw [a1, if_pos hp]
      split <;> simp
    · unfold area2
      rw [circulation_rotated _ b1, circulation_reverse _ hw]
      exact congrArg Neg.neg (area2_gridFace hX hF)
  · refine ⟨p, F.1, hp, e, .inl ⟨?_, ?_⟩⟩
    · rw [cellAt_high hp]
      apply hsecond
      unfold adjacent
      rw [a1, (prev_next _ _).1]
      have h1 : 1 ≤ F.1.coord (F.1.next p) ∧ InGrid (cellDims c) p := ⟨(prev_next _ _).2, hp⟩
      by_cases h2 : InGrid (cellDims c) (F.1.next p)
      · simp only [h1, h2, and_self, if_true, List.map_append, List.map_cons, List.map_nil]
        exact List.Perm.swap _ _ _
      · simp only [h1, h2, and_self, if_true, if_false, List.map_append, List.map_cons, List.map_nil, List.nil_append]
        exact List.Perm.refl _
    · unfold area2
      rw [circulation_rotated _ b1]
      exact area2_gridFace hX hF

end Cfd

namespace Cfd.Ic3
open Spec Spec.Ic3 ElemConn

theorem volume_widths : ∀ tbl ∈ faceTables, ∀ et ∈ volumeTypes, ∀ f ∈ facesOf tbl et, 1 ≤ f.length ∧ f.length ≤ 4 := by
  decide +kernel

theorem tables_wf {tbl : FaceTable} (ht : tbl ∈ faceTables) : TableWF tbl ∧ DistinctWidths tbl := by
  simp only [faceTables, List.mem_cons, List.not_mem_nil, or_false] at ht
  rcases ht with rfl | rfl
  · exact ⟨cgnsTable_wf, cgnsTable_widths⟩
  · exact ⟨gmshTable_wf, gmshTable_widths⟩

theorem conservative_numbered {tbl : FaceTable} (ht : tbl ∈ faceTables) {n : Nat} {c : ElemConn}
    (hn : (allIndices c).Perm (pyRange 0 n))
    (hv : ∀ x ∈ elements c, x.1 ∈ volumeTypes) (ho : Oriented tbl c) {lb li : List Face} (hf : FacesOf tbl c lb li) :
    Conservative n lb li := by
  constructor
  · intro f hfm
    obtain ⟨a, h, _⟩ := hf.boundary f hfm
    rw [h]
  · intro R _ X a ha
    exact C83_closed X tbl ht c hv ho lb li hf a (by omega)
  · intro M _ F
    rw [← C83_conservation F tbl c (valid_of_perm_pyRange hn) lb li hf]
    exact (hn.map _).sum_eq.symm

theorem conservative_of {tbl : FaceTable} (ht : tbl ∈ faceTables) {m : Mesh F64} {c : ElemConn} (hm : CellMesh m c)
    (hv : ∀ x ∈ elements c, x.1 ∈ volumeTypes) (ho : Oriented tbl c) {lb li : List Face} (hf : FacesOf tbl c lb li) :
    Conservative m.ncell lb li := by
  refine conservative_numbered ht ?_ hv ho hf
  have h := perm_pyRange_of_valid hm.numbering
  have hl : (allIndices c).length = m.ncell := by
    unfold allIndices
    rw [List.length_map, hm.ncell, hm.conn.nelem]
  rw [hl] at h
  exact h

/-- C83: the IC3 file written from a conforming, consistently oriented mesh of linear volume cells is read as a mesh
whose faces are conservative. -/
theorem C83_file (tbl : FaceTable) (ht : tbl ∈ faceTables)
    (so : List Int → List Int) (hso : Reorders so) (host : Order) (e : Endian) (v : Ver) (cv : Conv)
    (f : FullMesh) (c : ElemConn) (hm : CellMesh f.mesh c) (hv : ∀ x ∈ elements c, x.1 ∈ volumeTypes)
    (hcf : Conforming tbl c) (ho : Oriented tbl c) (hn : NamesFit f)
    (b : Bytes) (h : writeIc3 tbl so host e v cv f = (some b, .ok ()))
    (hd : ∀ m', completeMesh tbl so f.mesh = .ok m' → DataStorable v f m') (integ : Bool) :
    ∃ g lb li, readIc3 integ b = .ok g ∧ MeshFaces g.mesh (lb ++ li) ∧ Conservative g.mesh.ncell lb li := by
  obtain ⟨hwf, hdw⟩ := tables_wf ht
  obtain ⟨g, lb, li, hr, hfc⟩ := C62_from_cells tbl hwf hdw so hso host e v cv f c hm hcf (by
    intro o ho
    obtain ⟨x, hx, _, q, hq, e⟩ := cell_of_face ho
    have := volume_widths tbl ht x.1 (hv x hx) q hq
    rw [e]
    simpa using this) hn b h hd integ
  refine ⟨g, lb, li, hr, hfc.faces, ?_⟩
  rw [hfc.ncell]
  exact conservative_of ht hm hv ho hfc.facesOf

/-- C83, cubes: the file written for a structured cube of two cells or more is read as a mesh with conservative faces;
on a grid of spacing `d`, the area vector of each face is the one of a grid face, directed from the first cell to the
second cell, or out of the grid. -/
theorem C83_cube {K : Type} [Div K] [NatCast K] (c : Cube) (hx : 1 ≤ c.nx) (hy : 1 ≤ c.ny) (hz : 1 ≤ c.nz)
    (h2 : 2 ≤ c.nx * c.ny * c.nz)
    (hnode : Small ((c.nx + 1) * (c.ny + 1) * (c.nz + 1))) (hface : Small (cubeFaces c))
    (m : Mesh K) (hm : c.exportMesh = .ok m) (bits : K → F64)
    (so : List Int → List Int) (hso : Reorders so) (host : Order) (e : Endian) (v : Ver) (cv : Conv)
    (f : FullMesh) (hf : f.mesh = storedMesh bits m) (hn : NamesFit f)
    (hd : DataStorable v f { f.mesh with nface := cubeFaces c }) (df : DataFits v cv f f.mesh.ncell) (integ : Bool) :
    ∃ b g lb li, writeIc3 cgnsElem2faces so host e v cv f = (some b, .ok ()) ∧ readIc3 integ b = .ok g ∧
      MeshFaces g.mesh (lb ++ li) ∧ Conservative g.mesh.ncell lb li ∧
      ∀ (R : Type) [CommRing R] (X : Int → Vec R) (d : Vec R),
        (∀ p : Ijk, InGrid (c.nx + 1, c.ny + 1, c.nz + 1) p →
          X (c.nodeIndex p) = ((p.1 : R) * d.1, (p.2.1 : R) * d.2.1, (p.2.2 : R) * d.2.2)) →
        ∀ f ∈ lb ++ li, ∃ p ax, InGrid (c.nx, c.ny, c.nz) p ∧ f.2.1 = c.elemIndex p ∧
          (f.2.2 = cellAt c (step ax 1 p) ∧ area2 X f.1 = gridArea d ax + gridArea d ax ∨
           f.2.2 = cellAt c (step ax (-1) p) ∧ area2 X f.1 = - (gridArea d ax + gridArea d ax)) := by
  have hm' : m = cubeMesh c := by
    rw [exportMesh_eq c (elemIjk_ne_nil hx hy hz)] at hm
    simpa using hm.symm
  subst hm'
  have hcm : CellMesh f.mesh (cubeConn c) := hf ▸ cube_cells bits hx hy hz
  have hfit : CellsFit cgnsElem2faces f.mesh (cubeConn c) := hf ▸ cube_fits bits hx hy hz h2 hnode hface
  obtain ⟨b, g, lb, li, hw, hr, hfc⟩ := C63_cells cgnsElem2faces cgnsTable_wf cgnsTable_widths so hso host e v cv f
    (cubeConn c) hcm (cubeConn_known c) hfit hn (by rw [cube_faceCount hx hy hz h2]; exact hd) df integ
  refine ⟨b, g, lb, li, hw, hr, hfc.faces, ?_, ?_⟩
  · rw [hfc.ncell]
    refine conservative_of (by decide) hcm ?_ (cube_oriented c) hfc.facesOf
    intro x hx
    rw [cubeConn_elements] at hx
    obtain ⟨p, _, rfl⟩ := List.mem_map.1 hx
    exact (by decide : "hexa8" ∈ volumeTypes)
  · intro R _ X d hX f hfm
    exact cube_normals c X d hX lb li hfc.facesOf f hfm

/-! ## The hypotheses are met -/

theorem exTetras_oriented : Oriented cgnsElem2faces exTetras := oriented_of_ok (by decide +kernel)

theorem exTetras_volumes : ∀ x ∈ elements exTetras, x.1 ∈ volumeTypes := by decide
theorem exTetras_valid : ValidNumbering (allIndices exTetras) := valid_of_perm_pyRange (n := 2) (by decide)

/-- The faces of two tetrahedra: six outer ones and one between them. -/
def pairOuter : List Face := [([2, 1, 0], 0, -1), ([1, 3, 0], 0, -1), ([0, 3, 2], 0, -1),
  ([3, 1, 4], 1, -1), ([1, 2, 4], 1, -1), ([4, 2, 3], 1, -1)]
def pairInner : List Face := [([2, 3, 1], 0, 1)]

theorem pair_faces : FacesOf cgnsElem2faces exTetras pairOuter pairInner where
  once := by decide +kernel
  boundary := by
    intro f hf
    refine ⟨f.2.1, ?_⟩
    revert f
    decide +kernel
  internal := by
    intro f hf
    obtain rfl : f = ([2, 3, 1], 0, 1) := List.mem_singleton.1 hf
    exact ⟨[3, 2, 1], by decide +kernel⟩

example {R : Type} [CommRing R] (X : Int → Vec R) := C83_closed X cgnsElem2faces (by decide) exTetras exTetras_volumes
  exTetras_oriented _ _ pair_faces 1 (by decide)
example {M : Type} [AddCommGroup M] (F : Face → M) := C83_conservation F _ exTetras exTetras_valid _ _ pair_faces
example {R : Type} [CommRing R] (X : Int → Vec R) := C83_boundary_closed X cgnsElem2faces (by decide) exTetras
  exTetras_volumes exTetras_valid exTetras_oriented _ _ pair_faces
/-- With these positions, the balance is not made of zeros. -/
def pairAt (n : Int) : Vec Int := [(0, 0, 0), (2, 0, 0), (0, 2, 0), (0, 0, 2), (2, 2, 2)].getD n.toNat (0, 0, 0)
example : (pairOuter ++ pairInner).map (fun f => area2 pairAt f.1) = [(0, 0, -4), (0, -4, 0), (-4, 0, 0),
    (4, -4, 4), (4, 4, -4), (-4, 4, 4), (4, 4, 4)] := by decide
/-- Two cells that list the face in the same direction: the balance is not zero. -/
example : ¬ balance (fun f => area2 pairAt f.1) ((pairOuter.take 3) ++ [([2, 1, 3], 0, 1)]) 0 = 0 := by decide

/-- Both tetrahedra are affine images of the reference one. -/
theorem pair_affine : ∀ x ∈ elements exTetras, ∃ A : Affine Int, 0 < A.det ∧
    ∀ k < (refNodes x.1).length, pairAt (x.2.2.getD k 0) = A.img (refNode x.1 k) := by
  intro x hx
  have : x = ("tetra4", 0, [0, 1, 2, 3]) ∨ x = ("tetra4", 1, [4, 1, 3, 2]) := by
    revert x; decide
  rcases this with rfl | rfl
  · exact ⟨⟨(1, 0, 0), (0, 1, 0), (0, 0, 1), (0, 0, 0)⟩, by decide, by decide⟩
  · exact ⟨⟨(0, -1, -1), (-1, -1, 0), (-1, 0, -1), (2, 2, 2)⟩, by decide, by decide⟩

example := C83_directed pairAt cgnsElem2faces (by decide) exTetras exTetras_volumes exTetras_valid exTetras_oriented
  pair_affine _ _ pair_faces ([2, 3, 1], 0, 1) (by decide) "tetra4" 1 [4, 1, 3, 2] (by decide) 0 (by decide) (by decide)

/-- Two triangles of a plane. -/
def exPlane : ElemConn := ⟨2, [("tri3", ⟨.range 0 1, ⟨some 3, [[0, 1, 2], [2, 1, 3]]⟩⟩)]⟩

theorem exPlane_oriented : OrientedPlane gmshElem2faces exPlane := by
  intro o₁ o₂ h
  have m1 := mem_facesOn.1 (show o₁ ∈ facesOn gmshElem2faces exPlane o₁.1 by rw [h.mem_iff]; simp)
  have m2 := mem_facesOn.1 (show o₂ ∈ facesOn gmshElem2faces exPlane o₁.1 by rw [h.mem_iff]; simp)
  have hl := h.length_eq
  revert hl
  have key : ∀ o₁ ∈ facesOfCells gmshElem2faces exPlane, ∀ o₂ ∈ facesOfCells gmshElem2faces exPlane, o₂.1.Perm o₁.1 →
      (facesOn gmshElem2faces exPlane o₁.1).length = [o₁, o₂].length → o₁ ≠ o₂ → o₂.1 = o₁.1.reverse := by decide +kernel
  intro hl
  refine key o₁ m1.1 o₂ m2.1 m2.2 hl ?_
  rintro rfl
  have hn : (facesOn gmshElem2faces exPlane o₁.1).Nodup := List.Nodup.filter _ (by decide +kernel)
  rw [h.nodup_iff] at hn
  simp at hn

theorem plane_faces : FacesOf gmshElem2faces exPlane [([1, 0], 0, -1), ([0, 2], 0, -1), ([2, 3], 1, -1),
    ([3, 1], 1, -1)] [([2, 1], 0, 1)] where
  once := by decide +kernel
  boundary := by
    intro f hf
    refine ⟨f.2.1, ?_⟩
    revert f
    decide +kernel
  internal := by
    intro f hf
    obtain rfl : f = ([2, 1], 0, 1) := List.mem_singleton.1 hf
    exact ⟨[1, 2], by decide +kernel⟩

example {M : Type} [AddCommGroup M] (X : Int → M) := C83_closed_plane X gmshElem2faces (by decide) exPlane (by decide)
  exPlane_oriented _ _ plane_faces 1 (by decide)

/-- The file of the two tetrahedra. -/
example (v : Ver) (integ : Bool) : ∃ b g lb li, writeIc3 cgnsElem2faces id .little .native v noConv tetPair =
    (some b, .ok ()) ∧ readIc3 integ b = .ok g ∧ MeshFaces g.mesh (lb ++ li) ∧ Conservative g.mesh.ncell lb li := by
  obtain ⟨b, hb⟩ := tetPair_written .native v
  obtain ⟨g, lb, li, h⟩ := C83_file cgnsElem2faces (by decide) id (fun l => List.Perm.refl l) _ _ v _ tetPair _
    tetPair_cells exTetras_volumes exTetras_conforming exTetras_oriented tetPair_names b hb (by
      intro m' hm'
      have h : (match completeMesh cgnsElem2faces id tetPair.mesh with
        | .ok m => decide (m.ncell = 2 ∧ m.nnode = 5 ∧ m.nface = 7)
        | .error _ => false) = true := by decide +kernel
      rw [hm'] at h
      simp only [decide_eq_true_eq] at h
      obtain ⟨h1, h2, h3⟩ := h
      cases v <;> constructor <;> (try rw [h1]) <;> (try rw [h2]) <;> (try rw [h3]) <;> decide) integ
  exact ⟨b, g, lb, li, hb, h⟩

example (e : Endian) (v : Ver) (cv : Conv) (integ : Bool) := C83_cube ⟨2, 1, 3⟩ (by decide) (by decide) (by decide)
  (by decide) (by decide) (by decide) (cubeMesh ⟨2, 1, 3⟩ : Mesh Nat) (exportMesh_eq _ (by decide)) UInt64.ofNat id
  (fun l => List.Perm.refl l) .little e v cv cube213 rfl cube213_names (cube213_data v) (cube213_fits v cv) integ
/-- Positions on a grid exist: those of the node of each grid point (see C23). -/
example : ∃ X : Int → Vec Int, ∀ p : Ijk, InGrid (3, 2, 4) p →
    X ((Cube.mk 2 1 3).nodeIndex p) = ((p.1 : Int) * 5, (p.2.1 : Int) * 7, (p.2.2 : Int) * 2) := by
  refine ⟨fun n => (n / 8 * 5, n / 4 % 2 * 7, n % 4 * 2), ?_⟩
  rintro ⟨i, j, k⟩ ⟨h1, h2, h3⟩
  simp only [Cube.nodeIndex] at h1 h2 h3 ⊢
  ext <;> simp only <;> congr 1 <;> omega

end Cfd.Ic3

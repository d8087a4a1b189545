import Verif.Lemmas.Cube
import Verif.Props.Faces

/-! Faces of a structured grid. -/

namespace Cfd
open Spec ElemConn

/-- A face of the grid: direction and lowest corner. -/
abbrev Label := Axis × Ijk

/-- Node numbers of a grid face. -/
def faceNodes (c : Cube) (F : Label) : List Int := (gridFace F.1 F.2).map fun q => (c.nodeIndex q : Int)

/-- Labels and nodes of the faces of a cell, in the order of the table. -/
def cellLabels (c : Cube) (p : Ijk) : List (Label × List Int) :=
  let n (q : Ijk) : Int := (c.nodeIndex q : Int)
  let (i, j, k) := p
  [((.z, p), [n (i, j + 1, k), n (i + 1, j + 1, k), n (i + 1, j, k), n (i, j, k)]),
   ((.y, p), [n (i + 1, j, k), n (i + 1, j, k + 1), n (i, j, k + 1), n (i, j, k)]),
   ((.x, (i + 1, j, k)), [n (i + 1, j + 1, k), n (i + 1, j + 1, k + 1), n (i + 1, j, k + 1), n (i + 1, j, k)]),
   ((.y, (i, j + 1, k)), [n (i, j + 1, k), n (i, j + 1, k + 1), n (i + 1, j + 1, k + 1), n (i + 1, j + 1, k)]),
   ((.x, p), [n (i, j, k + 1), n (i, j + 1, k + 1), n (i, j + 1, k), n (i, j, k)]),
   ((.z, (i, j, k + 1)), [n (i + 1, j, k + 1), n (i + 1, j + 1, k + 1), n (i, j + 1, k + 1), n (i, j, k + 1)])]

theorem cellFaces_cube (c : Cube) : cellFaces cgnsElem2faces (cubeConn c) "quad4" =
    c.elemIjk.flatMap fun p => (cellLabels c p).map fun q => (q.2, (c.elemIndex p : Int)) := by
  unfold cellFaces
  rw [cubeConn_elements, List.flatMap_map]
  apply List.flatMap_congr
  rintro ⟨i, j, k⟩ _
  have : localFaces cgnsElem2faces "hexa8" "quad4" =
      [[0, 1, 2, 3], [0, 4, 5, 1], [1, 5, 6, 2], [2, 6, 7, 3], [0, 3, 7, 4], [4, 7, 6, 5]] := by decide
  rw [this]
  rfl

theorem cellFaces_cube_other (c : Cube) (ft : String) (h : ft ≠ "quad4") :
    cellFaces cgnsElem2faces (cubeConn c) ft = [] := by
  unfold cellFaces
  rw [cubeConn_elements, List.flatMap_map]
  have : localFaces cgnsElem2faces "hexa8" ft = [] := by
    unfold localFaces
    have : (cgnsElem2faces.get? "hexa8").getD [] = [("tri3", []), ("quad4",
      [[0, 1, 2, 3], [0, 4, 5, 1], [1, 5, 6, 2], [2, 6, 7, 3], [0, 3, 7, 4], [4, 7, 6, 5]])] := by decide
    rw [this]
    simp only [List.flatMap_cons, List.flatMap_nil, List.append_nil]
    rw [if_neg (Ne.symm h)]
    split <;> rfl
  simp only [this, List.map_nil]
  induction c.elemIjk <;> simp_all

theorem perm_rev4 {α : Type} (a b c d : α) : [d, c, b, a].Perm [a, b, c, d] :=
  List.reverse_perm [a, b, c, d]

theorem perm_rot4 {α : Type} (a b c d : α) : [b, c, d, a].Perm [a, b, c, d] := by
  simpa using List.perm_append_comm (l₁ := [b, c, d]) (l₂ := [a])

theorem cellLabels_perm (c : Cube) (p : Ijk) : ∀ q ∈ cellLabels c p, q.2.Perm (faceNodes c q.1) := by
  obtain ⟨i, j, k⟩ := p
  intro q hq
  simp only [cellLabels, List.mem_cons, List.not_mem_nil, or_false] at hq
  rcases hq with rfl | rfl | rfl | rfl | rfl | rfl <;>
    simp only [faceNodes, gridFace, Axis.next, List.map_cons, List.map_nil]
  · exact perm_rev4 _ _ _ _
  · exact perm_rev4 _ _ _ _
  · exact (perm_rot4 _ _ _ _)
  · exact List.Perm.refl _
  · exact perm_rev4 _ _ _ _
  · exact perm_rot4 _ _ _ _

/-- All corners of the face are nodes. -/
def LabelOk (c : Cube) (F : Label) : Prop := ∀ q ∈ gridFace F.1 F.2, InGrid (nodeDims c) q

theorem cellLabels_ok {c : Cube} {p : Ijk} (hp : InGrid (cellDims c) p) :
    ∀ q ∈ cellLabels c p, LabelOk c q.1 := by
  obtain ⟨i, j, k⟩ := p
  simp only [InGrid, cellDims] at hp
  intro q hq
  simp only [cellLabels, List.mem_cons, List.not_mem_nil, or_false] at hq
  rcases hq with rfl | rfl | rfl | rfl | rfl | rfl <;>
    simp [LabelOk, gridFace, Axis.next, InGrid, nodeDims] <;> omega

theorem le_of_mem_gridFace {a : Axis} {p r : Ijk} (h : r ∈ gridFace a p) :
    p.1 ≤ r.1 ∧ p.2.1 ≤ r.2.1 ∧ p.2.2 ≤ r.2.2 := by
  cases a <;> simp only [gridFace, Axis.next, List.mem_cons, List.not_mem_nil, or_false] at h <;>
    rcases h with rfl | rfl | rfl | rfl <;> simp

theorem low_mem_gridFace (a : Axis) (p : Ijk) : p ∈ gridFace a p := by
  cases a <;> simp [gridFace]

theorem gridFace_inj {a b : Axis} {p q : Ijk} (h : ∀ r, r ∈ gridFace a p ↔ r ∈ gridFace b q) :
    a = b ∧ p = q := by
  have h1 := le_of_mem_gridFace ((h p).1 (low_mem_gridFace a p))
  have h2 := le_of_mem_gridFace ((h q).2 (low_mem_gridFace b q))
  have hpq : p = q := by
    apply Prod.ext
    · omega
    · apply Prod.ext <;> omega
  subst hpq
  refine ⟨?_, rfl⟩
  obtain ⟨i, j, k⟩ := p
  have h3 := h (i, j + 1, k + 1)
  have h4 := h (i + 1, j, k + 1)
  cases a <;> cases b <;> simp [gridFace, Axis.next] at h3 h4 ⊢

theorem faceNodes_inj {c : Cube} {F G : Label} (hF : LabelOk c F) (hG : LabelOk c G)
    (h : (faceNodes c F).Perm (faceNodes c G)) : F = G := by
  have key : ∀ {F G : Label}, LabelOk c F → LabelOk c G → (faceNodes c F).Perm (faceNodes c G) →
      ∀ r, r ∈ gridFace F.1 F.2 → r ∈ gridFace G.1 G.2 := by
    intro F G hF hG h r hr
    have h1 : (c.nodeIndex r : Int) ∈ faceNodes c G := (h.mem_iff).1 (List.mem_map_of_mem hr)
    obtain ⟨s, hs, hsr⟩ := List.mem_map.1 h1
    have : s = r := nodeIndex_inj (hG s hs) (hF r hr) (by exact_mod_cast hsr)
    exact this ▸ hs
  have := gridFace_inj (a := F.1) (b := G.1) (p := F.2) (q := G.2)
    fun r => ⟨key hF hG h r, key hG hF h.symm r⟩
  exact Prod.ext this.1 this.2

/-- The previous point in a direction. -/
def prev : Axis → Ijk → Ijk
  | .x, p => (p.1 - 1, p.2.1, p.2.2)
  | .y, p => (p.1, p.2.1 - 1, p.2.2)
  | .z, p => (p.1, p.2.1, p.2.2 - 1)

/-- Cells on both sides of a grid face. -/
def adjacent (c : Cube) (F : Label) : List Ijk :=
  (if InGrid (cellDims c) F.2 then [F.2] else []) ++
  (if 1 ≤ F.1.coord F.2 ∧ InGrid (cellDims c) (prev F.1 F.2) then [prev F.1 F.2] else [])

theorem filter_eq_of_nodup {α : Type} [DecidableEq α] {l : List α} (h : l.Nodup) (a : α) :
    l.filter (fun x => decide (x = a)) = if a ∈ l then [a] else [] := by
  induction l with
  | nil => simp
  | cons b t ih =>
    rw [List.nodup_cons] at h
    rw [List.filter_cons]
    by_cases hb : b = a
    · subst hb
      simp only [decide_true, if_true, List.mem_cons, true_or]
      rw [ih h.2, if_neg h.1]
    · simp only [hb, decide_false, Bool.false_eq_true, if_false, ih h.2, List.mem_cons, Ne.symm hb, false_or]

/-- The cells having a given grid face. -/
theorem cells_of_face (c : Cube) (F : Label) (hF : LabelOk c F) :
    (((cellFaces cgnsElem2faces (cubeConn c) "quad4").filter fun o => o.1.isPerm (faceNodes c F)).map
      (·.2)).Perm ((adjacent c F).map fun p => (c.elemIndex p : Int)) := by
  rw [cellFaces_cube, List.filter_flatMap, List.map_flatMap]
  -- one cell
  have h1 : ∀ p ∈ c.elemIjk, ((((cellLabels c p).map fun q => (q.2, (c.elemIndex p : Int))).filter
      fun o => o.1.isPerm (faceNodes c F)).map (·.2)).Perm
      ((if p = F.2 then [(c.elemIndex p : Int)] else []) ++
       (if F.1.next p = F.2 then [(c.elemIndex p : Int)] else [])) := by
    intro p hp
    have hin := mem_elemIjk.1 hp
    rw [List.filter_map, List.map_map]
    have h2 : (cellLabels c p).filter ((fun o : List Int × Int => o.1.isPerm (faceNodes c F)) ∘
        fun q => (q.2, (c.elemIndex p : Int))) = (cellLabels c p).filter fun q => decide (q.1 = F) := by
      apply List.filter_congr
      intro q hq
      simp only [Function.comp]
      rw [Bool.eq_iff_iff, List.isPerm_iff, decide_eq_true_iff]
      constructor
      · intro hperm
        exact faceNodes_inj (cellLabels_ok hin q hq) hF ((cellLabels_perm c p q hq).symm.trans hperm)
      · rintro rfl
        exact cellLabels_perm c p q hq
    rw [h2]
    obtain ⟨i, j, k⟩ := p
    obtain ⟨ax, q⟩ := F
    simp only [cellLabels, List.filter_cons, List.filter_nil, Prod.mk.injEq]
    have hx : (i, j, k) ≠ (i + 1, j, k) := by simp
    have hy : (i, j, k) ≠ (i, j + 1, k) := by simp
    have hz : (i, j, k) ≠ (i, j, k + 1) := by simp
    cases ax <;> simp only [reduceCtorEq, false_and, true_and, decide_false, Bool.false_eq_true, if_false,
      Axis.next, decide_eq_true_eq] <;> by_cases e1 : (i, j, k) = q
    · subst e1; simp
    · simp only [e1, if_false, List.nil_append]
      split <;> simp_all
    · subst e1; simp
    · simp only [e1, if_false, List.nil_append]
      split <;> simp_all
    · subst e1; simp
    · simp only [e1, if_false, List.nil_append]
      split <;> simp_all
  refine (List.Perm.flatMap_left _ h1).trans ?_
  refine (List.flatMap_append_perm _ _ _).symm.trans ?_
  unfold adjacent
  rw [List.map_append]
  have hsing : ∀ (P : Ijk → Prop) [DecidablePred P], (c.elemIjk.flatMap fun p =>
      if P p then [(c.elemIndex p : Int)] else []) =
      (c.elemIjk.filter fun p => decide (P p)).map fun p => (c.elemIndex p : Int) := by
    intro P _
    induction c.elemIjk with
    | nil => rfl
    | cons a t ih =>
      rw [List.flatMap_cons, ih, List.filter_cons]
      by_cases ha : P a <;> simp [ha]
  rw [hsing, hsing]
  refine List.Perm.append (List.Perm.of_eq ?_) (List.Perm.of_eq ?_)
  · rw [filter_eq_of_nodup (nodup_elemIjk c)]
    simp only [mem_elemIjk]
  · have h3 : ∀ p : Ijk, F.1.next p = F.2 ↔ 1 ≤ F.1.coord F.2 ∧ p = prev F.1 F.2 := by
      rintro ⟨i, j, k⟩
      obtain ⟨ax, i', j', k'⟩ := F
      cases ax <;> simp only [Axis.next, Axis.coord, prev, Prod.mk.injEq] <;> omega
    by_cases hc : 1 ≤ F.1.coord F.2
    · have : (c.elemIjk.filter fun p => decide (F.1.next p = F.2)) =
          c.elemIjk.filter fun p => decide (p = prev F.1 F.2) := by
        apply List.filter_congr
        intro p _
        simp [h3, hc]
      rw [this, filter_eq_of_nodup (nodup_elemIjk c)]
      simp only [mem_elemIjk, hc, true_and]
    · have : (c.elemIjk.filter fun p => decide (F.1.next p = F.2)) = [] := by
        rw [List.filter_eq_nil_iff]
        intro p _
        simp [h3, hc]
      rw [this, if_neg (by simp [hc])]

theorem occurrences_cube (c : Cube) (F : Label) (hF : LabelOk c F) :
    occurrences cgnsElem2faces (cubeConn c) "quad4" (faceNodes c F) = (adjacent c F).length := by
  have := (cells_of_face c F hF).length_eq
  simp only [List.length_map] at this
  rw [← this, occurrences, List.countP_eq_length_filter]

/-- Every cell face has a label. -/
theorem label_of_cellFace {c : Cube} {o : FaceOcc}
    (h : o ∈ cellFaces cgnsElem2faces (cubeConn c) "quad4") :
    ∃ F, LabelOk c F ∧ o.1.Perm (faceNodes c F) := by
  rw [cellFaces_cube] at h
  obtain ⟨p, hp, h⟩ := List.mem_flatMap.1 h
  obtain ⟨q, hq, rfl⟩ := List.mem_map.1 h
  exact ⟨q.1, cellLabels_ok (mem_elemIjk.1 hp) q hq, cellLabels_perm c p q hq⟩

theorem occurrences_perm (tbl : FaceTable) (c : ElemConn) (ft : String) {n m : List Int} (h : n.Perm m) :
    occurrences tbl c ft n = occurrences tbl c ft m := by
  unfold occurrences
  apply List.countP_congr
  intro o _
  rw [List.isPerm_iff, List.isPerm_iff]
  exact ⟨fun h1 => h1.trans h, fun h1 => h1.trans h.symm⟩

theorem adjacent_length_le (c : Cube) (F : Label) : (adjacent c F).length ≤ 2 := by
  unfold adjacent
  split <;> split <;> simp

theorem cubeConn_known (c : Cube) : CellsKnown cgnsElem2faces (cubeConn c) := by
  intro p hp
  simp only [cubeConn, List.mem_singleton] at hp
  subst hp
  refine ⟨[("tri3", []), ("quad4",
      [[0, 1, 2, 3], [0, 4, 5, 1], [1, 5, 6, 2], [2, 6, 7, 3], [0, 3, 7, 4], [4, 7, 6, 5]])], 8,
      ?_, rfl, ?_⟩
  · show Dict.get? cgnsElem2faces "hexa8" = _
    decide
  · decide

theorem cubeConn_faceTypes (c : Cube) : faceTypes cgnsElem2faces (cubeConn c) = ["quad4"] := by
  have : (cubeConn c).tbl.keys = ["hexa8"] := rfl
  unfold faceTypes
  rw [this]
  decide

end Cfd

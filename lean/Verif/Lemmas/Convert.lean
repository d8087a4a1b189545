import Verif.Spec.Convert
import Verif.Lemmas.GmshRead
import Verif.Props.Ic3Writes

/-! Lemmas for C64: from the elements of a Gmsh file to the faces of the mesh. -/

namespace Cfd.Convert
open Cfd.Spec Cfd.Spec.Ic3 Cfd.Spec.Gmsh Cfd.Spec.Convert Cfd.Ic3 Cfd.Gmsh

/-- A list is, up to order, the union of its parts by key. -/
theorem perm_by_key {α κ : Type} [DecidableEq κ] (key : α → κ) : ∀ (ks : List κ) (l : List α), ks.Nodup →
    (∀ a ∈ l, key a ∈ ks) → (ks.flatMap fun k => l.filter fun a => key a = k).Perm l := by
  intro ks
  induction ks with
  | nil =>
    intro l _ h
    cases l with
    | nil => exact .nil
    | cons a t => exact absurd (h a (by simp)) (by simp)
  | cons k t ih =>
    intro l hnd h
    rw [List.nodup_cons] at hnd
    rw [List.flatMap_cons]
    have h1 : (t.flatMap fun k' => l.filter fun a => key a = k') =
        t.flatMap fun k' => (l.filter fun a => !decide (key a = k)).filter fun a => key a = k' := by
      apply List.flatMap_congr
      intro k' hk'
      rw [List.filter_filter]
      apply List.filter_congr
      intro a _
      by_cases h1 : key a = k'
      · have : key a ≠ k := by rintro rfl; rw [h1] at hnd; exact hnd.1 hk'
        rw [decide_eq_false this, Bool.not_false, Bool.and_true]
      · simp [h1]
    rw [h1]
    refine (List.Perm.append_left _ (ih _ hnd.2 ?_)).trans (List.filter_append_perm (fun a => decide (key a = k)) l)
    intro a ha
    rw [List.mem_filter] at ha
    rcases List.mem_cons.1 (h a ha.1) with h2 | h2
    · simp [h2] at ha
    · exact h2

/-- Types and nodes of the cells. -/
theorem cells_perm {cells : List Elt} {c : ElemConn} (h : IsCells cells c) :
    ((elements c).map fun x => (x.1, x.2.2)).Perm (cells.map fun e => (e.name, e.nodes.map (· - 1))) := by
  have h1 : (elements c).map (fun x => (x.1, x.2.2)) =
      c.tbl.keys.flatMap fun t => ((elementsOf c t).map (·.2)).map fun r => (t, r) := by
    unfold elements Dict.keys
    rw [List.map_flatMap, List.flatMap_map]
    apply List.flatMap_congr
    intro p hp
    unfold elementsOf
    rw [Dict.get?_of_mem h.wf.keys hp]
    simp [List.map_map, Function.comp_def]
  rw [h1, h.types]
  have h2 : ((firstUse (cells.map Elt.name)).flatMap fun t => ((elementsOf c t).map (·.2)).map fun r => (t, r)) =
      ((firstUse (cells.map Elt.name)).flatMap fun t => cells.filter fun e => e.name = t).map
        fun e => (e.name, e.nodes.map (· - 1)) := by
    rw [List.map_flatMap]
    apply List.flatMap_congr
    intro t _
    rw [h.rows t, List.map_map]
    apply List.map_congr_left
    intro e he
    simp only [List.mem_filter, decide_eq_true_eq] at he
    simp [he.2]
  rw [h2]
  exact (perm_by_key Elt.name _ cells (nodup_firstUse _) fun e he => mem_firstUse.2 (List.mem_map_of_mem he)).map _

/-- Face numbers of the table are below the number of nodes; faces have one to four nodes. -/
theorem gmshTable_range : ∀ p ∈ documented, ∀ q ∈ (gmshElem2faces.get? p.2.1).getD [], ∀ f ∈ q.2,
    (∀ k ∈ f, k < p.2.2.2) ∧ 1 ≤ f.length ∧ f.length ≤ 4 := by decide

theorem elt_faces {e : Elt} (h : e.Supported) :
    (((gmshElem2faces.get? e.name).getD []).flatMap fun q => q.2.map fun f =>
      f.reverse.map fun k => (e.nodes.map (· - 1)).getD k 0) = (eltFaces e).map fun n => n.map (· - 1) := by
  unfold eltFaces
  rw [List.map_flatMap]
  apply List.flatMap_congr
  intro q hq
  rw [List.map_map]
  apply List.map_congr_left
  intro f hf
  simp only [Function.comp_apply, List.map_map]
  apply List.map_congr_left
  intro k hk
  have hlt : k < e.nodes.length := (gmshTable_range _ (supported_entry h) q hq f hf).1 k (List.mem_reverse.1 hk)
  simp only [Function.comp_apply, List.getD_eq_getElem?_getD, List.getElem?_map, List.getElem?_eq_getElem hlt,
    Option.map_some, Option.getD_some]

/-- Faces of the cells of the mesh, with the node numbers of the file. -/
theorem faces_perm {cells : List Elt} {c : ElemConn} (h : IsCells cells c) (hs : ∀ e ∈ cells, e.Supported) :
    ((facesOfCells gmshElem2faces c).map fun o => o.1.map (· + 1)).Perm (cells.flatMap eltFaces) := by
  have h1 : (facesOfCells gmshElem2faces c).map (·.1) = ((elements c).map fun x => (x.1, x.2.2)).flatMap fun y =>
      ((gmshElem2faces.get? y.1).getD []).flatMap fun q => q.2.map fun f => f.reverse.map fun k => y.2.getD k 0 := by
    unfold facesOfCells
    rw [List.map_flatMap, List.flatMap_map]
    apply List.flatMap_congr
    intro x _
    rw [List.map_flatMap]
    apply List.flatMap_congr
    intro q _
    rw [List.map_map]
    rfl
  have h2 : ((facesOfCells gmshElem2faces c).map (·.1)).Perm (cells.flatMap fun e => (eltFaces e).map fun n => n.map (· - 1)) := by
    rw [h1]
    refine ((cells_perm h).flatMap_right _).trans ?_
    rw [List.flatMap_map]
    refine List.Perm.of_eq (List.flatMap_congr ?_)
    intro e he
    exact elt_faces (hs e he)
  have h3 := h2.map fun n : List Int => n.map (· + 1)
  rw [List.map_map] at h3
  refine h3.trans (List.Perm.of_eq ?_)
  rw [List.map_flatMap]
  apply List.flatMap_congr
  intro e _
  rw [List.map_map]
  conv_rhs => rw [← List.map_id (eltFaces e)]
  apply List.map_congr_left
  intro n _
  simp [Function.comp_def]

theorem succ_perm {a b : List Int} : (a.map (· + 1)).Perm (b.map (· + 1)) ↔ a.Perm b :=
  List.map_perm_map_iff (fun x y h => by simpa using h)

theorem sharing_eq {elts : List Elt} {c : ElemConn} (h : IsCells (cellsOf elts) c)
    (hs : ∀ e ∈ cellsOf elts, e.Supported) (n : List Int) :
    sharing elts (n.map (· + 1)) = (facesOn gmshElem2faces c n).length := by
  unfold sharing facesOn
  rw [← (faces_perm h hs).countP_eq, List.countP_map, List.countP_eq_length_filter]
  congr 1
  apply List.filter_congr
  intro o _
  simp only [Function.comp_apply]
  rw [Bool.eq_iff_iff, List.isPerm_iff, List.isPerm_iff, succ_perm]

/-- A face of a cell of the mesh is a face of a cell of the file. -/
theorem face_iff {elts : List Elt} {c : ElemConn} (h : IsCells (cellsOf elts) c)
    (hs : ∀ e ∈ cellsOf elts, e.Supported) (n : List Int) :
    (∃ o ∈ facesOfCells gmshElem2faces c, o.1.map (· + 1) = n) ↔ ∃ e ∈ cellsOf elts, n ∈ eltFaces e := by
  have := (faces_perm h hs).mem_iff (a := n)
  simpa only [List.mem_map, List.mem_flatMap] using this

theorem sortInts_succ (n : List Int) : sortInts (n.map (· + 1)) = (sortInts n).map (· + 1) := by
  unfold sortInts
  exact (List.map_insertionSort _ _ _ _ fun a _ b _ => by simp).symm

theorem faceTotal_eq {elts : List Elt} {c : ElemConn} (h : IsCells (cellsOf elts) c)
    (hs : ∀ e ∈ cellsOf elts, e.Supported) : faceCount gmshElem2faces c = faceTotal elts := by
  unfold faceCount faceTotal
  have h1 := (((faces_perm h hs).map sortInts).dedup).length_eq
  rw [← h1, List.map_map]
  have h2 : (facesOfCells gmshElem2faces c).map (sortInts ∘ fun o => o.1.map (· + 1)) =
      ((facesOfCells gmshElem2faces c).map fun o => sortInts o.1).map fun n => n.map (· + 1) := by
    rw [List.map_map]
    apply List.map_congr_left
    intro o _
    exact sortInts_succ o.1
  have hinj : Function.Injective fun n : List Int => n.map (· + 1) :=
    List.map_injective_iff.2 fun x y hxy => by simpa using hxy
  rw [h2, List.dedup_map_of_injective hinj, List.length_map]

/-- What the reader leaves. -/
theorem exported_shape {R : Type} {s : State R} {m : Mesh (Option R)} (h : Gmsh.exportMesh s = .ok m) :
    m.faces = [] ∧ ∀ p ∈ m.bocos, ∃ l, p.2 = ⟨p.1, .bdnode, "boundary", .list l, some (List.replicate 16 0)⟩ := by
  unfold Gmsh.exportMesh at h
  rw [bind_eq_ok] at h
  obtain ⟨m1, h1, h⟩ := h
  rw [bind_eq_ok] at h
  obtain ⟨c, -, h⟩ := h
  have hm1 : m1.faces = [] ∧ m1.bocos = [] := by
    unfold Mesh.setCoords at h1
    simp only [bind_eq_ok, Except_pure, Except.ok.injEq] at h1
    obtain ⟨_, -, _, -, _, -, rfl⟩ := h1
    exact ⟨rfl, rfl⟩
  simp only [Except_pure, Except.ok.injEq] at h
  rw [← h]
  have key : ∀ (l : List (String × List Int)) (m : Mesh (Option R)),
      (m.faces = [] ∧ ∀ p ∈ m.bocos, ∃ l, p.2 = ⟨p.1, .bdnode, "boundary", .list l, some (List.replicate 16 0)⟩) →
      ((l.foldl (fun m p => m.addBoco ⟨p.1, .bdnode, "boundary", .list p.2, some (List.replicate 16 0)⟩) m).faces = [] ∧
        ∀ p ∈ (l.foldl (fun m p => m.addBoco ⟨p.1, .bdnode, "boundary", .list p.2, some (List.replicate 16 0)⟩) m).bocos,
          ∃ l, p.2 = ⟨p.1, .bdnode, "boundary", .list l, some (List.replicate 16 0)⟩) := by
    intro l
    induction l with
    | nil => intro m hm; exact hm
    | cons a t ih =>
      intro m hm
      rw [List.foldl_cons]
      apply ih
      refine ⟨hm.1, ?_⟩
      intro p hp
      unfold Mesh.addBoco at hp
      rcases mem_set hp with h2 | h2
      · subst h2; exact ⟨_, rfl⟩
      · exact hm.2 p h2
  apply key
  refine ⟨hm1.1, ?_⟩
  intro p hp
  have : p ∈ m1.bocos := hp
  rw [hm1.2] at this
  cases this

theorem read_shape {R : Type} {num : PyNum R} {msh : Lines} {m : Mesh (Option R)} (h : Gmsh.read num msh = .ok m) :
    m.faces = [] ∧ ∀ p ∈ m.bocos, ∃ l, p.2 = ⟨p.1, .bdnode, "boundary", .list l, some (List.replicate 16 0)⟩ := by
  unfold Gmsh.read at h
  simp only [bind_eq_ok] at h
  obtain ⟨_, -, _, -, h⟩ := h
  exact exported_shape h

end Cfd.Convert

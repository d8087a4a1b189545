import Verif.Spec.CgnsConvert
import Verif.Props.Cgns
import Verif.Lemmas.Ic3Extrude
import Verif.Props.Ic3Writes

/-! Lemmas for C66: from the sections of a CGNS zone to the faces of the mesh. -/

namespace Cfd.CgnsConvert
open Cfd.Spec Cfd.Spec.Ic3 Cfd.Spec.Cgns Cfd.Spec.CgnsConvert Cfd.Ic3 Cfd.Cgns

variable {R : Type} {z : Zone R}

/-- HEXA_8. -/
def hexa : Kind := ⟨17, "hexa8", 8, 3⟩

theorem cells_eq (z : Zone R) : cells z = elemsOfKind z hexa := by
  unfold cells elemsOfDim
  have : (Spec.Cgns.kinds.filter fun k => (k.dim : Int) = 3) = [hexa] := by decide
  rw [this]
  simp

theorem cells_length (hz : SectionsOk z) : ∀ p ∈ cells z, p.2.length = 8 := by
  intro p hp
  rw [cells_eq, elemsOfKind, List.mem_flatMap] at hp
  obtain ⟨s, hs, hp⟩ := hp
  rw [List.mem_filter, decide_eq_true_eq] at hs
  obtain ⟨k, hk, ho⟩ := hz s hs.1
  have hkk : k = hexa := by
    have h0 : ∀ k ∈ Spec.Cgns.kinds, k.code = 17 → k = hexa := by decide
    exact h0 k hk (by rw [← ho.code, hs.2]; rfl)
  subst hkk
  unfold sectionElems at hp
  rw [List.mem_map] at hp
  obtain ⟨j, hj, rfl⟩ := hp
  rw [List.mem_range] at hj
  have h1 := ho.size
  have h8 : hexa.nodes = 8 := rfl
  rw [h8] at h1 ⊢
  simp only [List.length_map, List.length_take, List.length_drop]
  omega

theorem list8 {v : List Int} (h : v.length = 8) : ∃ a b c d e f g i, v = [a, b, c, d, e, f, g, i] := by
  match v, h with
  | [a, b, c, d, e, f, g, i], _ => exact ⟨a, b, c, d, e, f, g, i, rfl⟩

/-- The elements of the connectivity. -/
theorem conn_cells (hz : SectionsOk z) (hne : cells z ≠ []) : ∃ c, elemcon z 3 = .ok c ∧ ConnWF c ∧
    elements c = (cells z).map (fun p => ("hexa8", p.1, p.2)) ∧ c.nelem = (cells z).length ∧ c.tbl.keys = ["hexa8"] := by
  obtain ⟨c, e, w, hk, el, hp⟩ := elemcon_ok z 3 hz
  have hkey : ∀ t ∈ c.tbl.keys, t = "hexa8" := by
    intro t ht
    obtain ⟨k, hk, hd, hn⟩ := hk t ht
    have h0 : ∀ k ∈ Spec.Cgns.kinds, (k.dim : Int) = 3 → k.name = "hexa8" := by decide
    rw [← hn, h0 k hk hd]
  have hel : elementsOf c "hexa8" = cells z := by
    rw [cells_eq]
    exact (el hexa (by decide)).trans (if_pos rfl)
  have hkeys : c.tbl.keys = ["hexa8"] := by
    have hnd := w.keys
    match hc : c.tbl.keys with
    | [] =>
      exfalso
      apply hne
      rw [← hel]
      unfold elementsOf
      have : c.tbl.get? "hexa8" = none := by rw [Dict.get?_eq_none_iff, hc]; simp
      rw [this]
    | [t] => rw [hkey t (by rw [hc]; simp)]
    | t :: t' :: l =>
      rw [hc] at hnd
      have h1 := hkey t (by rw [hc]; simp)
      have h2 := hkey t' (by rw [hc]; simp)
      subst h1; subst h2
      simp at hnd
  refine ⟨c, e, w, ?_, ?_, hkeys⟩
  · have : elements c = (elements c).filter fun x => x.1 = "hexa8" := by
      symm
      rw [List.filter_eq_self]
      intro x hx
      have : x.1 ∈ c.tbl.keys := by
        unfold elements at hx
        rw [List.mem_flatMap] at hx
        obtain ⟨p, hp, hx⟩ := hx
        obtain ⟨y, _, rfl⟩ := List.mem_map.1 hx
        exact List.mem_map_of_mem (f := Prod.fst) hp
      simp [hkey _ this]
    rw [this, elements_filter w.keys, hel]
  · rw [w.nelem, ← List.length_map (f := fun x : String × Int × List Int => x.2), hp.length_eq]
    rfl

/-- Faces of the table and sides of the file, one by one. -/
theorem faces_sides {c : ElemConn} (hz : SectionsOk z) (he : elements c = (cells z).map fun p => ("hexa8", p.1, p.2)) :
    List.Forall₂ (fun o s : List Int × Int => o.1.Perm s.1 ∧ o.2 = s.2) (facesOfCells cgnsElem2faces c) (sides z) := by
  unfold facesOfCells sides
  rw [he, List.flatMap_map]
  have h8 := cells_length hz
  revert h8
  generalize cells z = l
  intro h8
  induction l with
  | nil => exact .nil
  | cons p l ih =>
    rw [List.flatMap_cons, List.flatMap_cons]
    refine List.rel_append (R := fun o s : List Int × Int => o.1.Perm s.1 ∧ o.2 = s.2) ?_
      (ih fun q hq => h8 q (by simp [hq]))
    obtain ⟨a, b, c, d, e, f, g, i, hv⟩ := list8 (h8 p (by simp))
    have ht : cgnsElem2faces.get? "hexa8" = some _ := hexaTable_cgns
    rw [ht, hv]
    simp only [Option.getD_some, List.flatMap_cons, List.flatMap_nil, List.append_nil, List.map_cons, List.map_nil,
      List.nil_append, sixSides]
    refine .cons ⟨?_, rfl⟩ (.cons ⟨?_, rfl⟩ (.cons ⟨?_, rfl⟩ (.cons ⟨?_, rfl⟩ (.cons ⟨?_, rfl⟩ (.cons ⟨?_, rfl⟩ .nil))))) <;>
      (simp only [List.reverse_cons, List.reverse_nil, List.nil_append, List.cons_append, List.map_cons, List.map_nil,
        List.getD_cons_zero, List.getD_cons_succ]
       rw [List.perm_iff_count]; intro t; simp only [List.count_cons, List.count_nil]; omega)

section
variable {α β : Type} {S : α → β → Prop}

theorem forall₂_mem_left {l : List α} {l' : List β} (h : List.Forall₂ S l l') {a : α} (ha : a ∈ l) : ∃ b ∈ l', S a b := by
  induction h with
  | nil => cases ha
  | cons h1 _ ih =>
    rcases List.mem_cons.1 ha with rfl | ha
    · exact ⟨_, by simp, h1⟩
    · obtain ⟨b, hb, h2⟩ := ih ha
      exact ⟨b, by simp [hb], h2⟩

theorem forall₂_mem_right {l : List α} {l' : List β} (h : List.Forall₂ S l l') {b : β} (hb : b ∈ l') : ∃ a ∈ l, S a b := by
  induction h with
  | nil => cases hb
  | cons h1 _ ih =>
    rcases List.mem_cons.1 hb with rfl | hb
    · exact ⟨_, by simp, h1⟩
    · obtain ⟨a, ha, h2⟩ := ih hb
      exact ⟨a, by simp [ha], h2⟩
end

/-- The cells of a face. -/
theorem facesOn_around {c : ElemConn}
    (h : List.Forall₂ (fun o s : List Int × Int => o.1.Perm s.1 ∧ o.2 = s.2) (facesOfCells cgnsElem2faces c) (sides z))
    (n : List Int) : (facesOn cgnsElem2faces c n).map (·.2) = around z n := by
  unfold facesOn around
  revert h
  generalize facesOfCells cgnsElem2faces c = l1
  generalize sides z = l2
  intro h
  induction h with
  | nil => rfl
  | @cons o s l l' h1 _ ih =>
    have : o.1.isPerm n = s.1.isPerm n := by
      rw [Bool.eq_iff_iff, List.isPerm_iff, List.isPerm_iff]
      exact ⟨fun h => h1.1.symm.trans h, fun h => h1.1.trans h⟩
    rw [List.filter_cons, List.filter_cons, this]
    split
    · rw [List.map_cons, List.map_cons, ih, h1.2]
    · exact ih

theorem around_perm {n n' : List Int} (h : n.Perm n') : around z n = around z n' := by
  unfold around
  congr 1
  apply List.filter_congr
  intro s _
  rw [Bool.eq_iff_iff, List.isPerm_iff, List.isPerm_iff]
  exact ⟨fun h' => h'.trans h, fun h' => h'.trans h.symm⟩

/-! ## The mesh -/

theorem exportMesh_shape {so : List Int → List Int} {dim : Int} {m : Mesh R} (h : Cgns.exportMesh so dim z = .ok m) :
    m.faces = [] ∧ m.bocos.keys.Nodup := by
  unfold Cgns.exportMesh Mesh.setCoords at h
  simp only [bind_eq_ok] at h
  obtain ⟨m0, ⟨_, _, _, _, _, _, h0⟩, c, _, h⟩ := h
  simp only [Except_pure, Except.ok.injEq] at h0
  have key : ∀ (l : List (String × Bc)) (m1 m2 : Mesh R), l.foldlM (addBC so dim z) m1 = .ok m2 →
      m1.faces = [] ∧ m1.bocos.keys.Nodup → m2.faces = [] ∧ m2.bocos.keys.Nodup := by
    intro l
    induction l with
    | nil =>
      intro m1 m2 h h1
      simp only [List.foldlM_nil, Except_pure, Except.ok.injEq] at h
      rw [← h]; exact h1
    | cons p l ih =>
      intro m1 m2 h h1
      rw [List.foldlM_cons, bind_eq_ok] at h
      obtain ⟨m3, h3, h⟩ := h
      refine ih m3 m2 h ?_
      unfold addBC at h3
      rw [bind_eq_ok] at h3
      obtain ⟨b, _, h3⟩ := h3
      split at h3
      · cases h3
        exact h1
      · obtain ⟨_, -, h3⟩ := bind_eq_ok.1 h3
        cases h3
        exact ⟨h1.1, Dict.nodup_keys_set h1.2 _ _⟩
  refine key _ _ _ h ?_
  rw [← h0]
  exact ⟨rfl, List.nodup_nil⟩

end Cfd.CgnsConvert

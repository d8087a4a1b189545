import Mathlib.Data.List.Permutation
import Verif.Props.Closure
import Verif.Props.CgnsConvert

/-! # C83, CGNS files of hexahedra converted to IC3 files -/

namespace Cfd.Spec.CgnsConvert
open Cfd.Cgns

/-- The cells of a CGNS zone are consistently oriented: two cells that share a side list it in opposite directions. -/
def OrientedZone {R : Type} (z : Zone R) : Prop := ∀ s₁ s₂,
  ((sides z).filter fun s => s.1.isPerm s₁.1).Perm [s₁, s₂] → s₂.1.IsRotated s₁.1.reverse

end Cfd.Spec.CgnsConvert

namespace Cfd.CgnsConvert
open Cfd.Spec Cfd.Spec.Ic3 Cfd.Spec.Cgns Cfd.Spec.CgnsConvert Cfd.Ic3 Cfd.Cgns Cfd.Convert ElemConn

variable {R : Type} {z : Zone R}

/-- The sides of the file are the faces of the table, in the same direction. -/
theorem faces_directed {c : ElemConn} (hz : SectionsOk z)
    (he : elements c = (cells z).map fun p => ("hexa8", p.1, p.2)) :
    List.Forall₂ (fun o s : List Int × Int => o.1.IsRotated s.1 ∧ o.2 = s.2) (facesOfCells cgnsElem2faces c) (sides z) := by
  unfold facesOfCells sides
  rw [he, List.flatMap_map]
  have h8 := cells_length hz
  revert h8
  generalize cells z = l
  intro h8
  induction l with
  | nil => exact .nil
  | cons p l ih =>
    rw [List.flatMap_cons, List.flatMap_cons]
    refine List.rel_append (R := fun o s : List Int × Int => o.1.IsRotated s.1 ∧ o.2 = s.2) ?_
      (ih fun q hq => h8 q (by simp [hq]))
    obtain ⟨a, b, c, d, e, f, g, i, hv⟩ := list8 (h8 p (by simp))
    have ht : cgnsElem2faces.get? "hexa8" = some _ := hexaTable_cgns
    rw [ht, hv]
    simp only [Option.getD_some, List.flatMap_cons, List.flatMap_nil, List.append_nil, List.map_cons, List.map_nil,
      List.nil_append, sixSides]
    refine .cons ⟨?_, rfl⟩ (.cons ⟨?_, rfl⟩ (.cons ⟨?_, rfl⟩ (.cons ⟨?_, rfl⟩ (.cons ⟨?_, rfl⟩ (.cons ⟨?_, rfl⟩ .nil)))))
    all_goals exact ⟨3, rfl⟩

theorem oriented_zone {c : ElemConn} (hz : SectionsOk z) (he : elements c = (cells z).map fun p => ("hexa8", p.1, p.2))
    (ho : OrientedZone z) : Oriented cgnsElem2faces c := by
  intro o₁ o₂ hp
  have hrel : List.Forall₂ (fun o s : List Int × Int => o.1.IsRotated s.1 ∧ o.2 = s.2)
      (facesOn cgnsElem2faces c o₁.1) ((sides z).filter fun s => s.1.isPerm o₁.1) := by
    refine List.rel_filter ?_ (faces_directed hz he)
    intro o s h
    show o.1.isPerm o₁.1 = true ↔ s.1.isPerm o₁.1 = true
    rw [List.isPerm_iff, List.isPerm_iff]
    exact ⟨fun h' => h.1.perm.symm.trans h', fun h' => h.1.perm.trans h'⟩
  have key : ∃ s₁ s₂, ((sides z).filter fun s => s.1.isPerm o₁.1).Perm [s₁, s₂] ∧ o₁.1.IsRotated s₁.1 ∧
      o₂.1.IsRotated s₂.1 := by
    revert hrel
    generalize ((sides z).filter fun s => s.1.isPerm o₁.1) = l
    intro hrel
    rcases List.perm_pair.1 hp with h | h
    · rw [h] at hrel
      cases hrel with
      | cons h1 hrel =>
        cases hrel with
        | cons h2 hrel =>
          cases hrel
          exact ⟨_, _, List.Perm.refl _, h1.1, h2.1⟩
    · rw [h] at hrel
      cases hrel with
      | cons h1 hrel =>
        cases hrel with
        | cons h2 hrel =>
          cases hrel
          exact ⟨_, _, List.Perm.swap _ _ _, h2.1, h1.1⟩
  obtain ⟨s₁, s₂, hs, h1, h2⟩ := key
  have : ((sides z).filter fun s => s.1.isPerm s₁.1).Perm [s₁, s₂] := by
    refine List.Perm.trans (List.Perm.of_eq ?_) hs
    apply List.filter_congr
    intro s _
    rw [Bool.eq_iff_iff, List.isPerm_iff, List.isPerm_iff]
    exact ⟨fun h' => h'.trans h1.perm.symm, fun h' => h'.trans h1.perm⟩
  exact (h2.trans (ho _ _ this)).trans h1.symm.reverse

/-- C83: the IC3 file of a CGNS zone of consistently oriented hexahedra has conservative faces, each listed as the
CGNS standard lists this side of its first cell. -/
theorem C83_cgns (so : List Int → List Int) (hso : Reorders so) (hz : HexaZone z) (hf : CellsFirst z) (hg : GoodNames z)
    (h3 : NoTriple z) (ho : OrientedZone z) {m : Mesh R} (hm : Cgns.exportMesh so 3 z = .ok m) (store : R → F64)
    (host : Order) (e : Endian) (v : Ver) (cv : Conv) (b : Bytes)
    (hw : writeIc3 cgnsElem2faces so host e v cv (imported (Convert.stored store m)) = (some b, .ok ())) (integ : Bool) :
    ∃ g lb li, readIc3 integ b = .ok g ∧ MeshFaces g.mesh (lb ++ li) ∧ Conservative g.mesh.ncell lb li ∧
      ∀ f ∈ lb ++ li, ∃ s ∈ sides z, f.1.IsRotated s.1 ∧ f.2.1 = s.2 := by
  obtain ⟨m', c, hm', hi⟩ := import_ok so hso hz
  rw [hm] at hm'; cases hm'
  have hrel := faces_sides hz.zone.sections hi.elems
  have hcm := cell_mesh store hz hi hg hf
  obtain ⟨g, lb, li, h1, h2⟩ := C62_from_cells cgnsElem2faces cgnsTable_wf cgnsTable_widths so hso host e v cv
    (imported (Convert.stored store m)) c hcm (conforming_of hrel h3)
    (fun o ho => by rw [width_of hrel o ho]; omega) (names_fit store hi hg) b hw
    (fun m' _ => by
      constructor
      · exact List.nodup_nil
      · exact List.nodup_nil
      · intro p hp; cases hp
      · intro p hp; cases hp
      · intro h; exact absurd rfl h
      · intro h; exact absurd rfl h) integ
  refine ⟨g, lb, li, h1, h2.faces, ?_, fun f hfm => ?_⟩
  · rw [h2.ncell]
    refine conservative_of (tbl := cgnsElem2faces) (by decide) hcm ?_ (oriented_zone hz.zone.sections hi.elems ho) h2.facesOf
    intro x hx
    rw [hi.elems] at hx
    obtain ⟨p, _, rfl⟩ := List.mem_map.1 hx
    exact (by decide : "hexa8" ∈ volumeTypes)
  · obtain ⟨s, hs, h4⟩ := forall₂_mem_left (faces_directed hz.zone.sections hi.elems) ((faces_cells h2.facesOf).1 f hfm)
    exact ⟨s, hs, h4⟩

theorem twoBoxes_oriented : OrientedZone twoBoxes := by
  intro s₁ s₂ h
  have hm : s₁ ∈ sides twoBoxes := by
    have : s₁ ∈ (sides twoBoxes).filter fun s => s.1.isPerm s₁.1 := by rw [h.mem_iff]; simp
    exact List.mem_of_mem_filter this
  have hm2 : s₂ ∈ sides twoBoxes := by
    have : s₂ ∈ (sides twoBoxes).filter fun s => s.1.isPerm s₁.1 := by rw [h.mem_iff]; simp
    exact List.mem_of_mem_filter this
  have key : ∀ s₁ ∈ sides twoBoxes, ∀ s₂ ∈ sides twoBoxes,
      ((sides twoBoxes).filter fun s => s.1.isPerm s₁.1).isPerm [s₁, s₂] = true →
      ∃ k < 4, s₂.1.rotate k = s₁.1.reverse := by decide +kernel
  obtain ⟨k, _, hk⟩ := key s₁ hm s₂ hm2 (List.isPerm_iff.2 h)
  exact ⟨k, hk⟩

example (store : Int → F64) (e : Endian) (v : Ver) (cv : Conv) (integ : Bool) : ∃ m b g lb li,
    Cgns.exportMesh id 3 twoBoxes = .ok m ∧
    writeIc3 cgnsElem2faces id .little e v cv (imported (Convert.stored store m)) = (some b, .ok ()) ∧ readIc3 integ b = .ok g ∧
    Conservative g.mesh.ncell lb li := by
  obtain ⟨m, hm⟩ := exists_of_isOk (x := Cgns.exportMesh id 3 twoBoxes) (by decide +kernel)
  obtain ⟨b, hb⟩ := C66_converts id (fun l => List.Perm.refl l) twoBoxes_hexa twoBoxes_first.1 twoBoxes_names twoBoxes_noTriple
    twoBoxes_mixed twoBoxes_separable twoBoxes_fits hm store .little e v cv
  obtain ⟨g, lb, li, hg, _, hc, _⟩ := C83_cgns id (fun l => List.Perm.refl l) twoBoxes_hexa twoBoxes_first.1 twoBoxes_names
    twoBoxes_noTriple twoBoxes_oriented hm store .little e v cv b hb integ
  exact ⟨m, b, g, lb, li, hm, hb, hg, hc⟩

end Cfd.CgnsConvert

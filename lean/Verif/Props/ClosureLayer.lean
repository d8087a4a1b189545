import Verif.Props.Closure
import Verif.Props.Ic3Layers

/-! # C83, extruded plane meshes -/

namespace Cfd.Ic3
open Spec Spec.Ic3 ElemConn _root_.Cfd.Convert

/-- The face above a directed edge of a cell, as generated. -/
def wall (N : Nat) (e : Int × Int) : List Int := [e.2, e.2 + N, e.1 + N, e.1]

theorem six_walls {N : Nat} {p : Int × List Int} {o : List Int × Int} (ho : o ∈ sixFaces N p) :
    o.2 = p.1 ∧ (o.1.Perm p.2 ∨ o.1.Perm (p.2.map (· + (N : Int))) ∨
      ∃ e ∈ edgesOf p.2, o.1.Perm (sideOf N e) ∧ o.1.IsRotated (wall N e)) := by
  unfold sixFaces at ho
  split at ho
  · rename_i a b c d hv
    obtain ⟨h1, h2, h3, h4, h5, h6⟩ := six_perm (N := N) a b c d
    rw [hv]
    simp only [List.mem_cons, List.not_mem_nil, or_false] at ho
    rcases ho with rfl | rfl | rfl | rfl | rfl | rfl
    · exact ⟨rfl, .inl h1⟩
    · exact ⟨rfl, .inr (.inr ⟨_, by simp [edgesOf], h2, List.IsRotated.refl _⟩)⟩
    · exact ⟨rfl, .inr (.inr ⟨_, by simp [edgesOf], h3, List.IsRotated.refl _⟩)⟩
    · exact ⟨rfl, .inr (.inr ⟨_, by simp [edgesOf], h4, List.IsRotated.refl _⟩)⟩
    · exact ⟨rfl, .inr (.inr ⟨(d, a), by simp [edgesOf], h5, ⟨3, rfl⟩⟩)⟩
    · exact ⟨rfl, .inr (.inl h6)⟩
  · simp at ho

/-- A cell does not follow an edge in both directions. -/
theorem edge_once {v : List Int} (hn : v.Nodup) {e : Int × Int} (h1 : e ∈ edgesOf v) : (e.2, e.1) ∉ edgesOf v := by
  unfold edgesOf at h1 ⊢
  split at h1
  · rename_i a b c d
    simp only [List.nodup_cons, List.mem_cons, List.not_mem_nil, or_false, not_or, not_false_eq_true, List.nodup_nil,
      and_true] at hn
    simp only [List.mem_cons, List.not_mem_nil, or_false, Prod.mk.injEq] at h1 ⊢
    rcases h1 with rfl | rfl | rfl | rfl <;> simp only <;> omega
  · simp at h1

variable {R : Type} {m : Mesh R} {c : ElemConn} {q : Quads}

/-- The hexahedra above consistently oriented quadrangles are consistently oriented. -/
theorem layer_oriented (h : QuadMesh m c q) (ha : q.Pairwise fun p p' => ¬ p.2.Perm p'.2) {tbl : FaceTable}
    (ht : HexaTable tbl) (hd : ((edges q).map (·.1)).Nodup) : Oriented tbl (layerConn m.nnode c) := by
  intro o₁ o₂ hp
  have hlen : (facesOn tbl (layerConn m.nnode c) o₁.1).length = 2 := by rw [hp.length_eq]; rfl
  have m1 := mem_facesOn.1 (show o₁ ∈ facesOn tbl (layerConn m.nnode c) o₁.1 by rw [hp.mem_iff]; simp)
  have m2 := mem_facesOn.1 (show o₂ ∈ facesOn tbl (layerConn m.nnode c) o₁.1 by rw [hp.mem_iff]; simp)
  have walls : ∀ o ∈ facesOfCells tbl (layerConn m.nnode c), o.1.Perm o₁.1 → ∃ p ∈ q, o.2 = p.1 ∧
      ∃ e ∈ edgesOf p.2, o.1.Perm (sideOf m.nnode e) ∧ o.1.IsRotated (wall m.nnode e) := by
    intro o ho hperm
    rw [layer_faces h ht] at ho
    obtain ⟨p, hpq, ho⟩ := List.mem_flatMap.1 ho
    obtain ⟨h1, h2 | h2 | h2⟩ := six_walls ho
    · have := congrArg List.length (on_bottom h ha ht hpq (hperm.symm.trans h2))
      simp [hlen] at this
    · have := congrArg List.length (on_top h ha ht hpq (hperm.symm.trans h2))
      simp [hlen] at this
    · exact ⟨p, hpq, h1, h2⟩
  obtain ⟨p₁, hp₁, e₁, x, hx, hs₁, hr₁⟩ := walls o₁ m1.1 (List.Perm.refl _)
  obtain ⟨p₂, hp₂, e₂, y, hy, hs₂, hr₂⟩ := walls o₂ m2.1 m2.2
  have hsame : SameEdge y x := (perm_side (edge_low (quad_low h hp₂) hy).1 (edge_low (quad_low h hp₁) hx).1).1
    (hs₂.symm.trans (m2.2.trans hs₁))
  have hswap : (wall m.nnode x).reverse = wall m.nnode (x.2, x.1) := rfl
  rcases hsame with rfl | hyx
  · exfalso
    -- the same directed edge: the two cells are the same
    have hpp : p₁.1 = p₂.1 := by
      have := List.inj_on_of_nodup_map hd (edges_of hp₁ hx) (edges_of hp₂ hy) rfl
      exact congrArg (·.2) this
    have hcells := on_side h ht (edges_of hp₁ hx) hs₁
    have hlist : (((edges q).filter fun z => decide (SameEdge z.1 y)).map (·.2)).Perm [p₁.1, p₁.1] := by
      have := (hp.map (·.2)).symm.trans (List.Perm.of_eq hcells)
      simp only [List.map_cons, List.map_nil] at this
      rw [e₁, e₂, ← hpp] at this
      exact this.symm
    have hl2 : ((edges q).filter fun z => decide (SameEdge z.1 y)).length = 2 := by
      have := hlist.length_eq
      simpa using this
    obtain ⟨z₁, z₂, hz⟩ : ∃ z₁ z₂, ((edges q).filter fun z => decide (SameEdge z.1 y)) = [z₁, z₂] := by
      exact List.length_eq_two.1 hl2
    rw [hz] at hlist
    have hz1 : z₁ ∈ edges q ∧ SameEdge z₁.1 y := by
      have : z₁ ∈ (edges q).filter fun z => decide (SameEdge z.1 y) := by rw [hz]; simp
      simpa using List.mem_filter.1 this
    have hz2 : z₂ ∈ edges q ∧ SameEdge z₂.1 y := by
      have : z₂ ∈ (edges q).filter fun z => decide (SameEdge z.1 y) := by rw [hz]; simp
      simpa using List.mem_filter.1 this
    have hc1 : z₁.2 = p₁.1 := by
      have : z₁.2 ∈ [p₁.1, p₁.1] := hlist.mem_iff.1 (by simp)
      simpa using this
    have hc2 : z₂.2 = p₁.1 := by
      have : z₂.2 ∈ [p₁.1, p₁.1] := hlist.mem_iff.1 (by simp)
      simpa using this
    have hne : z₁.1 ≠ z₂.1 := by
      have hn : (((edges q).filter fun z => decide (SameEdge z.1 y)).map (·.1)).Nodup :=
        hd.sublist ((List.filter_sublist).map _)
      rw [hz] at hn
      simpa using hn
    have hboth : (y, p₁.1) ∈ edges q ∧ ((y.2, y.1), p₁.1) ∈ edges q := by
      have e1 : z₁ = (z₁.1, p₁.1) := by rw [← hc1]
      have e2 : z₂ = (z₂.1, p₁.1) := by rw [← hc2]
      rcases hz1.2 with h1 | h1 <;> rcases hz2.2 with h2 | h2
      · exact absurd (h1.trans h2.symm) hne
      · rw [h1] at e1; rw [h2] at e2
        exact ⟨e1 ▸ hz1.1, e2 ▸ hz2.1⟩
      · rw [h1] at e1; rw [h2] at e2
        exact ⟨e2 ▸ hz2.1, e1 ▸ hz1.1⟩
      · exact absurd (h1.trans h2.symm) hne
    have hcell : ∀ e : Int × Int, (e, p₁.1) ∈ edges q → e ∈ edgesOf p₁.2 := by
      intro e he
      obtain ⟨p, hpq, hpe, hn⟩ := edge_of he
      have : p = p₁ := List.inj_on_of_nodup_map h.numbering.1 hpq hp₁ hn.symm
      rw [← this]
      exact hpe
    exact edge_once (h.nodes p₁ hp₁).1 (hcell _ hboth.1) (hcell _ hboth.2)
  · rw [hyx, ← hswap] at hr₂
    exact hr₂.trans hr₁.symm.reverse

/-- C83: the file of a plane mesh of consistently oriented quadrangles (no edge is followed twice in the same
direction) extruded by one layer has conservative faces. -/
theorem C83_extruded [Add R] [Mul R] (tbl : FaceTable) (htbl : tbl ∈ faceTables)
    (so : List Int → List Int) (hso : Reorders so) (m : Mesh R) (c : ElemConn) (q : Quads) (h : QuadMesh m c q)
    (hdir : ((edges q).map (·.1)).Nodup)
    (domain : String) (hf : LayerFits m q domain) (d : R × R × R) (s0 s1 : R) (bits : R → F64)
    (host : Order) (e : Endian) (v : Ver) (cv : Conv) (integ : Bool) :
    ∃ m' b g lb li, m.exportExtruded so d [s0, s1] domain = .ok m' ∧
      writeIc3 tbl so host e v cv (imported (storedMesh bits m')) = (some b, .ok ()) ∧
      readIc3 integ b = .ok g ∧ MeshFaces g.mesh (lb ++ li) ∧ Conservative g.mesh.ncell lb li := by
  have htbl' : tbl = cgnsElem2faces ∨ tbl = gmshElem2faces := by simpa [faceTables] using htbl
  have ht : HexaTable tbl := by
    rcases htbl' with rfl | rfl
    · exact hexaTable_cgns
    · exact hexaTable_gmsh
  obtain ⟨m', b, _, _, _, hm', hw, _, _, _⟩ := C65_one_layer htbl' so hso m c q h domain hf d s0 s1 bits host e v cv integ
  obtain ⟨x, y, z, hc, hx, hy, hz⟩ := h.mesh.coords
  have hm2 := layer_mesh so h hf hc d s0 s1
  obtain ⟨pts, hpts⟩ : ∃ pts : List (R × R × R), pts = [s0, s1].flatMap fun s => (x.zip (y.zip z)).map fun p => translate p d s :=
    ⟨_, rfl⟩
  simp only [← hpts] at hm2
  have hpl : pts.length = m.nnode * 2 := by
    rw [hpts]
    simp only [List.flatMap_cons, List.flatMap_nil, List.append_nil, List.length_append, List.length_map]
    simp [hx, hy, hz]
    omega
  rw [hm2, Except.ok.injEq] at hm'
  subst hm'
  have hcm := layer_cells bits so h hf _ hpl
  have hfit := layer_fits bits so hso h hf ht pts
  obtain ⟨g, lb, li, hr, hmf, hcons⟩ := C83_file tbl htbl so hso host e v cv (imported (storedMesh bits _))
    (layerConn m.nnode c) hcm (by
      intro x hx
      rw [layer_elements h] at hx
      obtain ⟨p, _, rfl⟩ := List.mem_map.1 hx
      exact (by decide : "hexa8" ∈ volumeTypes))
    hfit.conforming (layer_oriented h hf.apart ht hdir)
    { marks := by
        intro p hp
        rcases List.mem_append.1 hp with hp | hp
        · obtain ⟨p', hp', rfl⟩ := List.mem_map.1 hp
          exact (hf.markName p' hp').1
        · simp only [List.mem_cons, List.not_mem_nil, or_false] at hp
          rcases hp with rfl | rfl
          · exact hf.names.1
          · exact hf.names.2
      weights := by intro d h; cases h
      nodes := by intro p hp; cases hp
      cells := by intro p hp; cases hp } b hw
    (by
      intro m' _
      constructor
      · exact List.nodup_nil
      · exact List.nodup_nil
      · intro p hp; cases hp
      · intro p hp; cases hp
      · intro h; exact absurd rfl h
      · intro h; exact absurd rfl h) integ
  exact ⟨_, b, g, lb, li, hm2, hw, hr, hmf, hcons⟩

example (e : Endian) (v : Ver) (cv : Conv) (integ : Bool) := C83_extruded cgnsElem2faces (by decide) id
  (fun l => List.Perm.refl l) exQuads exQuadsConn exQuadsList exQuads_mesh (by decide) "dom" exQuads_fits (0, 0, 1) 0 1
  (fun z => UInt64.ofNat z.toNat) .little e v cv integ

end Cfd.Ic3

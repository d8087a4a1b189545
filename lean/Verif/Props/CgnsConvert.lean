import Verif.Lemmas.CgnsConvert
import Verif.Props.Ic3Numbers
import Verif.Props.Convert
import Verif.Props.CgnsTree

/-! # C66: a CGNS file of hexahedra converted to an IC3 file -/

namespace Cfd.CgnsConvert
open Cfd.Spec Cfd.Spec.Ic3 Cfd.Spec.Cgns Cfd.Spec.CgnsConvert Cfd.Ic3 Cfd.Cgns
open _root_.Cfd.Convert

variable {R : Type} {z : Zone R}

/-- What is imported from a zone of hexahedra. -/
structure Import (z : Zone R) (m : Mesh R) (c : ElemConn) : Prop where
  cells : m.cell2node = some c
  conn : ConnWF c
  elems : elements c = (Spec.CgnsConvert.cells z).map fun p => ("hexa8", p.1, p.2)
  keys : c.tbl.keys = ["hexa8"]
  ncell : m.ncell = (Spec.CgnsConvert.cells z).length
  nelem : c.nelem = (Spec.CgnsConvert.cells z).length
  nnode : m.nnode = z.nnode
  coords : m.coords = some (z.x, z.y, z.z)
  noFaces : m.faces = []
  markKeys : m.bocos.keys.Nodup
  marks : ∀ name bc, Named z name bc → ∃ b, m.bocos.get? name = some b ∧ b.name = name ∧ b.geodim = .node ∧
    b.type = "boundary" ∧ b.perio = none ∧ b.index ≠ .unset ∧ ∀ n, n ∈ markItems b ↔ NodeIn z bc n
  named : ∀ name b, m.bocos.get? name = some b → ∃ bc, Named z name bc

theorem import_ok (so : List Int → List Int) (hso : Reorders so) (hz : HexaZone z) :
    ∃ m c, Cgns.exportMesh so 3 z = .ok m ∧ Import z m c := by
  obtain ⟨m, c, hm, hc, h1, h2, h3, h4, h5⟩ := C56_mesh so hso 3 z hz.zone
  obtain ⟨c', hc', w, he, hn, hk⟩ := conn_cells hz.zone.sections hz.some
  rw [hc] at hc'
  cases hc'
  obtain ⟨hf, hnd⟩ := exportMesh_shape hm
  refine ⟨m, c, hm, h1, w, he, hk, by rw [h2, hn], hn, h3, h4, hf, hnd, ?_, ?_⟩
  · rintro name bc ⟨p, hp, rfl⟩
    have := h5 name
    rw [hp] at this
    obtain ⟨g, ind, hb, hi⟩ := this
    have hpm := List.mem_of_getLast? hp
    rw [List.mem_filter, decide_eq_true_eq] at hpm
    have hno : ¬ OnCells z p.2 := (hz.marks p hpm.1).resolve_left hpm.2.1
    have hg : g = .node ∧ ∀ n, n ∈ ind ↔ NodeIn z p.2 n := by
      rcases hi with ⟨ho, hg, hl⟩ | ⟨ho, _⟩ | ⟨ho, hg, _, hl⟩
      · refine ⟨hg, fun n => ?_⟩
        rw [hl]
        unfold NodeIn
        constructor
        · intro hn
          obtain ⟨k, hk, rfl⟩ := List.mem_map.1 hn
          exact .inl ⟨ho, by rw [Int.sub_add_cancel]; exact hk⟩
        · rintro (⟨_, hn⟩ | ⟨hf, _⟩)
          · exact List.mem_map.2 ⟨n + 1, hn, by omega⟩
          · exfalso
            obtain ⟨h1, h2⟩ := ho
            rcases hf with ⟨_, h3⟩ | ⟨h3, _⟩
            · rw [h3] at h2; simp at h2
            · rw [h3] at h1; simp at h1
      · exact absurd ho hno
      · refine ⟨hg, fun n => ?_⟩
        rw [hl]
        unfold NodeIn
        constructor
        · intro hn; exact .inr ⟨ho, hn⟩
        · rintro (⟨hf, _⟩ | ⟨_, hn⟩)
          · exfalso
            obtain ⟨h1, h2⟩ := hf
            rcases ho with ⟨_, h3⟩ | ⟨h3, _⟩
            · rw [h3] at h2; simp at h2
            · rw [h3] at h1; simp at h1
          · exact hn
    refine ⟨_, hb, rfl, hg.1, rfl, rfl, by simp, hg.2⟩
  · intro name b hb
    have := h5 name
    cases hl : lastNamed z name with
    | none => rw [hl] at this; simp only at this; rw [hb] at this; cases this
    | some p => exact ⟨p.2, p, hl, rfl⟩

section
variable {m : Mesh R} {c : ElemConn} (store : R → F64)

theorem node_cells (hz : HexaZone z) (hi : Import z m c) (hg : GoodNames z) : NodeCells (stored store m) c where
  cells := hi.cells
  conn := hi.conn
  some := by rw [hi.elems]; simpa using hz.some
  noFaces := hi.noFaces
  coords := by
    intro x y w h
    simp only [Convert.stored, hi.coords, Option.map_some, Option.some.injEq, Prod.mk.injEq] at h
    obtain ⟨rfl, rfl, rfl⟩ := h
    simp [Convert.stored, hi.nnode, hz.zone.lx, hz.zone.ly, hz.zone.lz]
  markKeys := hi.markKeys
  onNodes := by
    intro p hp
    obtain ⟨bc, hn⟩ := hi.named p.1 p.2 (Dict.get?_of_mem hi.markKeys hp)
    obtain ⟨b, hb, _, h, _⟩ := hi.marks _ _ hn
    rw [Dict.get?_of_mem hi.markKeys hp] at hb; cases hb
    rw [h]; simp
  marksSet := by
    intro p hp
    obtain ⟨bc, hn⟩ := hi.named p.1 p.2 (Dict.get?_of_mem hi.markKeys hp)
    obtain ⟨b, hb, _, _, _, _, h, _⟩ := hi.marks _ _ hn
    rw [Dict.get?_of_mem hi.markKeys hp] at hb; cases hb
    exact h
  notInternal := by
    intro p hp
    obtain ⟨bc, hn⟩ := hi.named p.1 p.2 (Dict.get?_of_mem hi.markKeys hp)
    obtain ⟨b, hb, _, _, h, _⟩ := hi.marks _ _ hn
    rw [Dict.get?_of_mem hi.markKeys hp] at hb; cases hb
    rw [h]; simp
  notReserved := by
    constructor
    · intro h
      obtain ⟨b, hb⟩ := Dict.mem_keys_iff.1 h
      obtain ⟨bc, hn⟩ := hi.named _ _ hb
      exact (hg _ _ hn).2.1 rfl
    · intro h
      obtain ⟨b, hb⟩ := Dict.mem_keys_iff.1 h
      obtain ⟨bc, hn⟩ := hi.named _ _ hb
      exact (hg _ _ hn).2.2 rfl

theorem all_indices (hi : Import z m c) : allIndices c = (cells z).map (·.1) := by
  unfold allIndices
  rw [hi.elems, List.map_map]
  rfl

theorem file_numbers (z : Zone R) : (cells z).map (·.1) = (fileNumbers z 3).map (· - 1) := by
  unfold cells elemsOfDim elemsOfKind fileNumbers
  simp only [List.map_flatMap]
  congr 1
  funext k
  congr 1
  funext p
  rw [sectionElems_zip]
  unfold pyRange
  rw [List.map_map]
  have : p.2.last - 1 + 1 - (p.2.first - 1) = p.2.last + 1 - p.2.first := by omega
  rw [this]
  apply List.map_congr_left
  intro j _
  simp only [Function.comp_apply]
  omega

theorem range_shift (n : Nat) : pyRange 0 n = (pyRange 1 (n + 1)).map (· - 1) := by
  unfold pyRange
  rw [List.map_map]
  have : (n : Int) + 1 - 1 = n - 0 := by omega
  rw [this]
  apply List.map_congr_left
  intro j _
  simp only [Function.comp_apply]
  omega

/-- The cells are numbered from 0 when they come first. -/
theorem cells_first (z : Zone R) : CellsFirst z ↔ ((cells z).map (·.1)).Perm (pyRange 0 (cells z).length) := by
  unfold CellsFirst
  rw [file_numbers, range_shift]
  have hinj : Function.Injective (fun i : Int => i - 1) := fun a b h => by simp only at h; omega
  exact (List.map_perm_map_iff hinj).symm

theorem cell_mesh (hz : HexaZone z) (hi : Import z m c) (hg : GoodNames z) (h1 : CellsFirst z) :
    CellMesh (stored store m) c where
  toNodeCells := node_cells store hz hi hg
  numbering := valid_of_perm_pyRange (n := (cells z).length) (by rw [all_indices hi]; exact (cells_first z).1 h1)
  ncell := by
    show m.ncell = _
    rw [hi.ncell, hi.nelem]

theorem names_fit (hi : Import z m c) (hg : GoodNames z) : NamesFit (imported (stored store m)) where
  marks := by
    intro p hp
    obtain ⟨bc, hn⟩ := hi.named p.1 p.2 (Dict.get?_of_mem hi.markKeys hp)
    exact (hg _ _ hn).1
  weights := by intro d h; cases h
  nodes := by intro p hp; cases hp
  cells := by intro p hp; cases hp

end

/-! ## The mesh of the file -/

theorem outer_of {c : ElemConn}
    (h : List.Forall₂ (fun o s : List Int × Int => o.1.Perm s.1 ∧ o.2 = s.2) (facesOfCells cgnsElem2faces c) (sides z))
    {n : List Int} : Outer z n ↔ (∃ o ∈ facesOfCells cgnsElem2faces c, n.Perm o.1) ∧ (facesOn cgnsElem2faces c n).length = 1 := by
  unfold Outer
  rw [← facesOn_around h, List.length_map]
  constructor
  · rintro ⟨⟨s, hs, hp⟩, h1⟩
    obtain ⟨o, ho, hp', _⟩ := forall₂_mem_right h hs
    exact ⟨⟨o, ho, hp.trans hp'.symm⟩, h1⟩
  · rintro ⟨⟨o, ho, hp⟩, h1⟩
    obtain ⟨s, hs, hp', _⟩ := forall₂_mem_left h ho
    exact ⟨⟨s, hs, hp.trans hp'⟩, h1⟩

theorem conforming_of {c : ElemConn}
    (h : List.Forall₂ (fun o s : List Int × Int => o.1.Perm s.1 ∧ o.2 = s.2) (facesOfCells cgnsElem2faces c) (sides z))
    (h3 : NoTriple z) : Conforming cgnsElem2faces c := by
  intro o ho
  obtain ⟨s, hs, hp, _⟩ := forall₂_mem_left h ho
  rw [← List.length_map (f := fun x : List Int × Int => x.2), facesOn_around h, around_perm hp]
  exact h3 s hs

theorem width_of {c : ElemConn}
    (h : List.Forall₂ (fun o s : List Int × Int => o.1.Perm s.1 ∧ o.2 = s.2) (facesOfCells cgnsElem2faces c) (sides z)) :
    ∀ o ∈ facesOfCells cgnsElem2faces c, o.1.length = 4 := by
  intro o ho
  obtain ⟨s, hs, hp, _⟩ := forall₂_mem_left h ho
  rw [hp.length_eq]
  unfold sides at hs
  rw [List.mem_flatMap] at hs
  obtain ⟨p, hp, hs⟩ := hs
  obtain ⟨x, hx, rfl⟩ := List.mem_map.1 hs
  unfold sixSides at hx
  split at hx
  · simp only [List.mem_cons, List.not_mem_nil, or_false] at hx
    rcases hx with rfl | rfl | rfl | rfl | rfl | rfl <;> rfl
  · cases hx

theorem converted_of (store : R → F64) (hz : HexaZone z) {m : Mesh R} {c : ElemConn} (hi : Import z m c)
    {lb li : List Face} {g : Mesh F64} (h : FromCells cgnsElem2faces c (Convert.stored store m) lb li g) :
    Converted store z lb li g := by
  have hrel := faces_sides hz.zone.sections hi.elems
  have houter : ∀ f ∈ lb, ∃ a, f.2 = (a, -1) ∧ around z f.1 = [a] ∧ Outer z f.1 := by
    intro f hf
    obtain ⟨a, h1, h2⟩ := h.facesOf.boundary f hf
    refine ⟨a, h1, by rw [← facesOn_around hrel, h2]; rfl, ?_⟩
    rw [outer_of hrel]
    refine ⟨⟨(f.1, a), (mem_facesOn.1 (by rw [h2]; simp : (f.1, a) ∈ facesOn _ c f.1)).1, List.Perm.refl _⟩, by rw [h2]; rfl⟩
  have hzone : ∀ name bc, Named z name bc → ∃ b, g.bocos.get? name = some b ∧ b.geodim = .bdface ∧ b.type = "boundary" ∧
      ∀ i : Int, i ∈ markItems b ↔ 0 ≤ i ∧ ∃ f, lb[i.toNat]? = some f ∧ ∀ n ∈ f.1, NodeIn z bc n := by
    intro name bc hn
    obtain ⟨b0, hb0, _, _, ht, _, _, hk⟩ := hi.marks name bc hn
    obtain ⟨b, hb, h1, h2, h3⟩ := h.marks name b0 hb0
    refine ⟨b, hb, h1, by rw [h2, ht], fun i => ?_⟩
    rw [h3]
    unfold Holds
    simp only [hk]
  have hin : ∀ bc n, FaceIn z bc n → ∀ k ∈ n, NodeIn z bc k := by
    rintro bc n ⟨h1, e, he, r, hr, hp⟩ k hk
    exact .inr ⟨h1, e, he, r, hr, hp.mem_iff.1 hk⟩
  refine ⟨?_, ?_, ?_, h.faces, ?_, houter, ?_, hzone, ?_, ?_, h.tiles⟩
  · rw [h.ncell]; exact hi.ncell
  · rw [h.nnode]; exact hi.nnode
  · rw [h.coords]
    simp only [Convert.stored, hi.coords, Option.map_some]
  · intro s hs
    obtain ⟨o, ho, hp, _⟩ := forall₂_mem_right hrel hs
    rw [← h.facesOf.once o ho]
    congr 1
    funext f
    rw [Bool.eq_iff_iff, List.isPerm_iff, List.isPerm_iff]
    exact ⟨fun h => h.trans hp.symm, fun h => h.trans hp⟩
  · intro f hf
    obtain ⟨nodes, hp⟩ := h.facesOf.internal f hf
    rw [← facesOn_around hrel]
    simpa using hp.map (fun x : List Int × Int => x.2)
  · intro hcl name bc b hn hb i
    obtain ⟨b', hb', -, -, hz'⟩ := hzone name bc hn
    rw [hb] at hb'; cases hb'
    rw [hz']
    constructor
    · rintro ⟨h0, f, hf, hk⟩
      refine ⟨h0, f, hf, ?_⟩
      have hfl := List.mem_of_getElem? hf
      obtain ⟨_, _, _, ho⟩ := houter f hfl
      obtain ⟨name', bc', hn', hface⟩ := hcl _ ho
      obtain ⟨b2, hb2, -, -, hz2⟩ := hzone name' bc' hn'
      have hi2 : i ∈ markItems b2 := (hz2 i).2 ⟨h0, f, hf, hin _ _ hface⟩
      have hi1 : i ∈ markItems b := (hz' i).2 ⟨h0, f, hf, hk⟩
      have hnd : (marked g).Nodup := (h.tiles (List.ne_nil_of_mem hfl)).nodup_iff.2 (nodup_pyRange _ _)
      have := zone_unique hnd hb hb2 hi1 hi2
      subst this
      obtain ⟨p, hp, rfl⟩ := hn
      obtain ⟨p', hp', rfl⟩ := hn'
      rw [hp] at hp'; cases hp'
      exact hface
    · rintro ⟨h0, f, hf, hface⟩
      exact ⟨h0, f, hf, hin _ _ hface⟩
  · intro name hn
    rcases h.others name hn with h1 | h1 | h1
    · obtain ⟨b, hb⟩ := Dict.mem_keys_iff.1 h1
      exact .inl (hi.named _ _ hb)
    · subst h1
      refine .inr (.inr ⟨rfl, ?_⟩)
      obtain ⟨b, hb⟩ := Dict.mem_keys_iff.1 hn
      obtain ⟨-, hne, hu⟩ := h.unmarked b hb
      obtain ⟨i, hii⟩ := List.exists_mem_of_ne_nil _ hne
      obtain ⟨-, f, hf, hno⟩ := (hu i).1 hii
      refine ⟨f, List.mem_of_getElem? hf, fun name bc hn hall => ?_⟩
      obtain ⟨b0, hb0, _, _, _, _, _, hk⟩ := hi.marks name bc hn
      refine hno (name, b0) (Dict.mem_of_get? hb0) ?_
      intro k hkk
      exact (hk k).2 (hall k hkk)
    · exact .inr (.inl h1)

/-- **C66.** When an IC3 writer accepts the mesh of a CGNS zone of hexahedra whose cells come first in the numbers of the
file, the IC3 file is read again as the mesh of the zone: same points, same cells, each side of a cell once with its
cells, and the boundary conditions as zones. -/
theorem C66_mesh (so : List Int → List Int) (hso : Reorders so) (hz : HexaZone z) (hf : CellsFirst z) (hg : GoodNames z)
    (h3 : NoTriple z) {m : Mesh R} (hm : Cgns.exportMesh so 3 z = .ok m) (store : R → F64)
    (host : Order) (e : Endian) (v : Ver) (cv : Conv) (b : Bytes)
    (hw : writeIc3 cgnsElem2faces so host e v cv (imported (Convert.stored store m)) = (some b, .ok ())) (integ : Bool) :
    ∃ g lb li, readIc3 integ b = .ok g ∧ Converted store z lb li g.mesh := by
  obtain ⟨m', c, hm', hi⟩ := import_ok so hso hz
  rw [hm] at hm'; cases hm'
  have hrel := faces_sides hz.zone.sections hi.elems
  obtain ⟨g, lb, li, h1, h2⟩ := C62_from_cells cgnsElem2faces cgnsTable_wf cgnsTable_widths so hso host e v cv
    (imported (Convert.stored store m)) c (cell_mesh store hz hi hg hf) (conforming_of hrel h3)
    (fun o ho => by rw [width_of hrel o ho]; omega) (names_fit store hi hg) b hw (fun m' _ => data_storable _ _ _) integ
  exact ⟨g, lb, li, h1, converted_of store hz hi h2⟩

/-- **C66, cells first.** The file written is read again exactly when the cells come first in the numbers of the CGNS
file: with a section of faces before or between the cells, the conversion gives a file that the reader refuses. -/
theorem C66_readable (so : List Int → List Int) (hso : Reorders so) (hz : HexaZone z) (hg : GoodNames z)
    (h3 : NoTriple z) {m : Mesh R} (hm : Cgns.exportMesh so 3 z = .ok m) (store : R → F64)
    (host : Order) (e : Endian) (v : Ver) (cv : Conv) (b : Bytes)
    (hw : writeIc3 cgnsElem2faces so host e v cv (imported (Convert.stored store m)) = (some b, .ok ())) (integ : Bool) :
    (∃ g, readIc3 integ b = .ok g) ↔ CellsFirst z := by
  constructor
  swap
  · intro hf
    obtain ⟨g, _, _, h, _⟩ := C66_mesh so hso hz hf hg h3 hm store host e v cv b hw integ
    exact ⟨g, h⟩
  rintro ⟨g, hr⟩
  obtain ⟨m', c, hm', hi⟩ := import_ok so hso hz
  rw [hm] at hm'; cases hm'
  have hrel := faces_sides hz.zone.sections hi.elems
  have hpos : 0 < (cells z).length := List.length_pos_iff.2 hz.some
  have hn : (imported (Convert.stored store m)).mesh.ncell = (cells z).length := hi.ncell
  obtain ⟨_, hlt⟩ := C62_numbers_read cgnsElem2faces cgnsTable_wf cgnsTable_widths so hso host e v cv
    (imported (Convert.stored store m)) c (node_cells store hz hi hg) (names_fit store hi hg) b hw integ g hr
    (by rw [hn]; exact hpos)
  rw [hn] at hlt
  rw [cells_first]
  have hall : ∀ p ∈ cells z, 0 ≤ p.1 ∧ p.1 < ((cells z).length : Int) := by
    intro p hp
    constructor
    · have : p.1 ∈ (cells z).map (·.1) := List.mem_map_of_mem hp
      rw [file_numbers] at this
      obtain ⟨k, hk, he⟩ := List.mem_map.1 this
      have := hz.positive k hk
      omega
    · obtain ⟨a, b, c', d, e', f, g, i, hv⟩ := list8 (cells_length hz.zone.sections p hp)
      have hs : ([a, d, c', b], p.1) ∈ sides z := by
        unfold sides
        rw [List.mem_flatMap]
        refine ⟨p, hp, ?_⟩
        rw [hv]
        simp [sixSides]
      obtain ⟨o, ho, _, h2⟩ := forall₂_mem_right hrel hs
      have := hlt o ho (conforming_of hrel h3 o ho)
      simp only at h2
      omega
  have hnd : ((cells z).map (·.1)).Nodup := by
    rw [file_numbers]
    exact hz.apart.map (f := fun i : Int => i - 1) fun a b h => by simp only at h; omega
  have hsub : (cells z).map (·.1) ⊆ pyRange 0 (cells z).length := by
    intro k hk
    obtain ⟨p, hp, rfl⟩ := List.mem_map.1 hk
    rw [mem_pyRange]
    exact hall p hp
  exact (List.subperm_of_subset hnd hsub).perm_of_length_le (by simp)

/-- The mesh of a CGNS zone within these limits has the form of C62 and C63. -/
theorem convert_ready (so : List Int → List Int) (hso : Reorders so) (hz : HexaZone z) (hf : CellsFirst z) (hg : GoodNames z)
    (h3 : NoTriple z) (hmix : Mixed z) (hsep : Separable z) (hfit : Fits z) {m : Mesh R}
    (hm : Cgns.exportMesh so 3 z = .ok m) (store : R → F64) :
    ∃ c, CellMesh (Convert.stored store m) c ∧ CellsKnown cgnsElem2faces c ∧ CellsFit cgnsElem2faces (Convert.stored store m) c ∧
      NamesFit (imported (Convert.stored store m)) ∧ (∀ p ∈ m.bocos, p.2.perio = none) ∧
      ∀ lb li g, FromCells cgnsElem2faces c (Convert.stored store m) lb li g → Converted store z lb li g := by
  obtain ⟨m', c, hm', hi⟩ := import_ok so hso hz
  rw [hm] at hm'; cases hm'
  have hrel := faces_sides hz.zone.sections hi.elems
  have hcount : ∀ n, (facesOn cgnsElem2faces c n).length = (around z n).length := by
    intro n; rw [← facesOn_around hrel, List.length_map]
  have hmark : ∀ p ∈ m.bocos, ∃ bc, Named z p.1 bc ∧ p.2.name = p.1 ∧ p.2.type = "boundary" ∧ p.2.perio = none ∧
      ∀ n, n ∈ markItems p.2 ↔ NodeIn z bc n := by
    intro p hp
    have hget := Dict.get?_of_mem hi.markKeys hp
    obtain ⟨bc, hn⟩ := hi.named p.1 p.2 hget
    obtain ⟨b, hb, h1, _, h2, h4, _, h5⟩ := hi.marks _ _ hn
    rw [hget] at hb; cases hb
    exact ⟨bc, hn, h1, h2, h4, h5⟩
  have hel : elementsOf c "hexa8" = cells z := by
    have := elements_filter hi.conn.keys "hexa8"
    rw [hi.elems, List.filter_eq_self.2 (by intro x hx; obtain ⟨y, _, rfl⟩ := List.mem_map.1 hx; simp)] at this
    have h2 := congrArg (List.map fun x : String × Int × List Int => x.2) this
    simpa [List.map_map, Function.comp_def] using h2.symm
  have hfits : CellsFit cgnsElem2faces (Convert.stored store m) c := by
    constructor
    · intro t ht h0
      rw [hi.keys, List.mem_singleton] at ht
      subst ht
      exact hz.some (hel.symm.trans h0)
    · exact conforming_of hrel h3
    · intro o ho; rw [width_of hrel o ho]; omega
    · intro o ho
      obtain ⟨⟨s, hs, h1⟩, -⟩ := hmix
      obtain ⟨o', ho', hp, _⟩ := forall₂_mem_right hrel hs
      exact ⟨o', ho', by rw [width_of hrel o ho, width_of hrel o' ho'], by rw [hcount, around_perm hp, h1]⟩
    · intro o ho
      obtain ⟨-, ⟨s, hs, h1⟩⟩ := hmix
      obtain ⟨o', ho', hp, _⟩ := forall₂_mem_right hrel hs
      exact ⟨o', ho', by rw [width_of hrel o ho, width_of hrel o' ho'], by rw [hcount, around_perm hp, h1]⟩
    · intro p hp
      obtain ⟨bc, hn, -, -, -, hk⟩ := hmark p hp
      obtain ⟨n, hn, hin⟩ := hsep.some _ _ hn
      obtain ⟨⟨o, ho, hpo⟩, h1⟩ := (outer_of hrel).1 hn
      refine ⟨o, ho, by rw [hcount, ← around_perm hpo, ← hcount, h1], fun k hkk => (hk k).2 (hin k (hpo.mem_iff.2 hkk))⟩
    · rintro p hp q hq hpq o ⟨⟨h1, h2, h4⟩, -, -, h5⟩
      obtain ⟨bc, hn, -, -, -, hk⟩ := hmark p hp
      obtain ⟨bc', hn', -, -, -, hk'⟩ := hmark q hq
      exact hsep.apart _ _ _ _ o.1 hn hn' hpq ((outer_of hrel).2 ⟨⟨o, h1, List.Perm.refl _⟩, h2⟩)
        ⟨fun k hkk => (hk k).1 (h4 k hkk), fun k hkk => (hk' k).1 (h5 k hkk)⟩
    · intro p hp
      obtain ⟨bc, hn, h1, h2, h4, -⟩ := hmark p hp
      refine ⟨h1, by rw [h2]; decide, by rw [h4]; simp⟩
    · obtain ⟨f1, f2, -⟩ := hfit
      unfold Small at f1 f2
      refine ⟨?_, ?_, ?_⟩
      · show Small m.nnode
        rw [hi.nnode]; exact f1
      · show Small m.ncell
        rw [hi.ncell]; unfold Small; omega
      · unfold faceCount Small
        have h1 := (List.dedup_sublist ((facesOfCells cgnsElem2faces c).map fun o => sortInts o.1)).length_le
        rw [List.length_map, hrel.length_eq] at h1
        have h2 : (sides z).length = 6 * (cells z).length := by
          unfold sides
          have h8 := cells_length hz.zone.sections
          revert h8
          generalize cells z = l
          intro h8
          induction l with
          | nil => rfl
          | cons p l ih =>
            obtain ⟨a, b, c', d, e', f, g, i, hv⟩ := list8 (h8 p (by simp))
            rw [List.flatMap_cons, List.length_append, ih fun q hq => h8 q (by simp [hq]), hv]
            simp [sixSides]
            omega
        omega
    · intro x hx n hn
      rw [hi.elems] at hx
      obtain ⟨p, hp, rfl⟩ := List.mem_map.1 hx
      exact hfit.2.2 p hp n hn
    · simp only [Convert.stored, hi.coords, Option.map_some]
      exact ⟨_, _, _, rfl⟩
  have hknown : CellsKnown cgnsElem2faces c := by
    intro p hp
    have hk : p.1 ∈ c.tbl.keys := List.mem_map_of_mem (f := Prod.fst) hp
    rw [hi.keys, List.mem_singleton] at hk
    have h8 : p.2.e2n.ncol = some 8 := by
      obtain ⟨q, hq⟩ := List.exists_mem_of_ne_nil _ hz.some
      rw [← hel, ← hk] at hq
      have hlen : q.2.length = 8 := cells_length hz.zone.sections q (by rw [← hel, ← hk]; exact hq)
      unfold elementsOf at hq
      rw [Dict.get?_of_mem hi.conn.keys hp] at hq
      have hr : q.2 ∈ p.2.e2n.rows := (List.of_mem_zip hq).2
      have hwf := (hi.conn.entries p hp).2
      unfold Arr2.WF at hwf
      split at hwf
      · rename_i k hk
        rw [hk, ← hwf _ hr, hlen]
      · rw [hwf] at hr; cases hr
    refine ⟨_, 8, by rw [hk]; exact hexaTable_cgns, h8, ?_⟩
    decide
  refine ⟨c, cell_mesh store hz hi hg hf, hknown, hfits, names_fit store hi hg, fun p hp => ?_, fun _ _ _ h => converted_of store hz hi h⟩
  obtain ⟨_, _, _, _, h4, _⟩ := hmark p hp
  exact h4

/-- **C66, success.** The mesh of the zone is written by both writers, in every byte order, when no side is in three cells,
there is a side of one cell and a side of two, node marks can tell the boundary conditions apart, and numbers fit in 32
bits. -/
theorem C66_converts (so : List Int → List Int) (hso : Reorders so) (hz : HexaZone z) (hf : CellsFirst z) (hg : GoodNames z)
    (h3 : NoTriple z) (hmix : Mixed z) (hsep : Separable z) (hfit : Fits z) {m : Mesh R}
    (hm : Cgns.exportMesh so 3 z = .ok m) (store : R → F64) (host : Order) (e : Endian) (v : Ver) (cv : Conv) :
    ∃ b, writeIc3 cgnsElem2faces so host e v cv (imported (Convert.stored store m)) = (some b, .ok ()) := by
  obtain ⟨c, hcm, hknown, hfits, hnames, -, -⟩ := convert_ready so hso hz hf hg h3 hmix hsep hfit hm store
  have hdf : DataFits v cv (imported (Convert.stored store m)) (Convert.stored store m).ncell := by
    constructor
    · exact .inl rfl
    all_goals first
      | (intro s h; cases h; done)
      | (intro p hp; cases hp; done)
      | (intro _ h; exact absurd rfl h)
  obtain ⟨b, _, _, _, h, _⟩ := C63_cells cgnsElem2faces cgnsTable_wf cgnsTable_widths so hso host e v cv
    (imported (Convert.stored store m)) c hcm hknown hfits hnames (data_storable _ _ _) hdf false
  exact ⟨b, h⟩

/-! ## The command -/

/-- **C66, command.** On a file whose zone to read has hexahedra: the file written is new and holds the
mesh of the CGNS file; no other file changes. -/
theorem C66_command {Loc : Type} [DecidableEq Loc] (tree : Bytes → Py (Cgns.Tree R)) (store : R → F64)
    (so : List Int → List Int) (hso : Reorders so) (host : Order) (e : Endian) (v : Ver) (cv : Conv)
    (s s' : Fs Loc) (fuel : Nat) (filename name : Name) (outpath : Option Name) (content : Bytes)
    (hin : s.content (s.resolve (PyPath.parse filename).str) = some content) {root : Cgns.Tree R}
    (htree : tree content = .ok root) (hu : TellsFile root 3 z)
    (hz : HexaZone z) (hf : CellsFirst z) (hg : GoodNames z) (h3 : NoTriple z)
    (hrun : cgnsToIc3 tree store so host e v cv s fuel filename outpath = some (s', .ok name)) (integ : Bool) :
    s.content (s.resolve name) = none ∧ (∀ l, l ≠ s.resolve name → s'.content l = s.content l) ∧
    ∃ b g lb li, s'.content (s.resolve name) = some b ∧ readIc3 integ b = .ok g ∧ Converted store z lb li g.mesh := by
  obtain ⟨h1, ⟨m0, m1, m2, b, r0, r1, r2, r3, r4⟩, h2⟩ := C36_conversion_writes_new_file _ _ _ _ _ (by decide) _ _ _ _ _ _ hrun
  cases r1; cases r2
  obtain ⟨m, c, hm, hi⟩ := import_ok so hso hz
  unfold cgnsInput at r0
  rw [hin] at r0
  obtain ⟨zt, hrd, hzc, hze⟩ := tellsFile_read so hu
  simp only [htree, hrd, hzc, hze, hm, Except_bind_ok, Except_pure] at r0
  split at r0
  · simp at r0
  simp only [Except.ok.injEq] at r0
  subst r0
  obtain ⟨g, lb, li, q1, q2⟩ := C66_mesh so hso hz hf hg h3 hm store host e v cv b (output_ok r3) integ
  exact ⟨h1, h2, b, g, lb, li, r4, q1, q2⟩

/-- **C66, the command succeeds** on every such file satisfying the conditions of `C66_converts`, with a non-zero number of
cells in the size of the zone. -/
theorem C66_command_succeeds {Loc : Type} [DecidableEq Loc] (tree : Bytes → Py (Cgns.Tree R)) (store : R → F64)
    (so : List Int → List Int) (hso : Reorders so) (host : Order) (e : Endian) (v : Ver) (cv : Conv)
    (s : Fs Loc) (hfin : ∀ folder : PyPath, FiniteFolder s.has folder) (filename : Name)
    (hname : (PyPath.parse filename).name ≠ []) (outpath : Option Name) (content : Bytes)
    (hin : s.content (s.resolve (PyPath.parse filename).str) = some content) {root : Cgns.Tree R}
    (htree : tree content = .ok root) (hu : TellsFile root 3 z)
    (hz : HexaZone z) (hf : CellsFirst z) (hg : GoodNames z) (h3 : NoTriple z) (hmix : Mixed z) (hsep : Separable z)
    (hfit : Fits z) (hnc : z.ncell ≠ 0) :
    ∃ n s' name, ∀ fuel, n ≤ fuel → cgnsToIc3 tree store so host e v cv s fuel filename outpath = some (s', .ok name) := by
  obtain ⟨m, c, hm, hi⟩ := import_ok so hso hz
  obtain ⟨b, hb⟩ := C66_converts so hso hz hf hg h3 hmix hsep hfit hm store host e v cv
  obtain ⟨zt, hrd, hzc, hze⟩ := tellsFile_read so hu
  refine C36_conversion_succeeds (cgnsInput tree store so) .ok .ok (ic3Output cgnsElem2faces so host e v cv) "ic3".toList
    (by decide) (by decide) s filename hname outpath hfin (imported (Convert.stored store m))
    (imported (Convert.stored store m)) (imported (Convert.stored store m)) b ?_ rfl rfl ?_
  · unfold cgnsInput
    rw [hin]
    simp only [htree, hrd, hzc, hze, hm, Except_bind_ok, Except_pure, if_neg hnc]
  · unfold ic3Output
    rw [hb]

/-! ## A case -/

/-- Two hexahedra side by side; the faces at both ends are the family `walls`. -/
def twoBoxes : Zone Int :=
  { unstructured := true, nnode := 12, ncell := 2
    x := List.replicate 12 0, y := List.replicate 12 1, z := List.replicate 12 2
    sections := [("Hexa", ⟨17, 1, 2, [1, 2, 5, 4, 7, 8, 11, 10, 2, 3, 6, 5, 8, 9, 12, 11]⟩),
      ("Wall", ⟨7, 3, 4, [1, 4, 10, 7, 3, 6, 12, 9]⟩)]
    bcs := [("ends", ⟨some "walls", some "FaceCenter", some [3, 4], none⟩)] }

/-- The same with the section of faces first. -/
def facesFirst : Zone Int :=
  { twoBoxes with
    sections := [("Wall", ⟨7, 1, 2, [1, 4, 10, 7, 3, 6, 12, 9]⟩),
      ("Hexa", ⟨17, 3, 4, [1, 2, 5, 4, 7, 8, 11, 10, 2, 3, 6, 5, 8, 9, 12, 11]⟩)]
    bcs := [("ends", ⟨some "walls", some "FaceCenter", some [1, 2], none⟩)] }

private theorem named_twoBoxes {name : String} {b : Bc} (h : Named twoBoxes name b) :
    name = "walls" ∧ b = ⟨some "walls", some "FaceCenter", some [3, 4], none⟩ := by
  obtain ⟨p, hp, rfl⟩ := h
  have hm := List.mem_of_getLast? hp
  rw [List.mem_filter, decide_eq_true_eq] at hm
  have hp' : p = ("ends", ⟨some "walls", some "FaceCenter", some [3, 4], none⟩) := by simpa [twoBoxes] using hm.1
  subst hp'
  exact ⟨hm.2.2.symm, rfl⟩

theorem twoBoxes_hexa : HexaZone twoBoxes where
  zone :=
    { sections := by
        intro p hp
        simp only [twoBoxes, List.mem_cons, List.not_mem_nil, or_false] at hp
        rcases hp with rfl | rfl
        · exact ⟨⟨17, "hexa8", 8, 3⟩, by decide, ⟨rfl, by decide⟩⟩
        · exact ⟨⟨7, "quad4", 4, 2⟩, by decide, ⟨rfl, by decide⟩⟩
      lx := rfl
      ly := rfl
      lz := rfl
      faces := by decide
      names := by decide
      bcs := by
        intro p hp
        simp only [twoBoxes, List.mem_cons, List.not_mem_nil, or_false] at hp
        subst hp
        refine ⟨.inr (.inr (.inl ⟨rfl, rfl⟩)), fun _ e he => ?_, fun _ => by decide⟩
        simp only [listed, List.mem_cons, List.not_mem_nil, or_false] at he
        rcases he with rfl | rfl
        · exact ⟨[0, 3, 9, 6], by decide⟩
        · exact ⟨[2, 5, 11, 8], by decide⟩ }
  some := by decide
  marks := by
    intro p hp
    simp only [twoBoxes, List.mem_cons, List.not_mem_nil, or_false] at hp
    subst hp
    right
    rintro (⟨-, h⟩ | ⟨h, -⟩)
    · revert h; decide
    · cases h
  apart := by decide
  positive := by decide

theorem twoBoxes_first : CellsFirst twoBoxes ∧ ¬ CellsFirst facesFirst := by unfold CellsFirst; decide
theorem twoBoxes_noTriple : NoTriple twoBoxes := by unfold NoTriple; decide
theorem twoBoxes_mixed : Mixed twoBoxes := by unfold Mixed; decide
theorem twoBoxes_fits : Fits twoBoxes := by unfold Fits FitsInt; decide

theorem twoBoxes_names : GoodNames twoBoxes := by
  intro name b h
  obtain ⟨rfl, -⟩ := named_twoBoxes h
  exact ⟨by unfold UserName; decide, by decide, by decide⟩

theorem twoBoxes_separable : Separable twoBoxes where
  some := by
    intro name b h
    obtain ⟨-, rfl⟩ := named_twoBoxes h
    refine ⟨[0, 3, 9, 6], ⟨⟨([0, 6, 9, 3], 0), by decide, by decide⟩, by decide⟩, fun k hk => ?_⟩
    exact .inr ⟨.inl ⟨rfl, rfl⟩, 3, by decide, [0, 3, 9, 6], by decide, hk⟩
  apart := by
    intro name b name' b' n h h' hne
    exact absurd ((named_twoBoxes h).1.trans (named_twoBoxes h').1.symm) hne

-- the file is written and read, with the two ends in the zone `walls`
example : ((Cgns.exportMesh id 3 twoBoxes).toOption.bind fun m =>
    (writeIc3 cgnsElem2faces id .little .native .v3 noConv (imported (Convert.stored (fun _ => (0 : UInt64)) m))).1.bind fun b =>
      (readIc3 false b).toOption.map fun g => (g.mesh.ncell, g.mesh.bocos.map fun p => (p.1, p.2.index))) =
    some (2, [("walls", .range 0 1), ("unmarked", .range 2 9), ("internal-domain", .range 10 10)]) := by decide +kernel

-- with the faces first it is written too, and refused by the reader
example : ((Cgns.exportMesh id 3 facesFirst).toOption.bind fun m =>
    match writeIc3 cgnsElem2faces id .little .native .v3 noConv (imported (Convert.stored (fun _ => (0 : UInt64)) m)) with
    | (some b, .ok _) => some (readIc3 false b).isOk
    | _ => none) = some false := by decide +kernel

/-- C66 applied to the first zone. -/
example (store : Int → F64) (e : Endian) (v : Ver) (cv : Conv) (integ : Bool) : ∃ m b g lb li,
    Cgns.exportMesh id 3 twoBoxes = .ok m ∧
    writeIc3 cgnsElem2faces id .little e v cv (imported (Convert.stored store m)) = (some b, .ok ()) ∧ readIc3 integ b = .ok g ∧
    Converted store twoBoxes lb li g.mesh := by
  obtain ⟨m, hm⟩ := exists_of_isOk (x := Cgns.exportMesh id 3 twoBoxes) (by decide +kernel)
  obtain ⟨b, hb⟩ := C66_converts id (fun l => List.Perm.refl l) twoBoxes_hexa twoBoxes_first.1 twoBoxes_names twoBoxes_noTriple
    twoBoxes_mixed twoBoxes_separable twoBoxes_fits hm store .little e v cv
  obtain ⟨g, lb, li, hg, hc⟩ := C66_mesh id (fun l => List.Perm.refl l) twoBoxes_hexa twoBoxes_first.1 twoBoxes_names
    twoBoxes_noTriple hm store .little e v cv b hb integ
  exact ⟨m, b, g, lb, li, hm, hb, hg, hc⟩

theorem twoBoxes_bytes : OneByte twoBoxes := by
  intro p hp
  simp only [twoBoxes, List.mem_cons, List.not_mem_nil, or_false] at hp
  subst hp
  exact ⟨by intro s hs; cases hs; decide, by intro s hs; cases hs; decide⟩

/-- The standard file of these two hexahedra. -/
def twoBoxesFile : Cgns.Tree Int := fileTree 4 [("base", ⟨3, [("zone1", twoBoxes)]⟩)]

theorem twoBoxesFile_tells : TellsFile twoBoxesFile 3 twoBoxes :=
  C88_one_zone 4 "base" "zone1" 3 twoBoxes rfl (by decide) twoBoxes_bytes

example (e : Endian) (v : Ver) (cv : Conv) (store : Int → F64) (content : Bytes) (s : Fs Name)
    (hfin : ∀ folder : PyPath, FiniteFolder s.has folder) (hin : s.content (s.resolve (PyPath.parse "box.cgns".toList).str) = some content) :=
  C66_command_succeeds (fun _ => .ok twoBoxesFile) store id (fun l => List.Perm.refl l) .little e v cv s hfin
    "box.cgns".toList (by decide) none content hin rfl twoBoxesFile_tells twoBoxes_hexa twoBoxes_first.1 twoBoxes_names twoBoxes_noTriple
    twoBoxes_mixed twoBoxes_separable twoBoxes_fits (by decide)

theorem facesFirst_hexa : HexaZone facesFirst where
  zone :=
    { sections := by
        intro p hp
        simp only [facesFirst, List.mem_cons, List.not_mem_nil, or_false] at hp
        rcases hp with rfl | rfl
        · exact ⟨⟨7, "quad4", 4, 2⟩, by decide, ⟨rfl, by decide⟩⟩
        · exact ⟨⟨17, "hexa8", 8, 3⟩, by decide, ⟨rfl, by decide⟩⟩
      lx := rfl
      ly := rfl
      lz := rfl
      faces := by decide
      names := by decide
      bcs := by
        intro p hp
        simp only [facesFirst, List.mem_cons, List.not_mem_nil, or_false] at hp
        subst hp
        refine ⟨.inr (.inr (.inl ⟨rfl, rfl⟩)), fun _ e he => ?_, fun _ => by decide⟩
        simp only [listed, List.mem_cons, List.not_mem_nil, or_false] at he
        rcases he with rfl | rfl
        · exact ⟨[0, 3, 9, 6], by decide⟩
        · exact ⟨[2, 5, 11, 8], by decide⟩ }
  some := by decide
  marks := by
    intro p hp
    simp only [facesFirst, List.mem_cons, List.not_mem_nil, or_false] at hp
    subst hp
    right
    rintro (⟨-, h⟩ | ⟨h, -⟩)
    · revert h; decide
    · cases h
  apart := by decide
  positive := by decide

theorem facesFirst_names : GoodNames facesFirst := by
  rintro name b ⟨p, hp, rfl⟩
  have hm := List.mem_of_getLast? hp
  rw [List.mem_filter, decide_eq_true_eq] at hm
  have hp' : p = ("ends", ⟨some "walls", some "FaceCenter", some [1, 2], none⟩) := by simpa [facesFirst] using hm.1
  subst hp'
  rw [← hm.2.2]
  exact ⟨by unfold UserName; decide, by decide, by decide⟩

/-- `C66_readable`: the file written for the zone whose faces come first cannot be read, with or without the check. -/
example (store : Int → F64) (e : Endian) (v : Ver) (cv : Conv) (integ : Bool) (m : Mesh Int) (b : Bytes)
    (hm : Cgns.exportMesh id 3 facesFirst = .ok m)
    (hw : writeIc3 cgnsElem2faces id .little e v cv (imported (Convert.stored store m)) = (some b, .ok ())) :
    ¬ ∃ g, readIc3 integ b = .ok g := fun h =>
  twoBoxes_first.2 ((C66_readable id (fun l => List.Perm.refl l) facesFirst_hexa facesFirst_names (by unfold NoTriple; decide) hm store
    .little e v cv b hw integ).1 h)

/-- `C66_command` on the first zone. -/
example (e : Endian) (v : Ver) (cv : Conv) (store : Int → F64) (content : Bytes) (s : Fs Name)
    (hfin : ∀ folder : PyPath, FiniteFolder s.has folder) (hin : s.content (s.resolve (PyPath.parse "box.cgns".toList).str) = some content) :
    ∃ fuel s' name b g lb li,
      cgnsToIc3 (fun _ => .ok twoBoxesFile) store id .little e v cv s fuel "box.cgns".toList none = some (s', .ok name) ∧
      s.content (s.resolve name) = none ∧ s'.content (s.resolve name) = some b ∧ readIc3 true b = .ok g ∧
      Converted store twoBoxes lb li g.mesh := by
  obtain ⟨n, s', name, h⟩ := C66_command_succeeds (fun _ => .ok twoBoxesFile) store id (fun l => List.Perm.refl l) .little e v cv s hfin
    "box.cgns".toList (by decide) none content hin rfl twoBoxesFile_tells twoBoxes_hexa twoBoxes_first.1 twoBoxes_names twoBoxes_noTriple
    twoBoxes_mixed twoBoxes_separable twoBoxes_fits (by decide)
  obtain ⟨h1, -, b, g, lb, li, h2, h3, h4⟩ := C66_command (fun _ => .ok twoBoxesFile) store id (fun l => List.Perm.refl l) .little e v cv
    s s' n "box.cgns".toList name none content hin rfl twoBoxesFile_tells twoBoxes_hexa twoBoxes_first.1 twoBoxes_names twoBoxes_noTriple
    (h n (Nat.le_refl n)) true
  exact ⟨n, s', name, b, g, lb, li, h n (Nat.le_refl n), h1, h2, h3, h4⟩

end Cfd.CgnsConvert

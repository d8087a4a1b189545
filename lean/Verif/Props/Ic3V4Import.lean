import Verif.Props.Ic3V4Cells
import Verif.Props.CgnsConvert
import Verif.Props.Ic3Layers

/-! C86: the IC3 V4 files of the meshes read in Gmsh files, in CGNS files, and of extruded plane meshes. -/

namespace Cfd.Ic3
open Spec Spec.Ic3 ElemConn _root_.Cfd.Convert

/-- Names accepted by the binary format fit the V4 format. -/
theorem userName_v4 {name : String} (h : UserName name) : name.length ≤ 128 ∧ name.toList.getLast? ≠ some '\x00' := by
  obtain ⟨⟨h1, h2⟩, -⟩ := h
  rw [String.length_toList] at h1
  refine ⟨by omega, fun h => ?_⟩
  exact (h2 _ (List.mem_of_getLast? h)).2 rfl

/-- A mesh without data has a solution that can be stored. -/
theorem imported_sol (m : Mesh F64) : SolFits (imported m) where
  step := by intro s h; cases h
  time := by intro s h; cases h
  weights := by intro _ p hp; cases hp
  stats := List.Pairwise.nil

/-- **C86, Gmsh**: the mesh of a Gmsh file within the limits of C64, none of whose boundaries is named as a table of the V4
file, is written to a V4 file and read back as the mesh of the Gmsh file. -/
theorem C86_gmsh {R : Type} {num : Gmsh.PyNum R} {msh : Gmsh.Lines} {m : Mesh (Option R)} {pts : List (Option (R × R × R))}
    {names : Option (List Spec.Gmsh.PhysName)} {elts : List Spec.Gmsh.Elt} (hread : Gmsh.read num msh = .ok m)
    (hm : Spec.Gmsh.IsMeshOf pts names elts m) (hsup : ∀ e ∈ elts, e.Supported) (htop : 2 ≤ Spec.Gmsh.topDim elts)
    (hg : Spec.Convert.GoodNames names elts) (h3 : Spec.Convert.NoTriple elts) (hmix : Spec.Convert.Mixed elts)
    (hsep : Spec.Convert.Separable names elts) (hfit : Spec.Convert.Fits pts elts)
    (hn : ∀ name, Spec.Convert.IsBoundary names elts name → name ∉ ["labels", "offsets", "kinds"]) (store : Option R → F64)
    (so : List Int → List Int) (hso : Reorders so) (h5 : H5) (hk : Keeps32 h5) (cv : Conv) (sol : Bool) :
    ∃ x s c g lb li, writeV4 gmshElem2faces so h5 cv (imported (stored store m)) sol = .ok (x, s) ∧ readV4 x none = .ok g ∧
      Spec.Convert.Converted store pts names elts c lb li g.mesh := by
  obtain ⟨c, hcm, hkn, hcf, hnames, hper, hconv⟩ := convert_ready hread hm hsup htop hg h3 hmix hsep hfit store
  have hv : MarksV4 (stored store m) := by
    intro p hp
    obtain ⟨k1, k2⟩ := userName_v4 (hnames.marks p hp)
    refine ⟨k1, k2, fun pt hpt => ?_⟩
    rw [hper p hp, Option.some.injEq] at hpt
    exact ⟨by rw [← hpt]; simp, hn _ ((hm.marks.names _).1 (List.mem_map_of_mem (f := Prod.fst) hp))⟩
  obtain ⟨x, s, g, lb, li, hw, hr, hfc⟩ := C86_cells gmshElem2faces gmshTable_wf gmshTable_widths so hso h5 hk cv
    (imported (stored store m)) c hcm hkn hcf hv sol (fun _ => imported_sol _)
  exact ⟨x, s, c, g, lb, li, hw, hr, hconv lb li g.mesh hfc⟩

/-- **C86, CGNS**: the mesh of a zone of hexahedra within the limits of C66 is written to a V4 file and read back as the
mesh of the zone. -/
theorem C86_cgns {R : Type} {z : Cgns.Zone R} (so : List Int → List Int) (hso : Reorders so) (hz : Spec.CgnsConvert.HexaZone z)
    (hf : Spec.CgnsConvert.CellsFirst z) (hg : Spec.CgnsConvert.GoodNames z) (h3 : Spec.CgnsConvert.NoTriple z)
    (hmix : Spec.CgnsConvert.Mixed z) (hsep : Spec.CgnsConvert.Separable z) (hfit : Spec.CgnsConvert.Fits z) {m : Mesh R}
    (hm : Cgns.exportMesh so 3 z = .ok m) (store : R → F64) (h5 : H5) (hk : Keeps32 h5) (cv : Conv) (sol : Bool) :
    ∃ x s g lb li, writeV4 cgnsElem2faces so h5 cv (imported (stored store m)) sol = .ok (x, s) ∧ readV4 x none = .ok g ∧
      Spec.CgnsConvert.Converted store z lb li g.mesh := by
  obtain ⟨c, hcm, hkn, hcf, hnames, hper, hconv⟩ := CgnsConvert.convert_ready so hso hz hf hg h3 hmix hsep hfit hm store
  have hv : MarksV4 (stored store m) := by
    intro p hp
    obtain ⟨k1, k2⟩ := userName_v4 (hnames.marks p hp)
    refine ⟨k1, k2, fun pt hpt => ?_⟩
    rw [hper p hp] at hpt
    cases hpt
  obtain ⟨x, s, g, lb, li, hw, hr, hfc⟩ := C86_cells cgnsElem2faces cgnsTable_wf cgnsTable_widths so hso h5 hk cv
    (imported (stored store m)) c hcm hkn hcf hv sol (fun _ => imported_sol _)
  exact ⟨x, s, g, lb, li, hw, hr, hconv lb li g.mesh hfc⟩

/-- **C86, extrusion**: a plane mesh of quadrangles within the limits of C65, extruded by one layer, is written to a V4 file
and read back as this layer. -/
theorem C86_layer {R : Type} [Add R] [Mul R] {tbl : FaceTable} (htbl : tbl = cgnsElem2faces ∨ tbl = gmshElem2faces)
    (so : List Int → List Int) (hso : Reorders so) (m : Mesh R) (c : ElemConn) (q : Quads) (h : QuadMesh m c q)
    (domain : String) (hf : LayerFits m q domain) (d : R × R × R) (s0 s1 : R) (bits : R → F64)
    (h5 : H5) (hk : Keeps32 h5) (cv : Conv) (sol : Bool) :
    ∃ m' x s g lb li, m.exportExtruded so d [s0, s1] domain = .ok m' ∧
      writeV4 tbl so h5 cv (imported (storedMesh bits m')) sol = .ok (x, s) ∧ readV4 x none = .ok g ∧
      LayerRead m.nnode q m.bocos domain lb li g.mesh ∧
      ∀ j : Nat, j < m.nnode →
        nodeAt g.mesh j = (nodeAt m j).map (fun p => (bits (translate p d s0).1, bits (translate p d s0).2.1,
          bits (translate p d s0).2.2)) ∧
        nodeAt g.mesh (m.nnode + j) = (nodeAt m j).map (fun p => (bits (translate p d s1).1, bits (translate p d s1).2.1,
          bits (translate p d s1).2.2)) := by
  have ht : HexaTable tbl := by
    rcases htbl with rfl | rfl
    · exact hexaTable_cgns
    · exact hexaTable_gmsh
  have hwf : TableWF tbl ∧ DistinctWidths tbl := by
    rcases htbl with rfl | rfl
    · exact ⟨cgnsTable_wf, cgnsTable_widths⟩
    · exact ⟨gmshTable_wf, gmshTable_widths⟩
  obtain ⟨x, y, z, hc, hx, hy, hz⟩ := h.mesh.coords
  have hm' := layer_mesh so h hf hc d s0 s1
  obtain ⟨pts, hpts⟩ : ∃ pts : List (R × R × R), pts = [s0, s1].flatMap fun s => (x.zip (y.zip z)).map fun p => translate p d s :=
    ⟨_, rfl⟩
  simp only [← hpts] at hm'
  have hzl : (x.zip (y.zip z)).length = m.nnode := by simp [hx, hy, hz]
  have hpl : pts.length = m.nnode * 2 := by
    rw [hpts]
    simp only [List.flatMap_cons, List.flatMap_nil, List.append_nil, List.length_append, List.length_map, hzl]
    omega
  have hcm := layer_cells bits so h hf _ hpl
  have hfit := layer_fits bits so hso h hf ht pts
  obtain ⟨f, hfe⟩ : ∃ f, f = imported (storedMesh bits ⟨(layerConn m.nnode c).nelem, m.nnode * 2, 0,
    some (layerConn m.nnode c), [], some (pts.map (·.1), pts.map (·.2.1), pts.map (·.2.2)), layerMarks so m c domain⟩) := ⟨_, rfl⟩
  have hv : MarksV4 f.mesh := by
    rw [hfe]
    intro p hp
    rcases List.mem_append.1 (show p ∈ layerMarks so m c domain from hp) with hp | hp
    · obtain ⟨p', hp', rfl⟩ := List.mem_map.1 hp
      obtain ⟨k1, k2⟩ := userName_v4 (hf.markName p' hp').1
      exact ⟨k1, k2, fun pt hpt => by cases hpt⟩
    · simp only [List.mem_cons, List.not_mem_nil, or_false] at hp
      rcases hp with rfl | rfl
      · obtain ⟨k1, k2⟩ := userName_v4 hf.names.1
        exact ⟨k1, k2, fun pt hpt => by cases hpt⟩
      · obtain ⟨k1, k2⟩ := userName_v4 hf.names.2
        exact ⟨k1, k2, fun pt hpt => by cases hpt⟩
  obtain ⟨x', s, g, lb, li, hw, hr, hfc⟩ := C86_cells tbl hwf.1 hwf.2 so hso h5 hk cv f (layerConn m.nnode c)
    (hfe ▸ hcm) (layer_known h ht) (hfe ▸ hfit) hv sol (fun _ => hfe ▸ imported_sol _)
  subst hfe
  have hat : ∀ i : Nat, nodeAt g.mesh i = (pts[i]?).map fun p => (bits p.1, bits p.2.1, bits p.2.2) := by
    have hcoords : g.mesh.coords = _ := hfc.coords
    intro i
    unfold nodeAt
    rw [hcoords]
    simp only [imported, storedMesh, Option.map_some, List.getElem?_map]
    cases pts[i]? <;> rfl
  refine ⟨_, x', s, g, lb, li, hm', hw, hr, layer_read bits so hso h hf ht _ hfc hcm.markKeys, ?_⟩
  intro j hj
  have hblock : ∀ k s, [s0, s1][k]? = some s →
      pts[k * m.nnode + j]? =
        (nodeAt m j).map fun p => translate p d s := by
    intro k s hk
    rw [hpts, getElem?_blocks [s0, s1] _ m.nnode (by simp [hzl, hx, hy, hz]) k j s hk hj, List.getElem?_map, nodeAt_zip m hc]
  have h0 := hblock 0 s0 rfl
  have h1 := hblock 1 s1 rfl
  rw [Nat.zero_mul, Nat.zero_add] at h0
  rw [Nat.one_mul] at h1
  rw [hat, hat, h0, h1, Option.map_map, Option.map_map]
  exact ⟨rfl, rfl⟩

/-! ## Examples -/

/-- The Gmsh file, the CGNS zone and the plane mesh of C64, C66 and C65. -/
example (store : Option Int → F64) (cv : Conv) (sol : Bool) := fun m hm hi =>
  C86_gmsh (m := m) (num := intNum) (msh := pairMsh) hm hi pair_supported (by rw [pair_meets.2.1]; decide) pair_meets.2.2.2.2.1
    pair_meets.2.2.2.2.2.1 pair_meets.2.2.2.2.2.2.1 pair_meets.2.2.2.2.2.2.2.1 pair_meets.2.2.2.2.2.2.2.2.1 (by
      rintro name ⟨e, he, hn⟩
      have key : ∀ e ∈ Spec.Gmsh.bordersOf pairElts, ∀ n, Spec.Gmsh.boundaryOf (some tetraNames) e = some n →
        n ∉ ["labels", "offsets", "kinds"] := by decide
      exact key e he name hn) store id (fun l => List.Perm.refl l) strictH5 strictH5_keeps cv sol

example (store : Int → F64) (cv : Conv) (sol : Bool) := fun m hm =>
  C86_cgns (m := m) id (fun l => List.Perm.refl l) CgnsConvert.twoBoxes_hexa CgnsConvert.twoBoxes_first.1 CgnsConvert.twoBoxes_names
    CgnsConvert.twoBoxes_noTriple CgnsConvert.twoBoxes_mixed CgnsConvert.twoBoxes_separable CgnsConvert.twoBoxes_fits hm store
    strictH5 strictH5_keeps cv sol

example (cv : Conv) (sol : Bool) := C86_layer (.inl rfl) id (fun l => List.Perm.refl l) exQuads exQuadsConn exQuadsList
  exQuads_mesh "dom" exQuads_fits (0, 0, 1) 0 1 (fun i => UInt64.ofNat i.toNat) strictH5 strictH5_keeps cv sol

/-- What is read of the extruded plane mesh. -/
example : ((exQuads.exportExtruded id (0, 0, 1) [0, 1] "dom").bind fun m =>
    (writeV4 cgnsElem2faces id strictH5 noConv (imported (storedMesh (fun i => UInt64.ofNat i.toNat) m)) false).bind fun r =>
      (readV4 r.1 none).map fun g => (g.mesh.ncell, g.mesh.bocos.map fun p => (p.1, p.2.index))).toOption =
    some (2, [("left", .range 0 0), ("dom0", .range 1 2), ("dom1", .range 3 4), ("unmarked", .range 5 9), ("internal-domain", .range 10 10)]) := by
  decide +kernel

end Cfd.Ic3

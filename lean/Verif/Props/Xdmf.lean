import Verif.Lemmas.Xdmf

/-! # XDMF description of a series (C52) -/

namespace Cfd.Xdmf
open Cfd.Spec Cfd.Vtk Cfd.Spec.Vtk Cfd.Spec.Xdmf

variable {R V T : Type}

/-- **C52.** The series is dumped in an HDF5 file, and described by an XML document: one temporal collection, with the
grid of each step, in order. Each grid refers to the nodes, to the cells of each type present, and to the variables of
its step, at the paths where the HDF5 file has them, with their sizes. -/
theorem C52_document (shape : V → List Nat) (g : Grid (R × R × R)) (d : DataSetList V T) (file : String)
    (hd : Describable g shape d) :
    ∃ h grids, seriesHdf g d = .ok h ∧ seriesXdmf shape g d file = .ok (xdmfDocument grids).lines ∧
      grids.length = d.steps.length ∧
      ∀ i s, d.steps[i]? = some s → ∃ x, grids[i]? = some x ∧
        IsStepGrid h file g shape (s.1.filter fun p => p.1 ≠ "time") i x := by
  obtain ⟨h, c, e, w, sc, ke, hgr, hse⟩ := seriesHdf_ok hd.cells hd.names
  have hinv := seriesHdf_inv e
  refine ⟨h, _, e, seriesXdmf_ok hd.cells hd.nolines hd.shapes, by simp, ?_⟩
  intro i s hs
  refine ⟨gridXml shape file g (s, i), ?_, ?_⟩
  · rw [List.getElem?_map, List.getElem?_zipIdx, hs]; simp
  have hget : ∀ p x, (p, x) ∈ h.sets → h.sets.get? p = some x := fun p x hm => Dict.get?_of_mem hinv.2 hm
  refine ⟨geoXml file g, (cellsDict g).map (topoXml file), _,
    (cellsDict g).map fun p => (nameOf p.1, p.1, (vtkSize.get? p.1).getD 0), rfl, ⟨_, rfl, hget _ _ ?_⟩, ?_, ?_, ?_, ?_⟩
  · rw [hse]; simp
  · refine List.Nodup.of_map Prod.fst ?_
    rw [List.map_map]
    exact nameOf_nodup hd.cells
  · intro t
    rw [List.mem_map]
    constructor
    · rintro ⟨p, hp, rfl⟩
      obtain ⟨y, hy, e1, er, -⟩ := cellsDict_known hd.cells p hp
      have : (nameOf p.1, p.1, (vtkSize.get? p.1).getD 0) = y := by
        rw [e1, nameOf_code hy, (codes y hy).2.2]; rfl
      rw [this]
      exact ⟨hy, er ▸ cellsDict_ne hp⟩
    · rintro ⟨hy, hne⟩
      rw [← cellsDict_get?] at hne
      cases hc : (cellsDict g).get? t.2.1 with
      | none => rw [hc] at hne; exact absurd rfl hne
      | some a =>
        refine ⟨_, Dict.mem_of_get? hc, ?_⟩
        simp only [nameOf_code hy, (codes t hy).2.2, Option.getD_some]
  · rw [List.forall₂_map_left_iff, List.forall₂_map_right_iff, List.forall₂_same]
    intro p hp
    obtain ⟨y, hy, e1, er, wf, hrow⟩ := cellsDict_known hd.cells p hp
    have hne := cellsDict_ne hp
    have : (nameOf p.1, p.1, (vtkSize.get? p.1).getD 0) = y := by
      rw [e1, nameOf_code hy, (codes y hy).2.2]; rfl
    rw [this]
    have hx : ∃ x, (y.1, x) ∈ xdmfTypes ∧ pyvista2xdmf.get? y.2.1 = some x := by
      have h0 : ∀ y ∈ vtkTypes, y.2.1 ≠ 3 → ∃ z ∈ xdmfTypes, z.1 = y.1 ∧ pyvista2xdmf.get? y.2.1 = some z.2 := by decide
      obtain ⟨z, hz, ez, hx⟩ := h0 y hy (by rintro e3; rw [er, e3, hd.nolines] at hne; exact hne rfl)
      exact ⟨z.2, by rw [← ez]; exact hz, hx⟩
    obtain ⟨x, hx1, hx2⟩ := hx
    have hty : y.1 ∈ c.tbl.keys := by
      rw [ke]
      exact List.mem_map.2 ⟨p, hp, by rw [e1, nameOf_code hy]⟩
    obtain ⟨en, hen, een⟩ := List.mem_map.1 hty
    obtain ⟨t, en⟩ := en
    simp only at een
    subst een
    refine ⟨x, "/mesh/cells/" ++ y.1, en.e2n, hx1, ?_, hget _ _ ?_, ?_⟩
    · unfold topoXml
      rw [e1, hx2, nameOf_code hy, er]
      have hw : p.2.ncol.getD 1 = y.2.2 := by
        obtain ⟨r, hr⟩ := List.exists_mem_of_ne_nil _ hne
        unfold Arr2.WF at wf
        cases hcol : p.2.ncol with
        | none => rw [hcol] at wf; exact absurd wf hne
        | some k =>
          rw [hcol] at wf
          rw [Option.getD_some, ← wf r hr, (hrow r hr).1]
      rw [hw]; rfl
    · rw [hse]
      refine List.mem_append_left _ (List.mem_cons_of_mem _ (List.mem_map.2 ⟨_, hen, rfl⟩))
    · rw [sc.1 y hy]
      unfold rowsOfType elementsOf
      rw [Dict.get?_of_mem w.keys hen]
      simp only
      rw [List.map_snd_zip]
      obtain ⟨l, hl, hlen⟩ := (w.entries _ hen).1
      simp only at hl hlen
      unfold indicesOf
      rw [hl]
      exact le_of_eq hlen.symm
  · show List.Forall₂ _ (stepVars s) ((stepVars s).map (attXml shape file i))
    rw [List.forall₂_map_right_iff, List.forall₂_same]
    intro q hq
    refine ⟨vpath i q.1, rfl, hget _ _ ?_⟩
    rw [hse]
    refine List.mem_append_right _ (List.mem_flatMap.2 ⟨(s, i), ?_, List.mem_map.2 ⟨q, hq, rfl⟩⟩)
    rw [List.mem_iff_getElem?]
    exact ⟨i, by rw [List.getElem?_zipIdx, hs]; simp⟩

/-- **C52, XML.** When file and variable names have no character with a meaning in XML, what is written is a well
formed XML document: tags are closed in order. -/
theorem C52_well_formed (shape : V → List Nat) (g : Grid (R × R × R)) (d : DataSetList V T) (file : String)
    (hd : Describable g shape d) (hf : Plain file) (hn : ∀ s ∈ d.steps, ∀ p ∈ s.1, Plain p.1) :
    ∃ t : Xml, t.Ok ∧ seriesXdmf shape g d file = .ok t.lines := by
  refine ⟨_, ?_, seriesXdmf_ok hd.cells hd.nolines hd.shapes⟩
  have hitem : ∀ sh path, Plain path → (dataItem sh file path).Ok := by
    intro sh path hp
    simp only [dataItem, Xml.Ok, okAll, and_true]
    refine ⟨by unfold XmlName; decide, attrsOk_of ["Dimensions", "Format"] rfl (by unfold XmlName; decide) ?_,
      plain_append (plain_append hf (by unfold Plain; decide)) hp⟩
    simp only [List.map_cons, List.map_nil, List.forall_mem_cons, List.not_mem_nil, IsEmpty.forall_iff, implies_true, and_true]
    exact ⟨plain_dims sh, by unfold Plain; decide⟩
  unfold xdmfDocument
  simp only [Xml.Ok, okAll, and_true]
  refine ⟨by unfold XmlName; decide, by unfold AttrsOk XmlName Plain; decide, by unfold XmlName; decide,
    by unfold AttrsOk XmlName Plain; decide, by unfold XmlName; decide, by unfold AttrsOk XmlName Plain; decide, ?_⟩
  rw [okAll_iff]
  intro x hx
  obtain ⟨p, hp, rfl⟩ := List.mem_map.1 hx
  have hp1 : p.1 ∈ d.steps := by
    have := List.mem_map_of_mem (f := (·.1)) hp
    rwa [List.zipIdx_map_fst] at this
  unfold gridXml
  simp only [Xml.Ok, okAll]
  refine ⟨by unfold XmlName; decide, by unfold AttrsOk XmlName Plain; decide, ⟨by unfold XmlName; decide,
    attrsOk_of ["Value"] rfl (by unfold XmlName; decide) (by simpa using plain_nat p.2)⟩, ?_, ?_⟩
  · unfold geoXml
    simp only [Xml.Ok, okAll, and_true]
    exact ⟨by unfold XmlName; decide, by unfold AttrsOk XmlName Plain; decide, hitem _ _ (by unfold Plain; decide)⟩
  · rw [okAll_iff]
    intro x hx
    rw [List.mem_append, List.mem_map, List.mem_map] at hx
    rcases hx with ⟨q, hq, rfl⟩ | ⟨q, hq, rfl⟩
    · unfold topoXml
      simp only [Xml.Ok, okAll, and_true]
      refine ⟨by unfold XmlName; decide, attrsOk_of ["NumberOfElements", "TopologyType"] rfl
        (by unfold XmlName; decide) ?_, hitem _ _ (plain_append (by unfold Plain; decide) ?_)⟩
      · simp only [List.map_cons, List.map_nil, List.forall_mem_cons, List.not_mem_nil, IsEmpty.forall_iff,
          implies_true, and_true]
        refine ⟨plain_nat _, ?_⟩
        cases hq : pyvista2xdmf.get? q.1 with
        | none => unfold Plain; decide
        | some x =>
          have h0 : ∀ p ∈ pyvista2xdmf, Plain p.2 := by unfold Plain; decide
          exact h0 _ (Dict.mem_of_get? hq)
      · obtain ⟨y, hy, e1, -⟩ := cellsDict_known hd.cells q hq
        rw [e1, nameOf_code hy]
        have h0 : ∀ y ∈ vtkTypes, Plain y.1 := by unfold Plain; decide
        exact h0 y hy
    · have hq' : q ∈ p.1.1 := (List.mem_filter.1 hq).1
      unfold attXml
      simp only [Xml.Ok, okAll, and_true]
      refine ⟨by unfold XmlName; decide, attrsOk_of ["AttributeType", "Center", "Name"] rfl
        (by unfold XmlName; decide) ?_, hitem _ _ (plain_append (plain_append (plain_group _) (by unfold Plain; decide))
          (hn _ hp1 _ hq'))⟩
      simp only [List.map_cons, List.map_nil, List.forall_mem_cons, List.not_mem_nil, IsEmpty.forall_iff,
        implies_true, and_true]
      refine ⟨?_, by unfold Plain; decide, hn _ hp1 _ hq'⟩
      split <;> (unfold Plain; decide)

/-- **C52, names.** Groups and data sets of the HDF5 file have different paths; the groups of different steps have
different names. -/
theorem C52_names (g : Grid (R × R × R)) (d : DataSetList V T) (h : H5 R V T) (hh : seriesHdf g d = .ok h) :
    h.groups.Nodup ∧ h.sets.keys.Nodup ∧ ∀ i j, DataSetList.groupName i = DataSetList.groupName j → i = j :=
  ⟨(seriesHdf_inv hh).1, (seriesHdf_inv hh).2, fun _ _ => groupName_inj⟩

/-- **C52, complete.** All data sets of the HDF5 file are referred to. -/
theorem C52_complete (shape : V → List Nat) (g : Grid (R × R × R)) (d : DataSetList V T) (file : String)
    (hd : Describable g shape d) (hne : d.steps ≠ []) :
    ∃ h lines, seriesHdf g d = .ok h ∧ seriesXdmf shape g d file = .ok lines ∧
      ∀ path ∈ h.sets.keys, file ++ ":" ++ path ∈ lines := by
  obtain ⟨h, c, e, w, sc, ke, hgr, hse⟩ := seriesHdf_ok hd.cells hd.names
  refine ⟨h, _, e, seriesXdmf_ok hd.cells hd.nolines hd.shapes, ?_⟩
  have hdoc : ∀ (grids : List Xml) (x : Xml) (s : String), x ∈ grids → s ∈ x.lines → s ∈ (xdmfDocument grids).lines := by
    intro grids x s hx hs
    have : s ∈ linesAll grids := by rw [linesAll_eq]; exact List.mem_flatMap.2 ⟨x, hx, hs⟩
    simp [xdmfDocument, Xml.lines, linesAll, this]
  have hgrid : ∀ (p : (Dict String V × Option T) × Nat) (s : String),
      s ∈ (geoXml file g).lines ∨ (∃ q ∈ cellsDict g, s ∈ (topoXml file q).lines) ∨
        (∃ q ∈ stepVars p.1, s ∈ (attXml shape file p.2 q).lines) → s ∈ (gridXml shape file g p).lines := by
    intro p s hs
    simp only [gridXml, Xml.lines, linesAll, linesAll_eq, List.flatMap_append, List.flatMap_map, List.mem_append,
      List.mem_flatMap]
    exact .inl (.inr (.inr hs))
  have hitem : ∀ sh path, file ++ ":" ++ path ∈ (dataItem sh file path).lines := by
    intro sh path; simp [dataItem, Xml.lines, linesAll]
  intro path hpath
  obtain ⟨s0, hs0⟩ : ∃ s0, (s0, 0) ∈ d.steps.zipIdx := by
    cases hd0 : d.steps with
    | nil => exact absurd hd0 hne
    | cons a l => exact ⟨a, by simp⟩
  obtain ⟨pr, hpr, rfl⟩ := List.mem_map.1 hpath
  rw [hse] at hpr
  simp only [List.mem_append, List.mem_cons, List.mem_map, List.mem_flatMap] at hpr
  rcases hpr with (rfl | ⟨p, hp, rfl⟩) | ⟨p, hp, hp'⟩
  · refine hdoc _ _ _ (List.mem_map_of_mem hs0) (hgrid _ _ (.inl ?_))
    simp only [geoXml, Xml.lines, linesAll, List.append_nil]
    exact List.mem_append_left _ (List.mem_append_right _ (hitem _ _))
  · have : p.1 ∈ c.tbl.keys := List.mem_map.2 ⟨p, hp, rfl⟩
    rw [ke] at this
    obtain ⟨q, hq, e1⟩ := List.mem_map.1 this
    refine hdoc _ _ _ (List.mem_map_of_mem hs0) (hgrid _ _ (.inr (.inl ⟨q, hq, ?_⟩)))
    simp only [topoXml, Xml.lines, linesAll, List.append_nil]
    refine List.mem_append_left _ (List.mem_append_right _ ?_)
    rw [e1]
    exact hitem _ _
  · obtain ⟨q, hq, rfl⟩ := List.mem_map.1 hp'
    refine hdoc _ _ _ (List.mem_map_of_mem hp) (hgrid _ _ (.inr (.inr ⟨q, hq, ?_⟩)))
    simp only [attXml, Xml.lines, linesAll, List.append_nil]
    exact List.mem_append_left _ (List.mem_append_right _ (hitem _ _))

/-- **C52, refused.** An array without dimension or with more than two is refused. -/
theorem C52_dimensions (shape : V → List Nat) (g : Grid (R × R × R)) (d : DataSetList V T) (file : String)
    (hg : KnownCells g) (h3 : cellsOfType g 3 = [])
    (h : ∃ s ∈ d.steps, ∃ p ∈ s.1, p.1 ≠ "time" ∧ (shape p.2).length ≠ 1 ∧ (shape p.2).length ≠ 2) :
    seriesXdmf shape g d file = .error .value := by
  unfold seriesXdmf
  rw [geometryContent_ok hg h3]
  simp only [Except_bind_ok]
  unfold xdmfContent
  have hatt : ∀ i q, (∃ l, attributeContent shape file i q = .ok l) ∨ attributeContent shape file i q = .error .value := by
    intro i q
    unfold attributeContent
    split
    · exact .inl ⟨_, rfl⟩
    · exact .inl ⟨_, rfl⟩
    · exact .inr rfl
  have hstep : ∀ geo (p : (Dict String V × Option T) × Nat), (∃ l, stepContent shape file geo p = .ok l) ∨
      stepContent shape file geo p = .error .value := by
    intro geo p
    unfold stepContent
    rcases mapM_ok_or (e := PyErr.value) (stepVars p.1) (attributeContent shape file p.2) (fun q _ => hatt _ q) with ⟨l, hl⟩ | hl
    · rw [hl]; exact .inl ⟨_, rfl⟩
    · rw [hl]; exact .inr rfl
  obtain ⟨s, hs, q, hq, ht, h1, h2⟩ := h
  obtain ⟨i, hi⟩ := List.mem_iff_getElem?.1 hs
  rw [mapM_error_of (e := PyErr.value) _ _ (fun p _ => hstep _ p) (s, i) (List.mem_iff_getElem?.2 ⟨i, by rw [List.getElem?_zipIdx, hi]; simp⟩)]
  · rfl
  · unfold stepContent
    rw [mapM_error_of (e := PyErr.value) _ _ (fun p _ => hatt _ p) q (by unfold stepVars; rw [List.mem_filter]; exact ⟨hq, by simpa using ht⟩)]
    · rfl
    · unfold attributeContent
      split
      · omega
      · omega
      · rfl

/-- **C52, refused.** The HDF5 file of a grid with line cells is written, its description is refused. -/
theorem C52_line_cells (shape : V → List Nat) (g : Grid (R × R × R)) (d : DataSetList V T) (file : String)
    (hg : KnownCells g) (h3 : cellsOfType g 3 ≠ []) (hn : ∀ s ∈ d.steps, s.1.keys.Nodup) :
    (∃ h, seriesHdf g d = .ok h) ∧ seriesXdmf shape g d file = .error .key := by
  obtain ⟨h, c, e, -⟩ := seriesHdf_ok hg hn
  refine ⟨⟨h, e⟩, ?_⟩
  unfold seriesXdmf geometryContent
  have hk : ∀ p ∈ cellsDict g, (∃ l, topologyContent file p = .ok l) ∨ topologyContent file p = .error .key := by
    intro p hp
    unfold topologyContent
    rw [nameOf_getE hg p hp]
    unfold Dict.getE
    cases pyvista2xdmf.get? p.1 with
    | none => exact .inr rfl
    | some x => exact .inl ⟨_, rfl⟩
  rw [← cellsDict_get?] at h3
  cases hc : (cellsDict g).get? 3 with
  | none => rw [hc] at h3; exact absurd rfl h3
  | some a =>
    rw [mapM_error_of (e := PyErr.key) _ _ hk (3, a) (Dict.mem_of_get? hc)]
    · rfl
    · rfl

/-! ## A case -/

/-- A tetrahedron and a wedge, with 8 points. -/
def twoCells : Grid (Int × Int × Int) :=
  ⟨[(10, [0, 1, 2, 3]), (13, [0, 1, 2, 4, 5, 6])], (List.range 8).map fun k => ((k : Int), 0, 1)⟩

/-- Two steps with a scalar and a vector. -/
def twoSteps : DataSetList (List Nat) Int :=
  ⟨⟨.dataSetList, "cellaverage", 1, "timeevol"⟩, [([("P", [2]), ("U", [2, 3])], some 4), ([("P", [2])], none)]⟩

theorem twoSteps_describable : Describable twoCells id twoSteps where
  cells := by unfold KnownCells; decide +kernel
  nolines := by decide +kernel
  shapes := by decide +kernel
  names := by decide +kernel
  slash := by decide +kernel

example : seriesXdmf id twoCells twoSteps "a.h5" = .ok [
    "<Xdmf Version=\"3.0\">", "<Domain>",
    "<Grid Name=\"IC3\" GridType=\"Collection\" CollectionType=\"Temporal\">",
    "<Grid Name=\"Unstructured Mesh\">", "<Time Value=\"0\"/>",
    "<Geometry GeometryType=\"XYZ\">", "<DataItem Dimensions=\"24\" Format=\"HDF\">", "a.h5:/mesh/nodes", "</DataItem>",
    "</Geometry>",
    "<Topology NumberOfElements=\"1\" TopologyType=\"Tetrahedron\">", "<DataItem Dimensions=\"4\" Format=\"HDF\">",
    "a.h5:/mesh/cells/tetra4", "</DataItem>", "</Topology>",
    "<Topology NumberOfElements=\"1\" TopologyType=\"Prism\">", "<DataItem Dimensions=\"6\" Format=\"HDF\">",
    "a.h5:/mesh/cells/prism6", "</DataItem>", "</Topology>",
    "<Attribute AttributeType=\"Scalar\" Center=\"Cell\" Name=\"P\">", "<DataItem Dimensions=\"2\" Format=\"HDF\">",
    "a.h5:/datalist/i000000/P", "</DataItem>", "</Attribute>",
    "<Attribute AttributeType=\"Vector\" Center=\"Cell\" Name=\"U\">", "<DataItem Dimensions=\"2 3\" Format=\"HDF\">",
    "a.h5:/datalist/i000000/U", "</DataItem>", "</Attribute>", "</Grid>",
    "<Grid Name=\"Unstructured Mesh\">", "<Time Value=\"1\"/>",
    "<Geometry GeometryType=\"XYZ\">", "<DataItem Dimensions=\"24\" Format=\"HDF\">", "a.h5:/mesh/nodes", "</DataItem>",
    "</Geometry>",
    "<Topology NumberOfElements=\"1\" TopologyType=\"Tetrahedron\">", "<DataItem Dimensions=\"4\" Format=\"HDF\">",
    "a.h5:/mesh/cells/tetra4", "</DataItem>", "</Topology>",
    "<Topology NumberOfElements=\"1\" TopologyType=\"Prism\">", "<DataItem Dimensions=\"6\" Format=\"HDF\">",
    "a.h5:/mesh/cells/prism6", "</DataItem>", "</Topology>",
    "<Attribute AttributeType=\"Scalar\" Center=\"Cell\" Name=\"P\">", "<DataItem Dimensions=\"2\" Format=\"HDF\">",
    "a.h5:/datalist/i000001/P", "</DataItem>", "</Attribute>", "</Grid>", "</Grid>", "</Domain>", "</Xdmf>"] := by
  decide +kernel

example : (seriesHdf twoCells twoSteps).map (fun h => (h.groups, h.sets.keys, h.times)) = .ok
    (["/mesh", "/mesh/cells", "/datalist", "/datalist/i000000", "/datalist/i000001"],
      ["/mesh/nodes", "/mesh/cells/tetra4", "/mesh/cells/prism6", "/datalist/i000000/P", "/datalist/i000000/U",
        "/datalist/i000001/P"], [("/datalist/i000000", 4)]) := by decide +kernel

/-- The step of time 4 has `Time Value="0"`: the value is the number of the step, the time itself is not written. -/
example (shape : List Nat → List Nat) (file : String) (p : (Dict String (List Nat) × Option Int) × Nat) :
    (gridXml shape file twoCells p).lines[1]? = some ("<Time Value=\"" ++ toString p.2 ++ "\"/>") :=
  congrArg some (String.toList_inj.1 (by simp [attrText, String.join]))

/-- C52 applied to these steps. -/
example := C52_document id twoCells twoSteps "a.h5" twoSteps_describable
example := C52_complete id twoCells twoSteps "a.h5" twoSteps_describable (by decide)
example := C52_well_formed id twoCells twoSteps "a.h5" twoSteps_describable (by unfold Plain; decide +kernel) (by unfold Plain; decide +kernel)
example : ∃ h, seriesHdf twoCells twoSteps = .ok h ∧ h.groups.Nodup := by
  obtain ⟨h, hh⟩ := exists_of_isOk (x := seriesHdf twoCells twoSteps) (by decide +kernel)
  exact ⟨h, hh, (C52_names twoCells twoSteps h hh).1⟩
example := C52_dimensions (T := Int) id twoCells ({ twoSteps with steps := [([("T", [2, 3, 3])], none)] }) "a.h5"
  twoSteps_describable.cells (by decide +kernel) ⟨_, List.mem_singleton.2 rfl, _, List.mem_singleton.2 rfl, by decide, by decide, by decide⟩
example := C52_line_cells id { twoCells with items := [(3, [0, 1])] } twoSteps "a.h5" (by unfold KnownCells; decide +kernel)
  (by decide +kernel) (by decide +kernel)

end Cfd.Xdmf

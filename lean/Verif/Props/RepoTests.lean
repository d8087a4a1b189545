import Verif.Model.Cube
import Verif.Model.Faces
import Verif.Model.Data
import Verif.Model.Vtk
import Verif.Model.Xdmf
import Verif.Model.H5File

/-!
# The repository's own unit tests, run on the model

These are not proofs of properties: each example is an assertion of a test of the repository (cited), stated of
the model, to check that the model and the code agree where the code's authors have said what they expect.
-/

namespace Cfd.RepoTests

/-! ## tests/test_0_connectivity.py -/

/-- test_indexlist_initlist0, test_indexlist_initlist1 (test_0_connectivity.py:6-16). -/
example : (IndexList.list [10, 12, 15, 20]).toList = .ok [10, 12, 15, 20] := by decide

/-- test_indexlist_initrange0 (test_0_connectivity.py:19-24). -/
example : (IndexList.range 10 20).getRange = .ok (10, 20) ∧
    (IndexList.range 10 20).toList = .ok [10, 11, 12, 13, 14, 15, 16, 17, 18, 19, 20] := by decide

/-- test_indexindirection_append (test_0_connectivity.py:40-47): twenty rows after the second append. -/
example : (F2C.append (F2C.append none ((List.range 10).map fun i : Nat => ((i : Int), 2 * (i : Int))))
      ((List.range 10).map fun i : Nat => ((i : Int) + 10, 3 * (i : Int)))).map List.length = some 20 := by decide

/-- test_compressed_listofindex (test_0_connectivity.py:50-54). -/
example : (Csr.mk ((List.range 11).map fun i : Nat => (i : Int) * 3)
    ((List.range 30).map fun i : Nat => 100 + (i : Int))).check = .ok true := by decide

/-- The entries of `dict_basiccon` (test_0_connectivity.py:58-65). -/
def quads2 : Py ElemConn := ElemConn.empty.addElems "quad4" (Arr2.ofRows [[0, 1, 2, 3], [2, 1, 4, 5]])
/-- `3quadsintri`. -/
def quads3 : Py ElemConn :=
  ElemConn.empty.addElems "quad4" (Arr2.ofRows [[0, 5, 6, 4], [5, 1, 3, 6], [2, 4, 6, 3]])
/-- `2hexas`. -/
def hexas2 : Py ElemConn :=
  ElemConn.empty.addElems "hexa8" (Arr2.ofRows [[0, 1, 2, 3, 4, 5, 6, 7], [4, 5, 6, 7, 8, 9, 10, 11]])

/-- test_elem_init (test_0_connectivity.py:72-75). -/
example : (quads2 >>= ElemConn.check) = .ok true ∧ (hexas2 >>= ElemConn.check) = .ok true := by decide

/-- test_elem_createface (test_0_connectivity.py:77-87): as many pairs of cells as faces. -/
example :
    (quads2 >>= createFaces cgnsElem2faces).map (fun r => (r.i2c.map List.length, r.internal.nelem,
      r.b2c.map List.length, r.boundary.nelem)) = .ok (some 1, 1, some 6, 6) ∧
    (hexas2 >>= createFaces cgnsElem2faces).map (fun r => (r.i2c.map List.length, r.internal.nelem,
      r.b2c.map List.length, r.boundary.nelem)) = .ok (some 1, 1, some 10, 10) := by decide +kernel

/-- test_elem_merge (test_0_connectivity.py:89-97). -/
example :
    (do let r ← quads3 >>= createFaces cgnsElem2faces
        (← ElemConn.empty.importMerge [r.boundary, r.internal]).check) = .ok true ∧
    (do let r ← hexas2 >>= createFaces cgnsElem2faces
        (← ElemConn.empty.importMerge [r.boundary, r.internal]).check) = .ok true := by decide +kernel

/-- test_elemtocompress (test_0_connectivity.py:99-103). -/
example : ((quads2 >>= ElemConn.exportCompressed).map Csr.index) = .ok [0, 4, 8] := by decide

/-! ## tests/test_0_elements.py -/

/-- test_starting_index_to_zero (test_0_elements.py:6-14). -/
example : startAtZero [[1, 4, 3, 2], [1, 2, 6], [2, 7], [8]] = [[0, 3, 2, 1], [0, 1, 5], [1, 6], [7]] := by decide

/-- test_inward_normal (test_0_elements.py:17-20). -/
example : inwardNormal [[1, 2, 3], [4, 3, 2, 1]] = [[1, 3, 2], [4, 1, 2, 3]] := by decide

/-- test_group_faces_by_type (test_0_elements.py:23-26). -/
example : groupFacesByType [[1, 2, 3], [4, 3, 2, 1]] = [("tri3", [[1, 2, 3]]), ("quad4", [[4, 3, 2, 1]])] := by decide

/-- test_cgns2gmsh (test_0_elements.py:29-31). -/
example : cgns2gmsh [2, 4, 3, 1] [[0, 1, 2, 3], [3, 2, 1, 0]] = [[1, 3, 2, 0], [0, 2, 3, 1]] := by decide

/-! ## tests/test_1_simple.py -/

/-- test_cube_mini (test_1_simple.py:10-14). -/
example : ((Cube.mk 2 2 2).exportMesh (R := Nat)).map (fun m => (m.check id).1) = .ok (.ok true) := by decide +kernel

/-! ## tests/test_1_data.py -/

/-- test_DataSetBase, test_DataSet_default (test_1_data.py:5-21). -/
example : (DataAttrs.init .dataSet "cellaverage" 1 "instant").map (fun a => (a.xrep, a.trep, a.ndof)) =
    .ok ("cellaverage", "instant", 1) := by decide

/-- test_DataSet_default (test_1_data.py:16-21): both names are there, with their values. -/
example :
    let d : DataSet Nat Nat := ⟨⟨.dataSet, "cellaverage", 1, "instant"⟩, [], none⟩
    let d := (d.addData "U" 10 none).addData "V" 15 none
    d.data.keys = ["U", "V"] ∧ d.data.get? "U" = some 10 ∧ (d.data.map (·.2)).sum = 25 := by decide

/-- test_DataSet_ndof (test_1_data.py:23-27). -/
example : (DataAttrs.init .dataSet "spectralcell" 4 "instant").map (fun a => (a.xrep, a.trep, a.ndof)) =
    .ok ("spectralcell", "instant", 4) := by decide

/-- test_DataSetList_default (test_1_data.py:81-85). -/
example : (DataAttrs.init .dataSetList "cellaverage" 1 "timeevol").map (fun a => (a.xrep, a.trep, a.ndof)) =
    .ok ("cellaverage", "timeevol", 1) := by decide

/-- test_spectrum (test_1_data.py:68-72), with its 10001 samples. -/
example : spectrum "timeevol" [("time", 10001), ("U", 10001), ("V", 10001)] [] none none =
    .ok (10001, [("U", 10001), ("V", 10001)]) := by decide +kernel

/-- test_spectrogram (test_1_data.py:74-79), with its 10001 samples. -/
example : spectrogram "timeevol" [("time", 10001), ("U", 10001), ("V", 10001)] [] 0 =
    .ok ⟨49, 199, [("U", 199, 49), ("V", 199, 49)]⟩ := by decide +kernel

/-! ## tests/test_1_vtk.py -/

/-- Numerical functions that do not matter for the names of the arrays. -/
def zn : Vtk.ZNum Nat Nat Nat := ⟨fun l => List.range l.length, fun _ => 0, fun _ => 0, fun _ => 0, fun _ => 0, fun _ => 0,
  fun _ _ => 0, fun _ _ => 0⟩

/-- Names of the arrays made from `U` and `P` with ten planes. -/
def znames (glob : Dict String Vtk.OptVal) (select : Option (Dict String (List Vtk.SelItem))) : Py (List String) := do
  let dirs ← Vtk.directives ["U", "P"] glob select
  return (← Vtk.zoutputs zn [("U", []), ("P", [])] 10 0 [] dirs).keys

/-- test_default (test_1_vtk.py:65-72). -/
example : znames (Vtk.defaultOptions false false false 0) none = .ok ["U_avg", "P_avg"] := by decide +kernel

/-- test_rms (test_1_vtk.py:74-81). -/
example : znames (Vtk.defaultOptions true false false 0) none = .ok ["U_avg", "U_rms", "P_avg", "P_rms"] := by
  decide +kernel

/-- test_snapshot (test_1_vtk.py:83-90). -/
example : znames (Vtk.defaultOptions false false true 0) none = .ok ["U", "U_avg", "P", "P_avg"] := by decide +kernel

/-- test_fourier (test_1_vtk.py:92-100): ten arrays. -/
example : (znames (Vtk.defaultOptions false true false 2) none).map (fun l => (l.length, decide ("U_avg" ∈ l), decide ("P_avg" ∈ l))) =
    .ok (10, true, true) := by decide +kernel

/-- test_select (test_1_vtk.py:102-110). -/
example : znames (Vtk.defaultOptions true false true 1)
      (some [("U", [.word "no_avg"]), ("P", [.opts [("nmode", .int 2)], .word "phase"])]) =
    .ok ["U", "U_k1", "U_rms", "P", "P_avg", "P_k1", "P_k1_phase", "P_k2", "P_k2_phase", "P_rms"] := by decide +kernel

/-- test_vtkList_dumpxdmf (test_1_vtk.py:144-189), with two cells instead of a thousand: the lines of the XDMF file,
joined. -/
example :
    let g : Vtk.Grid (Nat × Nat × Nat) := ⟨[(12, [0, 1, 2, 3, 4, 5, 6, 7]), (12, [4, 5, 6, 7, 8, 9, 10, 11])],
      List.replicate 12 (0, 0, 0)⟩
    let d : DataSetList Nat Nat := ⟨⟨.dataSetList, "cellaverage", 1, "timeevol"⟩,
      [([("Q", 2), ("time", 1)], none), ([("Q", 2), ("time", 1)], none)]⟩
    let grid := fun i : String => "<Grid Name=\"Unstructured Mesh\"><Time Value=\"" ++ i ++
      "\"/><Geometry GeometryType=\"XYZ\"><DataItem Dimensions=\"36\" Format=\"HDF\">vtklist.hdf:/mesh/nodes</DataItem></Geometry>" ++
      "<Topology NumberOfElements=\"2\" TopologyType=\"Hexahedron\"><DataItem Dimensions=\"16\" Format=\"HDF\">" ++
      "vtklist.hdf:/mesh/cells/hexa8</DataItem></Topology><Attribute AttributeType=\"Scalar\" Center=\"Cell\" Name=\"Q\">" ++
      "<DataItem Dimensions=\"2\" Format=\"HDF\">vtklist.hdf:/datalist/i00000" ++ i ++ "/Q</DataItem></Attribute></Grid>"
    (Xdmf.seriesXdmf (fun n => [n]) g d "vtklist.hdf").map String.join =
      .ok ("<Xdmf Version=\"3.0\"><Domain><Grid Name=\"IC3\" GridType=\"Collection\" CollectionType=\"Temporal\">" ++
        grid "0" ++ grid "1" ++ "</Grid></Domain></Xdmf>") := by decide +kernel

/-! ## tests/test_0_h5.py -/

/-- test_WriteOpen (test_0_h5.py:7-21), for every available type, over any previous file. -/
example (release : String) (old : Option (H5.Content Unit)) : ∀ t ∈ H5.availableTypes,
    ∃ o c o', H5.Obj.open () release .new "w" (some t) (some 0) old = (o, some c, .ok ()) ∧
      H5.Obj.open () release .new "r" none none (some c) = (o', some c, .ok ()) ∧
      c.attrs.get? "cfdtools_version" = some (.str release) ∧ c.attrs.get? "cfd_datatype" = some (.str t) ∧
      c.attrs.get? "data_version" = some (.int 0) ∧ o'.datatype = some (.str t) := by
  intro t ht
  simp only [H5.availableTypes, List.mem_cons, List.not_mem_nil, or_false] at ht
  rcases ht with rfl | rfl | rfl | rfl | rfl <;> exact ⟨_, _, _, rfl, rfl, rfl, rfl, rfl, rfl⟩

end Cfd.RepoTests

import Verif.Model.Data
import Verif.Model.Vtk

/-!
# HDF5 dump of a series and its XDMF description (C52)

`DataSetList.dumphdf`, `DataSetList.xdmf_content` (data.py), `vtkMesh.xdmf_content` (vtk/_vtk.py), `h5File.write_unsmesh`
(hdf5/_hdf5.py), `vtkList.dumphdf` (vtk/_vtkList.py). The HDF5 file is the table of its data sets by absolute path; names
given by the user are taken as they are (h5py would also understand `/` and `.` in them). File names, options of h5py and
versions are not modelled.
-/

namespace Cfd.Xdmf
open Cfd.Vtk

variable {R V T : Type}

/-- Content of a data set. -/
inductive Item (R V : Type) where
  | nodes (pts : List (R × R × R))
  | cells (a : Arr2)
  | data (v : V)
  deriving DecidableEq, Repr

/-- An HDF5 file: groups, data sets by path, time attributes by group. -/
structure H5 (R V T : Type) where
  groups : List String
  sets : Dict String (Item R V)
  times : List (String × T)
  deriving DecidableEq, Repr

/-- `create_group` of h5py: the name must be new. -/
def H5.mkGroup (f : H5 R V T) (path : String) : Py (H5 R V T) :=
  if path ∈ f.groups ∨ path ∈ f.sets.keys then .error .value else .ok { f with groups := f.groups ++ [path] }

/-- `create_dataset` of h5py: the name must be new. -/
def H5.mkSet (f : H5 R V T) (path : String) (x : Item R V) : Py (H5 R V T) :=
  if path ∈ f.groups ∨ path ∈ f.sets.keys then .error .value else .ok { f with sets := f.sets ++ [(path, x)] }

/-- `datagroup.attrs['time'] = var`, when the step has a time. -/
def H5.setTime (f : H5 R V T) (group : String) : Option T → H5 R V T
  | some t => { f with times := f.times ++ [(group, t)] }
  | none => f

/-- `write_unsmesh` (hdf5/_hdf5.py:72-78). -/
def H5.writeUnsmesh (f : H5 R V T) (cells : Dict String Arr2) (nodes : List (R × R × R)) : Py (H5 R V T) := do
  let f ← f.mkGroup "/mesh"
  let f ← f.mkSet "/mesh/nodes" (.nodes nodes)
  let f ← f.mkGroup "/mesh/cells"
  cells.foldlM (fun f p => f.mkSet ("/mesh/cells/" ++ p.1) (.cells p.2)) f

/-- Variables of a step without the properties (`_property_names` is `('time',)`, data.py:43, 213-215). -/
def stepVars (step : Dict String V × Option T) : Dict String V := step.1.filter fun p => p.1 ≠ "time"

/-- One step of `_dumphdfgroup` (data.py:198-204). -/
def dumpStep (f : H5 R V T) (p : (Dict String V × Option T) × Nat) : Py (H5 R V T) := do
  let group := "/datalist/" ++ DataSetList.groupName p.2
  let f ← f.mkGroup group
  (stepVars p.1).foldlM (fun f q => f.mkSet (group ++ "/" ++ q.1) (.data q.2)) (f.setTime group p.1.2)

/-- `dict(mesh._cell2node)` (data.py:248). -/
def cellDict (m : Mesh R) : Py (Dict String Arr2) :=
  match m.cell2node with
  | some c => .ok (c.tbl.map fun p => (p.1, p.2.e2n))
  -- `dict(None)`
  | none => .error .type

/-- `DataSetList.dumphdf` (data.py:241-257). -/
def dumpHdf (m : Mesh R) (d : DataSetList V T) : Py (H5 R V T) := do
  let cells ← cellDict m
  let nodes ← nodesNd m
  let f ← H5.writeUnsmesh ⟨[], [], []⟩ cells nodes
  let f ← f.mkGroup "/datalist"
  d.steps.zipIdx.foldlM dumpStep f

/-- The HDF5 part of `vtkList.dumphdf` (_vtkList.py:129-131). -/
def seriesHdf (g : Grid (R × R × R)) (d : DataSetList V T) : Py (H5 R V T) := do
  let m ← exportMesh g
  dumpHdf m d

/-- `PYVISTA2XDMF` (_vtk.py:33-40) with the values of `pyvista.CellType`. -/
def pyvista2xdmf : Dict Int String :=
  [(5, "Triangle"), (9, "Quadrilateral"), (12, "Hexahedron"), (10, "Tetrahedron"), (14, "Pyramid"), (13, "Prism")]

/-- Lines of one cell type (_vtk.py:160-167). -/
def topologyContent (filename : String) (p : Int × Arr2) : Py (List String) := do
  let x ← pyvista2xdmf.getE p.1
  let t ← eleVtktype.getE p.1
  return ["<Topology NumberOfElements=\"" ++ toString p.2.rows.length ++ "\" TopologyType=\"" ++ x ++ "\">",
    "<DataItem Dimensions=\"" ++ toString (p.2.rows.length * p.2.ncol.getD 1) ++ "\" Format=\"HDF\">",
    filename ++ ":/mesh/cells/" ++ t, "</DataItem>", "</Topology>"]

/-- `vtkMesh.xdmf_content` (_vtk.py:145-169). The points of a pyvista grid always have three coordinates. -/
def geometryContent (g : Grid (R × R × R)) (filename : String) : Py (List String) := do
  let cells ← (cellsDict g).mapM (topologyContent filename)
  return ["<Geometry GeometryType=\"XYZ\">",
    "<DataItem Dimensions=\"" ++ toString (g.points.length * 3) ++ "\" Format=\"HDF\">",
    filename ++ ":/mesh/nodes", "</DataItem>", "</Geometry>"] ++ cells.flatten

/-- Lines of one variable (data.py:216-229); `shape` is the shape of the array. -/
def attributeContent (shape : V → List Nat) (filename : String) (i : Nat) (p : String × V) : Py (List String) := do
  let typ ← match (shape p.2).length with
    | 1 => .ok "Scalar"
    | 2 => .ok "Vector"
    | _ => .error PyErr.value
  let dim := String.intercalate " " ((shape p.2).map toString)
  return ["<Attribute AttributeType=\"" ++ typ ++ "\" Center=\"Cell\" Name=\"" ++ p.1 ++ "\">",
    "<DataItem Dimensions=\"" ++ dim ++ "\" Format=\"HDF\">",
    filename ++ ":/datalist/" ++ DataSetList.groupName i ++ "/" ++ p.1, "</DataItem>", "</Attribute>"]

/-- Lines of one step (data.py:209-230). -/
def stepContent (shape : V → List Nat) (filename : String) (geometry : List String)
    (p : (Dict String V × Option T) × Nat) : Py (List String) := do
  let atts ← (stepVars p.1).mapM (attributeContent shape filename p.2)
  return ["<Grid Name=\"Unstructured Mesh\">", "<Time Value=\"" ++ toString p.2 ++ "\"/>"] ++ geometry ++ atts.flatten ++
    ["</Grid>"]

/-- `DataSetList.xdmf_content` (data.py:206-239). -/
def xdmfContent (shape : V → List Nat) (d : DataSetList V T) (filename : String) (geometry : List String) :
    Py (List String) := do
  let steps ← d.steps.zipIdx.mapM (stepContent shape filename geometry)
  return ["<Grid Name=\"IC3\" GridType=\"Collection\" CollectionType=\"Temporal\">"] ++ steps.flatten ++ ["</Grid>"]

/-- `xdmf_domain` (_vtkList.py:139-145). -/
def xdmfDomain (content : List String) : List String :=
  ["<Xdmf Version=\"3.0\">", "<Domain>"] ++ content ++ ["</Domain>", "</Xdmf>"]

/-- The lines written by `_dumpxdmf` (_vtkList.py:136-155). -/
def seriesXdmf (shape : V → List Nat) (g : Grid (R × R × R)) (d : DataSetList V T) (filename : String) :
    Py (List String) := do
  let geometry ← geometryContent g filename
  let content ← xdmfContent shape d filename geometry
  return xdmfDomain content

end Cfd.Xdmf

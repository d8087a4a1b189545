import Verif.Model.Xdmf
import Verif.Spec.Vtk

/-!
# Specification of XDMF files (C52)
-/

namespace Cfd.Spec.Xdmf
open Cfd.Vtk Cfd.Xdmf Cfd.Spec.Vtk

/-- An XML document. -/
inductive Xml where
  | text (s : String)
  | empty (tag : String) (attrs : List (String × String))
  | elem (tag : String) (attrs : List (String × String)) (children : List Xml)

/-- Text of the attributes of a tag. -/
def attrText (attrs : List (String × String)) : String :=
  String.join (attrs.map fun a => " " ++ a.1 ++ "=\"" ++ a.2 ++ "\"")

mutual
/-- Text of a document, one tag per line. -/
def Xml.lines : Xml → List String
  | .text s => [s]
  | .empty tag attrs => ["<" ++ tag ++ attrText attrs ++ "/>"]
  | .elem tag attrs children => ["<" ++ tag ++ attrText attrs ++ ">"] ++ linesAll children ++ ["</" ++ tag ++ ">"]
/-- Text of several documents. -/
def linesAll : List Xml → List String
  | [] => []
  | x :: l => x.lines ++ linesAll l
end

/-- Characters with a meaning in XML. -/
def special : List Char := ['<', '>', '&', '"']

/-- No character with a meaning in XML. -/
def Plain (s : String) : Prop := ∀ c ∈ s.toList, c ∉ special

/-- A tag or attribute name. -/
def XmlName (s : String) : Prop := s ≠ "" ∧ ∀ c ∈ s.toList, c.isAlpha

/-- Names are names and values are plain. -/
def AttrsOk (attrs : List (String × String)) : Prop :=
  (attrs.map (·.1)).Nodup ∧ ∀ a ∈ attrs, XmlName a.1 ∧ Plain a.2

mutual
/-- A well formed document. -/
def Xml.Ok : Xml → Prop
  | .text s => Plain s
  | .empty tag attrs => XmlName tag ∧ AttrsOk attrs
  | .elem tag attrs children => XmlName tag ∧ AttrsOk attrs ∧ okAll children
/-- Well formed documents. -/
def okAll : List Xml → Prop
  | [] => True
  | x :: l => x.Ok ∧ okAll l
end

/-- A reference to the content of a data set, with the shape to expect. -/
def dataItem (shape : List Nat) (file path : String) : Xml :=
  .elem "DataItem" [("Dimensions", String.intercalate " " (shape.map toString)), ("Format", "HDF")]
    [.text (file ++ ":" ++ path)]

variable {R V T : Type}

/-- Name of the cell types in XDMF. -/
def xdmfTypes : List (String × String) :=
  [("tri3", "Triangle"), ("quad4", "Quadrilateral"), ("tetra4", "Tetrahedron"), ("hexa8", "Hexahedron"),
    ("prism6", "Prism"), ("pyra5", "Pyramid")]

/-- The geometry refers to the nodes of the grid, in the HDF5 file. -/
def IsGeometry (h : H5 R V T) (file : String) (g : Grid (R × R × R)) (x : Xml) : Prop :=
  ∃ path, x = .elem "Geometry" [("GeometryType", "XYZ")] [dataItem [g.points.length * 3] file path] ∧
    h.sets.get? path = some (.nodes g.points)

/-- The topology of a cell type refers to the cells of this type, in the HDF5 file. -/
def IsTopology (h : H5 R V T) (file : String) (g : Grid (R × R × R)) (t : String × Int × Nat) (x : Xml) : Prop :=
  ∃ name path a, (t.1, name) ∈ xdmfTypes ∧
    x = .elem "Topology" [("NumberOfElements", toString (cellsOfType g t.2.1).length), ("TopologyType", name)]
      [dataItem [(cellsOfType g t.2.1).length * t.2.2] file path] ∧
    h.sets.get? path = some (.cells a) ∧ a.rows = cellsOfType g t.2.1

/-- The attribute of a variable refers to its array, in the HDF5 file. -/
def IsAttribute (h : H5 R V T) (file : String) (shape : V → List Nat) (var : String × V) (x : Xml) : Prop :=
  ∃ path, x = .elem "Attribute" [("AttributeType", if (shape var.2).length = 1 then "Scalar" else "Vector"),
      ("Center", "Cell"), ("Name", var.1)] [dataItem (shape var.2) file path] ∧
    h.sets.get? path = some (.data var.2)

/-- The grid of step `i`: its number, the geometry, the topology of each type of cell present, the variables of the
step in order. -/
def IsStepGrid (h : H5 R V T) (file : String) (g : Grid (R × R × R)) (shape : V → List Nat) (vars : Dict String V)
    (i : Nat) (x : Xml) : Prop :=
  ∃ geo topo atts types,
    x = .elem "Grid" [("Name", "Unstructured Mesh")] (.empty "Time" [("Value", toString i)] :: geo :: (topo ++ atts)) ∧
    IsGeometry h file g geo ∧
    types.Nodup ∧ (∀ t, t ∈ types ↔ t ∈ vtkTypes ∧ cellsOfType g t.2.1 ≠ []) ∧
    List.Forall₂ (IsTopology h file g) types topo ∧
    List.Forall₂ (IsAttribute h file shape) vars atts

/-- A temporal collection of grids. -/
def xdmfDocument (grids : List Xml) : Xml :=
  .elem "Xdmf" [("Version", "3.0")] [.elem "Domain" [] [
    .elem "Grid" [("Name", "IC3"), ("GridType", "Collection"), ("CollectionType", "Temporal")] grids]]

/-- What is dumped can be described: cells of the XDMF types, arrays of one or two dimensions, in each step different
names (as in all Python dictionaries), that h5py takes as they are. -/
structure Describable (g : Grid (R × R × R)) (shape : V → List Nat) (d : DataSetList V T) : Prop where
  cells : KnownCells g
  nolines : cellsOfType g 3 = []
  shapes : ∀ s ∈ d.steps, ∀ p ∈ s.1, p.1 ≠ "time" → (shape p.2).length = 1 ∨ (shape p.2).length = 2
  names : ∀ s ∈ d.steps, s.1.keys.Nodup
  slash : ∀ s ∈ d.steps, ∀ p ∈ s.1, '/' ∉ p.1.toList ∧ p.1 ≠ "" ∧ p.1 ≠ "."

end Cfd.Spec.Xdmf

import Verif.Py

/-!
# Model of `cfdtools/meshbase/_elements.py`

Tables are transcribed from the file and processed by the same transformations.
-/

namespace Cfd

/-- `elem_properties` (_elements.py:7-18): name, number of nodes, dimension, extruded name. -/
def elemProperties : List (String × Nat × Nat × String) :=
  [("node1", 1, 0, "bar2"), ("bar2", 2, 1, "quad4"), ("tri3", 3, 2, "penta6"),
   ("quad4", 4, 2, "hexa8"), ("tetra4", 4, 3, "none"), ("pyra5", 5, 3, "none"),
   ("prism6", 6, 3, "none"), ("hexa8", 8, 3, "none")]

/-- `dim_elem` (_elements.py:20). -/
def dimElem : Dict String Nat := elemProperties.map fun (e, _, d, _) => (e, d)

/-- `nnode_elem` (_elements.py:21). -/
def nnodeElem : Dict String Nat := elemProperties.map fun (e, n, _, _) => (e, n)

/-- `face_from_nnode` (_elements.py:22): dictionary comprehension over elements of dimension <= 2. -/
def faceFromNnode : Dict Int String :=
  (elemProperties.filter fun (_, _, d, _) => d ≤ 2).foldl (fun m (e, n, _, _) => m.set (n : Int) e) []

/-- `extruded_face` (_elements.py:23). -/
def extrudedFace : Dict String String :=
  (elemProperties.filter fun (_, _, d, _) => d ≤ 2).map fun (e, _, _, x) => (e, x)

/-- `set_starting_index_to_zero` (_elements.py:35-38), the names 'N4' being given as numbers. -/
def startAtZero (faces : List (List Nat)) : List (List Nat) := faces.map (·.map (· - 1))

/-- `set_inward_normal` (_elements.py:41-48); rows have 3 or 4 entries, IndexError branch unused. -/
def inwardNormal (faces : List (List Nat)) : List (List Nat) :=
  faces.map fun
    | [a, b, c] => [a, c, b]
    | a :: b :: c :: d :: _ => [a, d, c, b]
    | l => l

/-- `group_faces_by_type` (_elements.py:51-57). -/
def groupFacesByType (faces : List (List Nat)) : List (String × List (List Nat)) :=
  [("tri3", faces.filter (·.length = 3)), ("quad4", faces.filter (·.length = 4))]

/-- HEXA_8 corners, CGNS numbering (_elements.py:72-80). -/
def cornersHexa8 : List (List Nat) :=
  [[1, 4, 3, 2], [1, 2, 6, 5], [2, 3, 7, 6], [3, 4, 8, 7], [1, 5, 8, 4], [5, 6, 7, 8]]
/-- HEXA_27 mid-edge nodes (_elements.py:90-98). -/
def midedgeHexa27 : List (List Nat) :=
  [[12, 11, 10, 9], [9, 14, 17, 13], [10, 15, 18, 14], [11, 16, 19, 15], [13, 20, 16, 12],
   [17, 18, 19, 20]]
/-- HEXA_27 mid-face nodes (_elements.py:103-111). -/
def midfaceHexa27 : List (List Nat) := [[21], [22], [23], [24], [25], [26]]
/-- PENTA_6 corners (_elements.py:126-133). -/
def cornersPrism6 : List (List Nat) :=
  [[1, 2, 5, 4], [2, 3, 6, 5], [3, 1, 4, 6], [1, 3, 2], [4, 5, 6]]
/-- TETRA_4 corners (_elements.py:145-151). -/
def cornersTetra4 : List (List Nat) := [[1, 3, 2], [1, 2, 4], [2, 3, 4], [3, 1, 4]]
/-- PYRA_5 corners (_elements.py:163-170). -/
def cornersPyra5 : List (List Nat) := [[1, 4, 3, 2], [1, 2, 5], [2, 3, 5], [3, 4, 5], [4, 1, 5]]

/-- `connectivity_hexa8` (_elements.py:82-83). -/
def connHexa8 : List (List Nat) := inwardNormal (startAtZero cornersHexa8)
/-- `connectivity_hexa27` (_elements.py:100, 113-118): mid-edge rows are not made inward. -/
def connHexa27 : List (List Nat) :=
  List.zipWith (fun a bc => a ++ bc) connHexa8
    (List.zipWith (fun b c => b ++ c) (startAtZero midedgeHexa27) (startAtZero midfaceHexa27))
/-- `connectivity_prism6` (_elements.py:135-136). -/
def connPrism6 : List (List Nat) := inwardNormal (startAtZero cornersPrism6)
/-- `connectivity_tetra4` (_elements.py:153-154). -/
def connTetra4 : List (List Nat) := inwardNormal (startAtZero cornersTetra4)
/-- `connectivity_pyra5` (_elements.py:172-173). -/
def connPyra5 : List (List Nat) := inwardNormal (startAtZero cornersPyra5)

/-- Table type: element type -> face type -> faces as positions in the element's node list. -/
abbrev FaceTable := Dict String (List (String × List (List Nat)))

/-- Edges of a quadrangle (_elements.py:65 and 219). -/
def edgesQuad4 : List (List Nat) := [[0, 1], [1, 2], [2, 3], [3, 0]]
/-- Edges of a triangle (_elements.py:218). -/
def edgesTri3 : List (List Nat) := [[0, 1], [1, 2], [2, 0]]

/-- `cgns_elem2faces` (_elements.py:64-176). -/
def cgnsElem2faces : FaceTable :=
  [("quad4", [("bar2", edgesQuad4)]),
   ("hexa8", groupFacesByType connHexa8),
   ("hexa27", [("quad9", connHexa27)]),
   ("prism6", groupFacesByType connPrism6),
   ("tetra4", groupFacesByType connTetra4),
   ("pyra5", groupFacesByType connPyra5)]

/-- `*_cgns2gmsh` (_elements.py:182-187). -/
def cgns2gmshPerms : Dict String (List Nat) :=
  [("hexa8", [1, 2, 3, 4, 5, 6, 7, 8]),
   ("hexa27", [1, 2, 3, 4, 5, 6, 7, 8, 9, 12, 14, 10, 11, 13, 15, 16, 17, 19, 20, 18, 21, 22, 24,
      25, 23, 26, 27]),
   ("prism6", [1, 2, 3, 4, 5, 6]),
   ("tetra4", [1, 2, 3, 4]),
   ("pyra5", [1, 2, 3, 4, 5])]

/-- `gmsh2cgns` (_elements.py:190-199). -/
def gmsh2cgnsPerms : Dict String (List Nat) :=
  [("tri3", [1, 2, 3]),
   ("quad4", [1, 2, 3, 4]),
   ("quad9", [1, 2, 3, 4, 5, 6, 7, 8, 9]),
   ("tetra4", [1, 2, 3, 4]),
   ("prism6", [1, 2, 3, 4, 5, 6]),
   ("pyra5", [1, 2, 3, 4, 5]),
   ("hexa8", [1, 2, 3, 4, 5, 6, 7, 8]),
   ("hexa27", [1, 2, 3, 4, 5, 6, 7, 8, 9, 12, 13, 10, 14, 11, 15, 16, 17, 20, 18, 19, 21, 22, 25,
      23, 24, 26, 27])]

/-- `cgns2gmsh(element_cgns2gmsh, face_connectivity)` (_elements.py:202-205):
`np.array(perm-1)[face]` for each face; all table indices are in bounds. -/
def cgns2gmsh (perm : List Nat) (faces : List (List Nat)) : List (List Nat) :=
  faces.map (·.map fun i => (perm.map (· - 1)).getD i 0)

/-- The permutation stored for an element type. -/
def cgns2gmshOf (e : String) : List Nat := (cgns2gmshPerms.get? e).getD []

/-- `gmsh_elem2faces` (_elements.py:211-225). -/
def gmshElem2faces : FaceTable :=
  [("tri3", [("bar2", edgesTri3)]),
   ("quad4", [("bar2", edgesQuad4)]),
   ("hexa8", groupFacesByType (cgns2gmsh (cgns2gmshOf "hexa8") connHexa8)),
   ("hexa27", [("quad9", cgns2gmsh (cgns2gmshOf "hexa27") connHexa27)]),
   ("prism6", groupFacesByType (cgns2gmsh (cgns2gmshOf "prism6") connPrism6)),
   ("pyra5", groupFacesByType (cgns2gmsh (cgns2gmshOf "pyra5") connPyra5)),
   ("tetra4", groupFacesByType (cgns2gmsh (cgns2gmshOf "tetra4") connTetra4))]

end Cfd

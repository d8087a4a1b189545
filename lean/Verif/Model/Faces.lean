import Verif.Model.Connectivity

/-!
# Model of `elem_connectivity.create_faces_from_elems` (_connectivity.py:310-409)

The table `_elem.elem2faces` is a module-level variable that readers may replace, hence a parameter.
-/

namespace Cfd

/-- An element face: its node tuple and the index of the element it comes from. -/
abbrev FaceOcc := List Int × Int

/-- Inner loops of `__build_face_and_neighbour` for one element type and one face type
(_connectivity.py:343-347): node order is reversed, `zip` stops at the shorter list. -/
def addFacesOfType (arr : Arr2) (index : List Int) (ftype : String) (efaces : List (List Nat))
    (d : Dict String (List FaceOcc)) : Py (Dict String (List FaceOcc)) :=
  efaces.foldlM (fun d eface => do
    let nodes ← arr.takeCols eface.reverse
    return dictExtend d ftype (nodes.zip index)) d

/-- `__build_face_and_neighbour` (_connectivity.py:312-348). -/
def buildFaces (tbl : FaceTable) (c : ElemConn) : Py (Dict String (List FaceOcc)) :=
  c.tbl.foldlM (fun d p => do
    let index ← p.2.index.toList
    let ft ← tbl.getE p.1
    ft.foldlM (fun d q => addFacesOfType p.2.e2n index q.1 q.2 d) d) []

/-- `face_pairs`: faces grouped by sorted node tuple, in insertion order (_connectivity.py:372-374). -/
def groupFaces (l : List FaceOcc) : Dict (List Int) (List FaceOcc) :=
  l.foldl (fun d o => dictExtend d (sortInts o.1) [o]) []

/-- Result of `create_faces_from_elems`. -/
structure FacesResult where
  internal : ElemConn
  i2c : F2C
  boundary : ElemConn
  b2c : F2C
  deriving DecidableEq, Repr

/-- `flist[0]` for each group (groups are never empty). -/
def firstOcc (g : List (List FaceOcc)) : List FaceOcc := g.filterMap (·[0]?)

/-- `[flist[0][1], flist[1][1]]` for each group (_connectivity.py:396-403). -/
def cellPairs (g : List (List FaceOcc)) : Py (List (Int × Int)) :=
  g.mapM fun fl =>
    match fl with
    | o1 :: o2 :: _ => .ok (o1.2, o2.2)
    | _ => .error .index

/-- Loop body of `__find_duplicates` for one face type (_connectivity.py:366-404). -/
def findDupStep (r : FacesResult) (p : String × List FaceOcc) : Py FacesResult := do
  let pairs := groupFaces p.2
  pyAssert (decide (pairs.length < p.2.length))
  pyAssert (decide (p.2.length ≤ 2 * pairs.length))
  let uniq := (pairs.filter fun q => q.2.length = 1).map (·.2)
  let boundary ← r.boundary.addElems p.1 (Arr2.ofRows ((firstOcc uniq).map (·.1)))
  let b2c := F2C.append r.b2c ((firstOcc uniq).map fun o => (o.2, -1))
  let dup := (pairs.filter fun q => ¬ q.2.length = 1).map (·.2)
  let internal ← r.internal.addElems p.1 (Arr2.ofRows ((firstOcc dup).map (·.1)))
  let cp ← cellPairs dup
  let i2c := F2C.append r.i2c cp
  return ⟨internal, i2c, boundary, b2c⟩

/-- `create_faces_from_elems` (_connectivity.py:310-409). -/
def createFaces (tbl : FaceTable) (c : ElemConn) : Py FacesResult := do
  let fn ← buildFaces tbl c
  fn.foldlM findDupStep ⟨ElemConn.empty, none, ElemConn.empty, none⟩

end Cfd

import Verif.Model.Faces

/-!
# Model of `submeshmark` and `Mesh` (cfdtools/meshbase/_mesh.py)

Simplifications
* a mark always has a dimension, a type and an index (in Python they are set after creation);
  of its property dictionary only `type` and `periodic_transform` are kept;
* coordinates have an arbitrary type `R`; a coordinate array is the list of its values;
* cell, node and face data are in a separate structure (`MeshData` in Model/Data.lean), the methods
  below never touch them; `_params` and `_cellprop` appear with the IC3 writer;
* a method that raises returns the exception alone: marks already modified before the exception are
  not tracked, except for `check` where they matter (C17).
-/

namespace Cfd

/-- `submeshmark._available_geodim` (_mesh.py:16-24). -/
inductive GeoDim where
  | node | intnode | bdnode | face | intface | bdface | cell
  deriving DecidableEq, Repr

/-- `submeshmark` (_mesh.py:14-86). `perio` is `properties['periodic_transform']`
(64-bit patterns of the doubles), `none` when the key is missing or its value is `None`. -/
structure Mark where
  name : String
  geodim : GeoDim
  type : String
  index : IndexList
  perio : Option (List UInt64) := none
  deriving DecidableEq, Repr

/-- `nodebased` (_mesh.py:71-72). -/
def Mark.nodebased (b : Mark) : Bool :=
  b.geodim = .node || b.geodim = .bdnode || b.geodim = .intnode

/-- The test `boco.geodim in ('face', 'bdface')` (_mesh.py:232, 335). -/
def Mark.onFaces (b : Mark) : Bool := b.geodim = .face || b.geodim = .bdface

/-- Value of `Mesh._faces[facetype]` (_mesh.py:166); `f2c = none` is the default `None`. -/
structure FaceSet where
  f2n : ElemConn
  f2c : Option F2C
  deriving DecidableEq, Repr

/-- `Mesh` (_mesh.py:105-118). `coords` are `_nodes['x'], _nodes['y'], _nodes['z']`. -/
structure Mesh (R : Type) where
  ncell : Nat
  nnode : Nat
  nface : Nat
  cell2node : Option ElemConn
  faces : Dict String FaceSet
  coords : Option (List R × List R × List R)
  bocos : Dict String Mark
  deriving DecidableEq, Repr

namespace Mesh
variable {R : Type}

/-- `Mesh(ncell, nnode)` (_mesh.py:105-118). -/
def new (ncell nnode : Nat) : Mesh R := ⟨ncell, nnode, 0, none, [], none, []⟩

/-- `set_nodescoord_xyz` (_mesh.py:132-137). -/
def setCoords (m : Mesh R) (x y z : List R) : Py (Mesh R) := do
  pyAssert (decide (x.length = m.nnode))
  pyAssert (decide (y.length = m.nnode))
  pyAssert (decide (z.length = m.nnode))
  return { m with coords := some (x, y, z) }

/-- `set_nodescoord_nd` (_mesh.py:127-130) for an `(n, 3)` array given by its rows. -/
def setCoordsNd (m : Mesh R) (xyz : List (R × R × R)) : Py (Mesh R) := do
  pyAssert (decide (xyz.length = m.nnode))
  return { m with coords := some (xyz.map (·.1), xyz.map (·.2.1), xyz.map (·.2.2)) }

/-- `set_cell2node` (_mesh.py:143-151): the number of cells follows. -/
def setCell2node (m : Mesh R) (c : ElemConn) : Mesh R :=
  { m with cell2node := some c, ncell := c.nelem }

/-- `__available_facetypes` (_mesh.py:103). -/
def faceKinds : List String := ["mixed", "internal", "boundary"]

/-- `sum of face2node.nelem` (_mesh.py:170). -/
def totalFaces (d : Dict String FaceSet) : Nat := (d.map fun p => p.2.f2n.nelem).sum

/-- `add_faces` (_mesh.py:153-170). -/
def addFaces (m : Mesh R) (kind : String) (f2n : ElemConn) (f2c : Option F2C := none) :
    Py (Mesh R) :=
  if kind ∈ faceKinds then
    let faces := m.faces.set kind ⟨f2n, f2c⟩
    .ok { m with faces := faces, nface := totalFaces faces }
  else .error .runtime

/-- `pop_faces` (_mesh.py:172-177): `nface` is not updated. -/
def popFaces (m : Mesh R) (kind : String) : Mesh R :=
  if kind ∈ faceKinds then { m with faces := m.faces.erase kind } else m

/-- `face2cell.conn`: AttributeError on `None`. -/
def f2cConn : Option F2C → Py F2C
  | none => .error .attribute
  | some c => .ok c

/-- `export_mixedfaces` (_mesh.py:179-193); `np.concatenate` with a missing table raises. -/
def exportMixed (m : Mesh R) : Py (ElemConn × List (Int × Int)) := do
  let b ← m.faces.getE "boundary"
  let i ← m.faces.getE "internal"
  let con ← ElemConn.importMerge ElemConn.empty [b.f2n, i.f2n]
  let cb ← f2cConn b.f2c
  let ci ← f2cConn i.f2c
  match cb, ci with
  | some rb, some ri => .ok (con, rb ++ ri)
  | _, _ => .error .value

/-- `add_boco` (_mesh.py:195-196). -/
def addBoco (m : Mesh R) (b : Mark) : Mesh R := { m with bocos := m.bocos.set b.name b }

/-- `remove_boco` (_mesh.py:198-199). -/
def removeBoco (m : Mesh R) (name : String) : Py (Mesh R) :=
  if name ∈ m.bocos.keys then .ok { m with bocos := m.bocos.erase name } else .error .key

/-- New value of one mark in `bocomarks_set_node_to_face` (_mesh.py:212-221). -/
def markToFace (tuples : List (Int × List Int)) (b : Mark) : Py Mark :=
  if b.nodebased then do
    let nodes ← b.index.toList
    let fl := (tuples.filter fun t => t.2.all fun n => nodes.contains n).map (·.1)
    return { b with geodim := .bdface, index := .list fl }
  else .ok b

/-- `bocomarks_set_node_to_face` (_mesh.py:201-221). -/
def bocosToFaces (m : Mesh R) : Py (Mesh R) :=
  match m.faces.get? "boundary" with
  | none => .error .assertion
  | some fs => do
      let tuples ← fs.f2n.indexElemTuples
      let bocos ← m.bocos.mapM fun p => do
        let b ← markToFace tuples p.2
        return (p.1, b)
      return { m with bocos := bocos }

/-- `list_boco_index` (_mesh.py:223-224). -/
def listBocoIndex (m : Mesh R) : Py (List Int) := do
  let ls ← m.bocos.mapM fun p => p.2.index.toList
  return ls.flatten

/-- `make_unmarked_BC` (_mesh.py:226-245): the returned list and the new mesh.
`so` is the iteration order of the Python set difference. -/
def makeUnmarked (so : List Int → List Int) (m : Mesh R) (name : String := "unmarked_faces") :
    Py (List Int × Mesh R) :=
  match m.faces.get? "boundary" with
  | none => .ok ([], m)
  | some fs => do
      pyAssert (m.bocos.all fun p => p.2.onFaces)
      let marked ← m.listBocoIndex
      let all ← fs.f2n.allIndex
      let missing := so (all.dedup.filter fun i => !marked.contains i)
      if missing.isEmpty then return (missing, m)
      else return (missing, m.addBoco ⟨name, .bdface, "boundary", .list missing, none⟩)

/-- `_check_cell2node` (_mesh.py:395-405). -/
def checkCell2node (m : Mesh R) : Py Unit :=
  match m.cell2node with
  | none => .ok ()
  | some c => pyAssert (decide (m.ncell = c.nelem))

/-- `check` (_mesh.py:418-428) together with the mesh it leaves, also when it raises. -/
def check (so : List Int → List Int) (m : Mesh R) : Py Bool × Mesh R :=
  if m.ncell = 0 then (.error .assertion, m)
  else if m.nnode = 0 then (.error .assertion, m)
  else match m.checkCell2node with
    | .error e => (.error e, m)
    | .ok _ => match m.makeUnmarked so with
      | .error e => (.error e, m)
      | .ok (missing, m') =>
          if missing.isEmpty then (.ok true, m') else (.error .assertion, m')

/-- Renumbering of one mark in `reindex_boundaryfaces` (_mesh.py:361-363). -/
def reindexMark (newindex : List Int) (b : Mark) : Py Mark := do
  let l ← b.index.toList
  let nl ← npGather newindex l
  let ix ← (IndexList.list nl).compress
  return { b with index := ix }

/-- Renumbering of one face type (_mesh.py:365-366). -/
def reindexEntry (newindex : List Int) (e : Entry) : Py Entry := do
  let l ← e.index.toList
  let nl ← npGather newindex l
  return { e with index := .list nl }

/-- `reindex_boundaryfaces` (_mesh.py:328-369). A comparison of arrays of different lengths
(duplicated marks) is a ValueError, see `ElemConn.npAllEq`. -/
def reindexBoundary (m : Mesh R) : Py (Mesh R) :=
  match m.faces.get? "boundary" with
  | none => .error .assertion
  | some fs => do
      pyAssert (m.bocos.all fun p => p.2.onFaces)
      let old ← m.listBocoIndex
      let cUnique ← ElemConn.npAllEq (ElemConn.npUnique old) (sortInts old)
      match old.min?, old.max? with
      | some mn, some mx =>
          if !(cUnique && decide (mn = 0) && decide (mx ≤ (old.length : Int) - 1)) then
            .error .runtime
          else do
            let newindex ← npScatter (List.replicate old.length (-1 : Int))
              (old.zip (pyRange 0 old.length))
            pyAssert (newindex.all fun i => decide (0 ≤ i))
            let bocos ← m.bocos.mapM fun p => do
              let b ← reindexMark newindex p.2
              return (p.1, b)
            let tbl ← fs.f2n.tbl.mapM fun p => do
              let e ← reindexEntry newindex p.2
              return (p.1, e)
            let conn ← f2cConn fs.f2c
            match conn with
            | none => .error .type
            | some rows => do
                let rows' ← npGather rows old
                return { m with bocos := bocos,
                                faces := m.faces.set "boundary" ⟨⟨fs.f2n.nelem, tbl⟩, some (some rows')⟩ }
      | _, _ => .error .value

/-- `make_face_connectivity` (_mesh.py:407-416): with no cell connectivity, `None` has no method
`create_faces_from_elems`. -/
def makeFaces (tbl : FaceTable) (m : Mesh R) : Py (Mesh R) :=
  match m.cell2node with
  | none => .error .attribute
  | some c => do
      let r ← createFaces tbl c
      let m1 := m.popFaces "mixed"
      let m2 ← m1.addFaces "internal" r.internal (some r.i2c)
      m2.addFaces "boundary" r.boundary (some r.b2c)

/-- `morph` (_mesh.py:430-435): `f` is applied to the three whole arrays. KeyError without
coordinates. -/
def morph (m : Mesh R) (f : List R → List R → List R → List R × List R × List R) : Py (Mesh R) :=
  match m.coords with
  | none => .error .key
  | some (x, y, z) =>
      let r := f x y z
      m.setCoords r.1 r.2.1 r.2.2

/-- `scale` (_mesh.py:437-445). -/
def scale [Mul R] (m : Mesh R) (s : R × R × R) : Py (Mesh R) :=
  match m.coords with
  | none => .error .key
  | some (x, y, z) =>
      m.setCoords (x.map (· * s.1)) (y.map (· * s.2.1)) (z.map (· * s.2.2))

/-- A factor of `scale_xyz`: a Python integer, or a float (argparse gives floats, _cli.py:100). -/
inductive Factor where
  | int (k : Int)
  | float
  deriving DecidableEq, Repr

/-- `list * factor`: repetition for an integer (empty if negative), TypeError for a float. -/
def listTimes (l : List R) : Factor → Py (List R)
  | .int k => .ok (List.replicate k.toNat l).flatten
  | .float => .error .type

/-- `scale` (_mesh.py:437-445) when the coordinates are Python lists, as the Gmsh import leaves them
(gmsh/reader.py:163, 170, 254-256, 318-320). -/
def scaleLists (m : Mesh R) (s : Factor × Factor × Factor) : Py (Mesh R) :=
  match m.coords with
  | none => .error .key
  | some (x, y, z) => do
      let x ← listTimes x s.1
      let y ← listTimes y s.2.1
      let z ← listTimes z s.2.2
      m.setCoords x y z

end Mesh
end Cfd

import Verif.Model.Cgns

/-!
# Model of the CGNS reader on the tree of an HDF5 file (cfdtools/cgns/cgns.py)

`Verif.Model.Cgns` models a CGNS file by what the reader finds in it. Here a file is any HDF5 tree: groups and datasets
with their attribute `label`, made by any program; each item may be missing or of another kind.

Simplifications
* the items of a group come in the order in which h5py lists them, with distinct names (as HDF5 requires);
* datasets hold integers (texts are arrays of codes) or reals; an item of another type than the one the code expects is
  refused (in the code, numpy may convert it or fail later);
* counts are not negative; coordinates have one dimension; an element range has two integers; a label is a fixed-length
  text, as the CGNS library writes it (other labels are `none`);
* the version of the library must be there, its value is not used.
-/

namespace Cfd.Cgns

/-- Value of a dataset, in the order of the memory. -/
inductive Data (R : Type) where
  | ints (shape : List Nat) (l : List Int)
  | reals (shape : List Nat) (l : List R)

/-- An HDF5 object: group or dataset, with its attribute `label`. -/
inductive Tree (R : Type) where
  | group (label : Option String) (items : List (String × Tree R))
  | dataset (label : Option String) (data : Data R)

variable {R : Type}

/-- `obj.attrs.get('label')` (cgns.py:24-26). -/
def Tree.label : Tree R → Option String
  | .group l _ => l
  | .dataset l _ => l

/-- `obj.items()`: a dataset has no such method. -/
def Tree.items : Tree R → Py (List (String × Tree R))
  | .group _ l => .ok l
  | .dataset _ _ => .error .attribute

/-- `obj[name]`: KeyError if there is none; a dataset has no member (ValueError). -/
def Tree.get : Tree R → String → Py (Tree R)
  | .group _ l, name => Dict.getE l name
  | .dataset _ _, _ => .error .value

/-- `obj[name]` that must be a dataset. -/
def Tree.array (t : Tree R) (name : String) : Py (Data R) := do
  match ← t.get name with
  | .dataset _ d => return d
  | .group _ _ => .error .type

/-- `obj[name + '/ data']`. -/
def Tree.arrayIn (t : Tree R) (name : String) : Py (Data R) := do
  let n ← t.get name
  n.array " data"

/-- `name in obj.keys()`. -/
def Tree.has : Tree R → String → Bool
  | .group _ l, name => (Dict.get? l name).isSome
  | .dataset _ _, _ => false

/-- `dict_cgnstype(obj, cgtype)` (cgns.py:29-30). -/
def dictCgnstype (t : Tree R) (label : String) : Py (List (String × Tree R)) := do
  let l ← t.items
  return l.filter fun p => decide (p.2.label = some label)

/-- `chr(n)`. -/
def chr (n : Int) : Py Char := if 0 ≤ n ∧ n < 256 then .ok (Char.ofNat n.toNat) else .error .value

/-- `h5_str(obj)` (hdf5/_hdf5.py:21-22). -/
def h5Str : Data R → Py String
  | .ints [_] l => do
      let cs ← l.mapM chr
      return String.ofList cs
  | _ => .error .type

/-- Shape of a dataset. -/
def Data.shape : Data R → List Nat
  | .ints s _ => s
  | .reals s _ => s

/-- `obj[0]` for any dataset, its value being ignored. -/
def Data.indexable (d : Data R) : Py Unit :=
  match d.shape with
  | [] => .error .value
  | 0 :: _ => .error .index
  | _ :: _ => .ok ()

/-- `obj[0]` for integers in one dimension. -/
def Data.first : Data R → Py Int
  | .ints [_] (a :: _) => .ok a
  | .ints [_] [] => .error .index
  | _ => .error .type

/-- `obj[i, 0]` for a count. -/
def Data.count (i : Nat) : Data R → Py Nat
  | .ints [a, b] l =>
      if i < a ∧ 0 < b then
        match l[i * b]? with
        | some n => if 0 ≤ n then .ok n.toNat else .error .value
        | none => .error .index
      else .error .index
  | _ => .error .type

/-- `obj[:]` for coordinates. -/
def Data.column : Data R → Py (List R)
  | .reals [_] l => .ok l
  | _ => .error .type

/-- `obj[:]` for an element range. -/
def Data.pair : Data R → Py (Int × Int)
  | .ints [_] [a, b] => .ok (a, b)
  | _ => .error .type

/-- `obj[:]` for integers of any shape, then `ravel` or `reshape`; a scalar cannot be sliced. -/
def Data.flat : Data R → Py (List Int)
  | .ints (_ :: _) l => .ok l
  | _ => .error .type

/-- `cgnszone._BCs`, `cgnszone._elems` with the zone. -/
structure ZoneTree (R : Type) where
  tree : Tree R
  elems : List (String × Tree R)
  bcs : Dict String (Tree R)

/-- One turn of the loop on groups of conditions (cgns.py:54-57). -/
def addConditions (d : Dict String (Tree R)) (zbc : String × Tree R) : Py (Dict String (Tree R)) := do
  let a ← dictCgnstype zbc.2 "BC_t"
  let b ← dictCgnstype zbc.2 "GridConnectivity_t"
  return (a ++ b).foldl (fun d p => d.set p.1 p.2) d

/-- `cgnszone.__init__` (cgns.py:43-57). Both parts of `_zonebc` have other labels, hence other names. -/
def zoneInit (t : Tree R) : Py (ZoneTree R) := do
  let zonetype ← h5Str (← t.arrayIn "ZoneType")
  pyAssert (zonetype = "Unstructured")
  let elems ← dictCgnstype t "Elements_t"
  let zonebc ← dictCgnstype t "ZoneBC_t"
  let zonegc ← dictCgnstype t "ZoneGridConnectivity_t"
  let bcs ← (zonebc ++ zonegc).foldlM addConditions []
  return ⟨t, elems, bcs⟩

/-- `nnode` (cgns.py:59-60). -/
def ZoneTree.nnode (z : ZoneTree R) : Py Nat := do (← z.tree.array " data").count 0

/-- `ncell` (cgns.py:63-64). -/
def ZoneTree.ncell (z : ZoneTree R) : Py Nat := do (← z.tree.array " data").count 1

/-- `coords` (cgns.py:66-70). -/
def ZoneTree.coords (z : ZoneTree R) : Py (List R × List R × List R) := do
  let x ← (← (← z.tree.get "GridCoordinates").arrayIn "CoordinateX").column
  let y ← (← (← z.tree.get "GridCoordinates").arrayIn "CoordinateY").column
  let z ← (← (← z.tree.get "GridCoordinates").arrayIn "CoordinateZ").column
  return (x, y, z)

/-- One section in `elemcon` (cgns.py:75-83): the range and the nodes are looked up for elements of this dimension. -/
def addSectionTree (geodim : Int) (c : ElemConn) (p : String × Tree R) : Py ElemConn := do
  let cgtype ← (← p.2.array " data").first
  let etype ← eleCgns2local.getE cgtype
  let dim ← dimElem.getE etype
  if (dim : Int) = geodim then do
    let range ← (← p.2.arrayIn "ElementRange").pair
    let conn ← (← p.2.arrayIn "ElementConnectivity").flat
    addSection geodim c (p.1, ⟨cgtype, range.1, range.2, conn⟩)
  else return c

/-- `elemcon` (cgns.py:72-84). -/
def ZoneTree.elemcon (z : ZoneTree R) (geodim : Int) : Py ElemConn :=
  z.elems.foldlM (addSectionTree geodim) ElemConn.empty

/-- `cg_gridlocation` (cgns.py:33-39); conditions have one of the two labels. -/
def gridLocation (bc : Tree R) : Py String :=
  if bc.has "GridLocation" then do h5Str (← bc.arrayIn "GridLocation") else .ok "Vertex"

/-- Where the indices of a condition are (cgns.py:104-114): list, location, and if it is the whole domain. -/
def bcIndexTree (ncell : Nat) (bc : Tree R) : Py (List Int × String × Bool) :=
  if bc.has "PointList" then do
    let l ← (← bc.arrayIn "PointList").flat
    let loc ← gridLocation bc
    return (l.map (· - 1), loc, false)
  else if bc.has "ElementList" then do
    let l ← (← bc.arrayIn "ElementList").flat
    let ind := l.map (· - 1)
    return if ind.length = ncell then (ind, "CellCenter", true) else (ind, "FaceCenter", false)
  else .error .runtime

/-- Name of the mark (cgns.py:95-98). -/
def bcName (p : String × Tree R) : Py String :=
  if p.2.has "FamilyName" then do h5Str (← p.2.arrayIn "FamilyName") else .ok p.1

/-- `export_BC` (cgns.py:94-128). `so` is the iteration order of sets. -/
def ZoneTree.exportBC (so : List Int → List Int) (geodim : Int) (z : ZoneTree R) (p : String × Tree R) : Py Mark := do
  let name ← bcName p
  let _ ← h5Str (← p.2.array " data")
  let ncell ← z.ncell
  let r ← bcIndexTree ncell p.2
  let type := fun (b : Bool) => if b then "internal" else "boundary"
  if r.2.1 = "FaceCenter" then do
    let facecon ← z.elemcon (geodim - 1)
    let nodes ← facecon.nodesOfIndexlist so r.1
    return ⟨name, .node, type r.2.2, .list nodes, none⟩
  else if r.2.1 = "Vertex" then do
    let nnode ← z.nnode
    return ⟨name, .node, type (r.2.2 || r.1.length = nnode), .list r.1, none⟩
  else if r.2.1 = "CellCenter" then
    return ⟨name, .cell, type r.2.2, .list r.1, none⟩
  else .error .runtime

/-- One turn of the loop on boundary conditions in `export_mesh` (cgns.py:201-208). -/
def ZoneTree.addBC (so : List Int → List Int) (geodim : Int) (z : ZoneTree R) (m : Mesh R) (p : String × Tree R) :
    Py (Mesh R) := do
  let boco ← z.exportBC so geodim p
  if boco.type = "internal" then return m
  else do
    shown boco
    return m.addBoco boco

/-- `export_mesh` (cgns.py:189-211). -/
def ZoneTree.exportMesh (so : List Int → List Int) (geodim : Int) (z : ZoneTree R) : Py (Mesh R) := do
  let ncell ← z.ncell
  let nnode ← z.nnode
  let xyz ← z.coords
  let m ← (Mesh.new ncell nnode : Mesh R).setCoords xyz.1 xyz.2.1 xyz.2.2
  let c ← z.elemcon geodim
  z.bcs.foldlM (z.addBC so geodim) (m.setCell2node c)

/-- `self._bases[0]` (cgns.py:168). -/
def firstBase : List (String × Tree R) → Py (Tree R)
  | b :: _ => .ok b.2
  | [] => .error .index

/-- The zone to read (cgns.py:169-175). -/
def pickZone : Option String → List (String × Tree R) → Py (Tree R)
  | none, [p] => .ok p.2
  | none, _ => .error .assertion
  | some n, zones => Dict.getE zones n

/-- `cgnsfile.open` then `read_data` (cgns.py:136-138, 157-177): the zones of the last base, the dimension of the first
one. -/
def readTree (root : Tree R) (zone : Option String) : Py (Int × ZoneTree R) := do
  (← root.arrayIn "CGNSLibraryVersion").indexable
  let bases ← dictCgnstype root "CGNSBase_t"
  let zones ← bases.foldlM (fun _ b => dictCgnstype b.2 "Zone_t") []
  let first ← firstBase bases
  let dim ← (← first.array " data").first
  let t ← pickZone zone zones
  let z ← zoneInit t
  let _ ← z.ncell
  return (dim, z)

/-- Reading a CGNS file and exporting the mesh: `cgnsMesh(filename)`, `read_data`, `export_mesh`. -/
def readCgns (so : List Int → List Int) (root : Tree R) (zone : Option String) : Py (Mesh R) := do
  let r ← readTree root zone
  r.2.exportMesh so r.1

end Cfd.Cgns

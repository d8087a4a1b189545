import Verif.Model.Mesh

/-!
# Model of the CGNS reader (cfdtools/cgns/cgns.py)

The HDF5 tree is given by what the reader looks up in it: sections, boundary conditions and zones, in the order in which
h5py lists them. The lookups by label themselves are in `Model/CgnsTree`. Not modelled: the library version, `BCtype`
(stored in the properties of the marks only).
-/

namespace Cfd.Cgns

/-- An `Elements_t` node: type, `ElementRange`, `ElementConnectivity`. -/
structure Section where
  cgtype : Int
  first : Int
  last : Int
  conn : List Int
  deriving DecidableEq, Repr

/-- A `BC_t` or `GridConnectivity_t` node: `FamilyName`, `GridLocation`, `PointList`, `ElementList` when present. -/
structure Bc where
  family : Option String
  location : Option String
  points : Option (List Int)
  elems : Option (List Int)
  deriving DecidableEq, Repr

/-- A `Zone_t` node. `bcs` lists the boundary conditions in the order of cgns.py:50-57. -/
structure Zone (R : Type) where
  unstructured : Bool
  nnode : Nat
  ncell : Nat
  x : List R
  y : List R
  z : List R
  sections : List (String × Section)
  bcs : List (String × Bc)
  deriving DecidableEq, Repr

/-- A `CGNSBase_t` node: cell dimension and zones. -/
structure Base (R : Type) where
  dim : Int
  zones : Dict String (Zone R)
  deriving DecidableEq, Repr

/-- `ele_cgns2local` (cgns.py:20). -/
def eleCgns2local : Dict Int String := [(2, "node1"), (3, "bar2"), (5, "tri3"), (7, "quad4"), (17, "hexa8")]

/-- `.reshape((-1, n))`: ValueError when the size is not a multiple. -/
def reshape (n : Nat) (l : List Int) : Py Arr2 :=
  if l.length % n = 0 then .ok ⟨some n, (List.range (l.length / n)).map fun k => (l.drop (k * n)).take n⟩ else .error .value

/-- One section in `elemcon` (cgns.py:75-83). -/
def addSection (geodim : Int) (c : ElemConn) (p : String × Section) : Py ElemConn := do
  let etype ← eleCgns2local.getE p.2.cgtype
  let nnode ← nnodeElem.getE etype
  let dim ← dimElem.getE etype
  if (dim : Int) = geodim then do
    let econ ← reshape nnode p.2.conn
    c.addElems etype ⟨econ.ncol, econ.rows.map (·.map (· - 1))⟩ (some (.range (p.2.first - 1) (p.2.last - 1)))
  else return c

variable {R : Type}

/-- `elemcon` (cgns.py:72-84). -/
def elemcon (z : Zone R) (geodim : Int) : Py ElemConn := z.sections.foldlM (addSection geodim) ElemConn.empty

/-- Where the indices of a boundary condition are (cgns.py:104-114): list, location, and if it is the whole domain. -/
def bcIndex (z : Zone R) (b : Bc) : Py (List Int × String × Bool) :=
  match b.points, b.elems with
  | some l, _ => .ok (l.map (· - 1), b.location.getD "Vertex", false)
  | none, some l =>
      let ind := l.map (· - 1)
      if ind.length = z.ncell then .ok (ind, "CellCenter", true) else .ok (ind, "FaceCenter", false)
  | none, none => .error .runtime

/-- `export_BC` (cgns.py:94-128). `so` is the iteration order of sets. -/
def exportBC (so : List Int → List Int) (geodim : Int) (z : Zone R) (p : String × Bc) : Py Mark := do
  let name := p.2.family.getD p.1
  let r ← bcIndex z p.2
  let type := fun (b : Bool) => if b then "internal" else "boundary"
  if r.2.1 = "FaceCenter" then do
    let facecon ← elemcon z (geodim - 1)
    let nodes ← facecon.nodesOfIndexlist so r.1
    return ⟨name, .node, type r.2.2, .list nodes, none⟩
  else if r.2.1 = "Vertex" then
    return ⟨name, .node, type (r.2.2 || r.1.length = z.nnode), .list r.1, none⟩
  else if r.2.1 = "CellCenter" then
    return ⟨name, .cell, type r.2.2, .list r.1, none⟩
  else .error .runtime

/-- The dictionary `_BCs` (cgns.py:53-57): a name met again replaces the first. -/
def bcDict (z : Zone R) : Dict String Bc := z.bcs.foldl (fun d p => d.set p.1 p.2) []

/-- `f"{boco}"` in the message (cgns.py:207, _mesh.py:84-85, _connectivity.py:104-109): the smallest index of an empty list
is asked for (ValueError). Marks made by `export_BC` have lists. -/
def shown (b : Mark) : Py Unit := match b.index with | .list [] => .error .value | _ => .ok ()

/-- One turn of the loop on boundary conditions in `export_mesh` (cgns.py:201-208). -/
def addBC (so : List Int → List Int) (geodim : Int) (z : Zone R) (m : Mesh R) (p : String × Bc) : Py (Mesh R) := do
  let boco ← exportBC so geodim z p
  if boco.type = "internal" then return m
  else do
    shown boco
    return m.addBoco boco

/-- `export_mesh` (cgns.py:189-211). -/
def exportMesh (so : List Int → List Int) (geodim : Int) (z : Zone R) : Py (Mesh R) := do
  let m ← (Mesh.new z.ncell z.nnode : Mesh R).setCoords z.x z.y z.z
  let c ← elemcon z geodim
  (bcDict z).foldlM (addBC so geodim z) (m.setCell2node c)

/-- `read_data` (cgns.py:157-177): the zones of the last base, the dimension of the first one. -/
def readData (bases : List (Base R)) (zone : Option String) : Py (Int × Zone R) := do
  let zones ← match bases.getLast? with
    | some b => .ok b.zones
    -- `self._zones` does not exist, but `self._bases[0]` fails first
    | none => .error PyErr.index
  let first ← match bases with | b :: _ => .ok b | [] => .error PyErr.index
  let z ← match zone, zones with
    | none, [p] => .ok p.2
    | none, _ => .error PyErr.assertion
    | some n, _ => zones.getE n
  -- `cgnszone.__init__` (cgns.py:43-47)
  pyAssert z.unstructured
  return (first.dim, z)

end Cfd.Cgns

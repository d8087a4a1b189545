import Verif.Model.Data
import Verif.Model.Connectivity

/-!
# Model of the VTK interface (cfdtools/vtk/_vtk.py, _vtkList.py)

A pyvista `UnstructuredGrid` is represented by its typed cells and its points; `cells`, `offset` and
`celltypes` are the arrays VTK shows for them.

Simplifications
* coordinates, centers and values have arbitrary types; arithmetic is exact;
* the order of `set(...)`, `np.argsort` (not stable) and the k-d tree search are parameters: the properties
  only assume their documented results;
* cells of more than 254 points (`size` is a `uint8` and `1 + size` may overflow) are not modelled;
* logging and timers are omitted.
-/

namespace Cfd.Vtk

/-- `pv.UnstructuredGrid`: cells as (VTK type, point numbers). -/
structure Grid (P : Type) where
  items : List (Int × List Int)
  points : List P
  deriving DecidableEq, Repr

variable {P : Type}

/-- `mesh.cells`: each cell as its size followed by its points. -/
def Grid.cells (g : Grid P) : List Int := g.items.flatMap fun c => (c.2.length : Int) :: c.2

/-- `mesh.celltypes`. -/
def Grid.celltypes (g : Grid P) : List Int := g.items.map (·.1)

/-- `mesh.offset`: positions of the cells in the list of all their points. -/
def Grid.offset (g : Grid P) : List Int := ElemConn.offsets 0 (g.items.map fun c => (c.2.length : Int))

/-- The cells of an array `[size, points ..., size, points ...]`; anything else is refused. -/
def parseCells : List Int → Py (List (List Int))
  | [] => .ok []
  | n :: t =>
      if n < 0 ∨ t.length < n.toNat then .error .value
      else do
        let r ← parseCells (t.drop n.toNat)
        return t.take n.toNat :: r
  termination_by l => l.length
  decreasing_by simp only [List.length_drop, List.length_cons]; omega

/-- `pv.UnstructuredGrid(cells, celltypes, points)`. -/
def Grid.ofLegacy (cells types : List Int) (points : List P) : Py (Grid P) := do
  let r ← parseCells cells
  if r.length = types.length then return ⟨types.zip r, points⟩ else .error .value

/-- `a[lo:hi] = v` (numpy: same length, or a single value repeated). -/
def setSlice {α : Type} (a : List α) (lo hi : Int) (v : List α) : Py (List α) :=
  let b := sliceBounds a.length (some lo) (some hi)
  let n := b.2 - b.1
  match v with
  | [x] => .ok (a.take b.1 ++ List.replicate n x ++ a.drop (b.1 + n))
  | v => if v.length = n then .ok (a.take b.1 ++ v ++ a.drop (b.1 + n)) else .error .value

/-- `list(set(l))`: the distinct values, in an order that depends on the hash table. -/
def setList (so : List Int → List Int) (l : List Int) : List Int := so l.dedup

/-- The loop filling `vtk_cells` (_vtk.py:221-226): array, position in it, position in `new_vtex`. -/
def fillStep (vtex : List Int) (s : List Int × Int × Int) (size : Int) : Py (List Int × Int × Int) := do
  let a ← npSet s.1 s.2.1 size
  let a ← setSlice a (s.2.1 + 1) (s.2.1 + 1 + size) (pySlice vtex (some s.2.2) (some (s.2.2 + size)))
  return (a, s.2.1 + size + 1, s.2.2 + size)

/-- `{old: new for new, old in enumerate(used_point_ids)}` (_vtk.py:217). -/
def pointIdMap (used : List Int) : Dict Int Int :=
  used.zipIdx.foldl (fun (d : Dict Int Int) p => d.set p.1 (p.2 : Int)) []

/-- `orig_cells[offsets[cid]+cid+1:offsets[cid+1]+cid+1]` (_vtk.py:213). -/
def cellPoints (g : Grid P) (cid : Int) : Py (List Int) := do
  let a ← npGet g.offset cid
  let b ← npGet g.offset (cid + 1)
  return pySlice g.cells (some (a + cid + 1)) (some (b + cid + 1))

/-- `orig_cells[offsets[cid]+cid]` stored as `uint8` (_vtk.py:214). -/
def cellSize (g : Grid P) (cid : Int) : Py Int := do
  let a ← npGet g.offset cid
  let n ← npGet g.cells (a + cid)
  return n % 256

/-- `vtk_extract_cells` (_vtk.py:198-233). `junk` is the content of `np.empty`. -/
def extractCells (so : List Int → List Int) (junk : Nat → Int) (g : Grid P) (ids : List Int) : Py (Grid P) := do
  let types ← ids.mapM (npGet g.celltypes)
  let parts ← ids.mapM (cellPoints g)
  -- `np.concatenate` of nothing
  if parts = [] then .error .value else do
  let vtex := parts.flatten
  let sizes ← ids.mapM (cellSize g)
  let used := setList so vtex
  let newVtex ← vtex.mapM (pointIdMap used).getE
  let empty := (List.range (newVtex.length + types.length)).map junk
  let r ← sizes.foldlM (fillStep newVtex) (empty, 0, 0)
  let pts ← npGather g.points used
  Grid.ofLegacy r.1 (types.map (· % 256)) pts

/-! ## Conversions between meshes and grids -/

/-- `vtktype_ele` (_vtk.py:23-31) with the values of `pyvista.CellType`. -/
def vtktypeEle : Dict String Int :=
  [("bar2", 3), ("tri3", 5), ("quad4", 9), ("tetra4", 10), ("pyra5", 14), ("prism6", 13), ("hexa8", 12)]

/-- `ele_vtktype` (_vtk.py:32). -/
def eleVtktype : Dict Int String := vtktypeEle.map fun p => (p.2, p.1)

/-- Number of points of the cells of these types (pyvista `enum_cell_type_nr_points_map`). -/
def vtkSize : Dict Int Nat := [(3, 2), (5, 3), (9, 4), (10, 4), (14, 5), (13, 6), (12, 8)]

/-- `pv.UnstructuredGrid(celldict, points)`: the cells type by type; tables of a wrong width and point numbers
out of range are refused. -/
def Grid.ofDict (d : Dict Int Arr2) (points : List P) : Py (Grid P) := do
  let parts ← d.mapM fun p => do
    let n ← match vtkSize.get? p.1 with | some n => .ok n | none => .error PyErr.value
    if p.2.rows.all fun r => r.length = n ∧ r.all fun q => 0 ≤ q ∧ q < points.length then
      return p.2.rows.map fun r => (p.1, r)
    else .error .value
  return ⟨parts.flatten, points⟩

/-- `nodescoord(ndarray=True)` (_mesh.py:139-141): `np.column_stack` needs equal lengths. -/
def nodesNd {R : Type} (m : Mesh R) : Py (List (R × R × R)) :=
  match m.coords with
  | none => .error .key
  | some (x, y, z) =>
      if x.length = y.length ∧ x.length = z.length then .ok (x.zip (y.zip z)) else .error .value

/-- `vtkMesh.set_mesh` (_vtk.py:71-78). -/
def setMesh {R : Type} (m : Mesh R) : Py (Grid (R × R × R)) := do
  let coords ← nodesNd m
  match m.cell2node with
  | none => .error .attribute
  | some c => do
      let d ← c.tbl.foldlM (fun (d : Dict Int Arr2) p => do
        let t ← vtktypeEle.getE p.1
        return d.set t p.2.e2n) []
      Grid.ofDict d coords

/-- `np.unique` of the cell types. -/
def uniqueTypes (g : Grid P) : List Int := ElemConn.npUnique g.celltypes

/-- `grid.cells_dict` (pyvista): for each type in increasing order, the points of its cells. -/
def cellsDict (g : Grid P) : Dict Int Arr2 :=
  (uniqueTypes g).map fun t => (t, Arr2.ofRows ((g.items.filter fun c => c.1 = t).map (·.2)))

/-- `vtkMesh.export_mesh` (_vtk.py:92-104). -/
def exportMesh {R : Type} (g : Grid (R × R × R)) : Py (Mesh R) := do
  let c ← (cellsDict g).foldlM (fun (c : ElemConn) p => do
    let t ← eleVtktype.getE p.1
    c.addElems t p.2 none) ElemConn.empty
  let m := (Mesh.new g.items.length g.points.length : Mesh R)
  (m.setCell2node c).setCoordsNd g.points

/-- What `dumphdf` writes in the HDF5 file (_vtk.py:176-196, hdf5/_hdf5.py:72-78): `/mesh/nodes` and
`/mesh/cells/<type>`. -/
structure H5Mesh (P : Type) where
  nodes : List P
  cells : Dict String Arr2
  deriving DecidableEq, Repr

def dumpMesh (g : Grid P) : Py (H5Mesh P) := do
  let d ← (cellsDict g).foldlM (fun (d : Dict String Arr2) p => do
    let t ← eleVtktype.getE p.1
    return d.set t p.2) []
  return ⟨g.points, d⟩

/-- `importhdfgroup` (_vtk.py:139-143): h5py lists the members of a group by name; `order` sorts them. -/
def importMesh (order : Dict String Arr2 → Dict String Arr2) (x : H5Mesh P) : Py (Grid P) := do
  let d ← (order x.cells).foldlM (fun (d : Dict Int Arr2) p => do
    let t ← vtktypeEle.getE p.1
    return d.set t p.2) []
  Grid.ofDict d x.nodes

/-! ## Series of files -/

/-- A file of a series: cell centers, cell data, time. -/
structure File (P V T : Type) where
  centers : List P
  data : Dict String (List V)
  time : Option T
  deriving DecidableEq, Repr

section Series
variable {K V T : Type} [LinearOrder K]

/-- `maths.distance(a, b)` (utils/maths.py:8-10): numpy repeats a single row, refuses other lengths. -/
def distances (dist : P → P → K) (a b : List P) : Py (List K) :=
  match a, b with
  | [x], b => .ok (b.map (dist x))
  | a, [y] => .ok (a.map fun x => dist x y)
  | a, b => if a.length = b.length then .ok (a.zipWith dist b) else .error .value

/-- `np.max`. -/
def npMax (l : List K) : Py K :=
  match l.max? with
  | none => .error .value
  | some m => .ok m

/-- `check_order` (_vtkList.py:36-53) with the positions of each file. -/
def checkOrder (dist : P → P → K) (tol : K) (files : List (List P)) : Py Bool :=
  match files with
  | [] => .error .assertion
  | ref :: _ => do
      let ds ← files.mapM fun f => do npMax (← distances dist ref f)
      return (ds.filter fun d => tol < d).length = 0

/-- The data of one file in the order of the cells of the first one (_vtkList.py:84-110); `nn` is the search
in the k-d tree of `ref`. -/
def readFile (dist : P → P → K) (nn : P → Nat) (tol : K) (ref : List P) (filter : List String) (f : File P V T) :
    Py (Dict String (List V)) := do
  let names := if filter = [] then f.data.keys else filter
  let d ← npMax (← distances dist ref f.centers)
  if tol < d then do
    let index := f.centers.map fun p => (nn p : Int)
    let rindex ← npScatter index (index.zip (pyRange 0 index.length))
    let near ← f.centers.mapM fun p => do return dist (← npGet ref (nn p : Int)) p
    let dmax ← npMax near
    if tol < dmax then .error .value else
    names.foldlM (fun (r : Dict String (List V)) n => do
      let v ← f.data.getE n
      return r.set n (← npGather v rindex)) []
  else
    names.foldlM (fun (r : Dict String (List V)) n => do return r.set n (← f.data.getE n)) []

/-- `vtkList.read` (_vtkList.py:55-117); the argument `reorder` is not used by the code. -/
def readSeries [Zero T] [DecidableEq T] (dist : P → P → K) (nn : List P → P → Nat) (tol : K) (filter : List String)
    (files : List (File P V T)) : Py (DataSetList (List V) T) :=
  match files with
  | [] => .error .assertion
  | f0 :: _ => do
      let a ← DataAttrs.init .dataSetList "cellaverage" 1 "instant"
      files.foldlM (fun (s : DataSetList (List V) T) f => do
        let l ← readFile dist (nn f0.centers) tol f0.centers filter f
        return s.addDatalist l f.time) ⟨a, []⟩

end Series

/-! ## Averages over planes -/

/-- Numerical functions of numpy used by `vtk_zconvolution`. -/
structure ZNum (P K V : Type) where
  argsort : List K → List Nat
  avg : List K → K
  std : List K → K
  /-- largest component of the standard deviation of positions -/
  posStd : List P → K
  /-- reductions of the values of a variable over the planes -/
  vavg : List V → V
  vstd : List V → V
  vmode : Nat → List V → V
  vphase : Nat → List V → V

/-- Values of options. -/
inductive OptVal where
  | bool (b : Bool)
  | int (n : Int)
  deriving DecidableEq, Repr

/-- Python truth value. -/
def OptVal.truth : OptVal → Bool
  | .bool b => b
  | .int n => n ≠ 0

/-- Integer value (`True` is 1). -/
def OptVal.toInt : OptVal → Int
  | .bool b => if b then 1 else 0
  | .int n => n

/-- An item of the list given for a variable in `select`. -/
inductive SelItem where
  | word (s : String)
  | opts (d : Dict String OptVal)
  deriving DecidableEq, Repr

/-- `current_options` (_vtk.py:253). -/
def defaultOptions (rms phase snapshot : Bool) (nmode : Int) : Dict String OptVal :=
  [("avg", .bool true), ("rms", .bool rms), ("phase", .bool phase), ("nmode", .int nmode), ("snapshot", .bool snapshot)]

/-- One item (_vtk.py:266-273). -/
def applyItem (d : Dict String OptVal) : SelItem → Dict String OptVal
  | .word s => if s = "no_avg" then d.set "avg" (.bool false) else d.set s (.bool true)
  | .opts o => o.foldl (fun d p => d.set p.1 p.2) d

/-- The directives (_vtk.py:253-277); a single string is a list of one item. -/
def directives (names : List String) (glob : Dict String OptVal) (select : Option (Dict String (List SelItem))) :
    Py (Dict String (Dict String OptVal)) :=
  match select with
  | none => .ok (names.foldl (fun (d : Dict String (Dict String OptVal)) n => d.set n glob) [])
  | some sel => sel.foldlM (fun (d : Dict String (Dict String OptVal)) p =>
      if p.1 ∈ names then .ok (d.set p.1 (p.2.foldl applyItem glob)) else .error .value) []

section Planes
variable {K V : Type} [LinearOrder K] [Sub K]

/-- `np.split(l, idx)` for increasing positions: `l[start:i]` for each `i`, then the rest. -/
def npSplit {α : Type} (l : List α) (start : Nat) : List Nat → List (List α)
  | [] => [l.drop start]
  | i :: t => (l.take i).drop start :: npSplit l i t

/-- `np.where(np.abs(np.diff(z)) > tol)[0] + 1` (_vtk.py:291), from position `k`. -/
def jumps (absK : K → K) (tol : K) (k : Nat) : List K → List Nat
  | a :: b :: t => if tol < absK (b - a) then (k + 1) :: jumps absK tol (k + 1) (b :: t) else jumps absK tol (k + 1) (b :: t)
  | _ => []

/-- Cells grouped by plane (_vtk.py:290-311). -/
def planes (N : ZNum P K V) (absK : K → K) (tol : K) (z : List K) : Py (List (List Nat)) := do
  let isort := N.argsort z
  let zs ← npGather z (isort.map fun (i : Nat) => (i : Int))
  let ichunk := jumps absK tol 0 zs
  if ichunk.length + 1 ≤ 1 then .error .value else do
  let chunks := npSplit isort 0 ichunk
  let lens := chunks.map List.length
  if lens.any fun n => n ≠ lens.headD 0 then .error .value else do
  let zavg ← chunks.mapM fun c => do return N.avg (← npGather z (c.map fun (i : Nat) => (i : Int)))
  let zdiff := (zavg.drop 1).zipWith (fun a b => a - b) zavg
  if tol < N.std zdiff then .error .value else
  return chunks

/-- One row of `ikplanes` (_vtk.py:317-327): the cells of a plane in the order of the first plane. -/
def planeRow (dist : P → P → K) (nn : P → Nat) (tol : K) (xy : List P) (first chunk : List Nat) : Py (List Nat) := do
  let pos ← npGather xy (chunk.map fun (i : Nat) => (i : Int))
  let index := pos.map fun p => (nn p : Int)
  let ref ← npGather xy (first.map fun (i : Nat) => (i : Int))
  let near ← pos.mapM fun p => do return dist (← npGet ref (nn p : Int)) p
  let dmax ← npMax near
  if tol < dmax then .error .value else
  npScatter (List.replicate first.length 0) (index.zip chunk)

/-- `ikplanes` (_vtk.py:315-327) and the check on it (_vtk.py:330-333). -/
def locate (N : ZNum P K V) (dist : P → P → K) (nn : List P → P → Nat) (tol : K) (xy : List P) (chunks : List (List Nat)) :
    Py (List (List Nat)) :=
  match chunks with
  | [] => .error .index
  | first :: rest => do
      let ref ← npGather xy (first.map fun (i : Nat) => (i : Int))
      let rows ← rest.mapM (planeRow dist (nn ref) tol xy first)
      let all := first :: rows
      let cols ← (List.range first.length).mapM fun (j : Nat) => all.mapM fun r => npGet r (j : Int)
      let pos ← cols.mapM fun c => npGather xy (c.map fun (i : Nat) => (i : Int))
      if pos.any fun c => tol < N.posStd c then .error .value else
      return all

/-- Values of a variable: for each cell of the first plane, its values in all planes. -/
def columns (v : List V) (ik : List (List Nat)) (size : Nat) : Py (List (List V)) :=
  (List.range size).mapM fun (j : Nat) => ik.mapM fun (r : List Nat) => do
    let i ← npGet r (j : Int)
    npGet v (i : Int)

/-- The arrays of one variable (_vtk.py:339-353), in the order they are created; `fft` has as many rows as
planes. -/
def reduceVar (N : ZNum P K V) (nplane : Nat) (name : String) (o : Dict String OptVal) (cols : List (List V)) :
    Py (List (String × List V)) := do
  let nmode := (← o.getE "nmode").toInt
  let snap := if (← o.getE "snapshot").truth then [(name, cols.filterMap List.head?)] else []
  let avg := if (← o.getE "avg").truth then [(name ++ "_avg", cols.map N.vavg)] else []
  let phase := (← o.getE "phase").truth
  if 0 < nmode ∧ (nplane : Int) ≤ nmode then .error .index else do
  let modes := (List.range nmode.toNat).flatMap fun k =>
    (name ++ "_k" ++ toString (k + 1), cols.map (N.vmode (k + 1))) ::
      if phase then [(name ++ "_k" ++ toString (k + 1) ++ "_phase", cols.map (N.vphase (k + 1)))] else []
  let rms := if (← o.getE "rms").truth then [(name ++ "_rms", cols.map N.vstd)] else []
  return snap ++ avg ++ modes ++ rms

/-- The arrays of all variables (_vtk.py:339-353). -/
def zoutputs (N : ZNum P K V) (data : Dict String (List V)) (nplane size : Nat) (ik : List (List Nat))
    (dirs : Dict String (Dict String OptVal)) : Py (Dict String (List V)) :=
  dirs.foldlM (fun (out : Dict String (List V)) p => do
    let v ← data.getE p.1
    let cols ← columns v ik size
    let arrays ← reduceVar N nplane p.1 p.2 cols
    return arrays.foldl (fun (out : Dict String (List V)) q => out.set q.1 q.2) out) []

/-- `vtk_zconvolution` (_vtk.py:235-354): the slice of the mesh and its data. `xy` and `z` are the results of
`splitcoords` on the cell centers. -/
def zconvolution (N : ZNum P K V) (absK : K → K) (dist : P → P → K) (nn : List P → P → Nat) (tol : K)
    (so : List Int → List Int) (junk : Nat → Int) {Q : Type} (g : Grid Q) (data : Dict String (List V))
    (glob : Dict String OptVal) (select : Option (Dict String (List SelItem))) (xy : List P) (z : List K) :
    Py (Grid Q × Dict String (List V)) := do
  let dirs ← directives data.keys glob select
  let chunks ← planes N absK tol z
  let ik ← locate N dist nn tol xy chunks
  let first := chunks.headD []
  let grid ← extractCells so junk g (first.map fun (i : Nat) => (i : Int))
  let out ← zoutputs N data chunks.length first.length ik dirs
  return (grid, out)

end Planes
end Cfd.Vtk

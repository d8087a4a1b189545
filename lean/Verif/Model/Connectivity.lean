import Verif.Model.IndexList
import Verif.Model.Elements

/-!
# Model of `compressed_listofindex`, `indexindirection`, `elem_connectivity`
(cfdtools/meshbase/_connectivity.py:112-440)

Simplifications
* numpy integer arrays hold unbounded integers (no int64 overflow);
* Python aliasing (two attributes holding the same mutable `indexlist`) is not modelled;
* the iteration order of a Python `set` is a parameter `so` (any reordering function).
-/

namespace Cfd

/-- A numpy integer array used as element-to-node table. `ncol = some k`: shape `(n, k)`;
`ncol = none`: the one-dimensional empty array made by `np.array([])`. -/
structure Arr2 where
  ncol : Option Nat
  rows : List (List Int)
  deriving DecidableEq, Repr

namespace Arr2

/-- Every row has the announced width, and the 1-D array is empty. -/
def WF (a : Arr2) : Prop :=
  match a.ncol with
  | some k => ∀ r ∈ a.rows, r.length = k
  | none => a.rows = []

/-- `np.array(rows)` of a list of equally long lists: empty lists give shape `(0,)`. -/
def ofRows (rows : List (List Int)) : Arr2 :=
  match rows with
  | [] => ⟨none, []⟩
  | r :: t => ⟨some r.length, r :: t⟩

/-- `np.concatenate((a, b), axis=0)`: dimensions and row widths must agree. -/
def concat (a b : Arr2) : Py Arr2 :=
  if a.ncol = b.ncol then .ok ⟨a.ncol, a.rows ++ b.rows⟩ else .error .value

/-- `a[:, cols].tolist()`. -/
def takeCols (a : Arr2) (cols : List Nat) : Py (List (List Int)) :=
  match a.ncol with
  | none => .error .index
  | some k =>
      if cols.all (· < k) then .ok (a.rows.map fun r => cols.map fun c => r.getD c 0)
      else .error .index

end Arr2

/-- `compressed_listofindex` (_connectivity.py:148-166). -/
structure Csr where
  index : List Int
  value : List Int
  deriving DecidableEq, Repr

/-- `compressed_listofindex.check` (_connectivity.py:168-171). -/
def Csr.check (z : Csr) : Py Bool := do
  let h ← npGet z.index 0
  pyAssert (decide (h = 0))
  match z.index.max? with
  | none => .error .value
  | some m =>
    pyAssert (decide (m = (z.value.length : Int)))
    return true

/-- `indexindirection` (_connectivity.py:112-145): `none` is the initial `_conn = None`;
rows of the two-column table are pairs. -/
abbrev F2C := Option (List (Int × Int))

/-- `indexindirection.append` (_connectivity.py:140-145). -/
def F2C.append (c : F2C) (rows : List (Int × Int)) : F2C :=
  match c with
  | none => some rows
  | some r => some (r ++ rows)

/-- One entry of `elem_connectivity._elem2node` (_connectivity.py:177, 189). -/
structure Entry where
  index : IndexList
  e2n : Arr2
  deriving DecidableEq, Repr

/-- `elem_connectivity` (_connectivity.py:174-177). -/
structure ElemConn where
  nelem : Nat
  tbl : Dict String Entry
  deriving DecidableEq, Repr

namespace ElemConn

/-- `elem_connectivity()` (_connectivity.py:175-177). -/
def empty : ElemConn := ⟨0, []⟩

/-- Index given to `dim` new rows (_connectivity.py:181): continues the numbering when none is given
(`none` is Python's `None`). -/
def newIndex (c : ElemConn) (dim : Nat) : Option IndexList → IndexList
  | none => .range c.nelem ((c.nelem : Int) + dim - 1)
  | some i => i

/-- `add_elems(etype, elem2node, index=None)` (_connectivity.py:179-189). -/
def addElems (c : ElemConn) (etype : String) (e2n : Arr2) (index : Option IndexList := none) :
    Py ElemConn :=
  let dim := e2n.rows.length
  let ind := c.newIndex dim index
  match c.tbl.get? etype with
  | some old => do
      let il ← ind.toList
      let newIdx ← old.index.append il
      let newArr ← old.e2n.concat e2n
      return ⟨c.nelem + dim, c.tbl.set etype ⟨newIdx, newArr⟩⟩
  | none => .ok ⟨c.nelem + dim, c.tbl.set etype ⟨ind, e2n⟩⟩

/-- The list of `index.list()` of all entries, in dictionary order. -/
def indexLists (c : ElemConn) : Py (List (List Int)) := c.tbl.mapM fun p => p.2.index.toList

/-- `np.unique`: sorted without duplicates. -/
def npUnique (l : List Int) : List Int := (sortInts l).dedup

/-- `np.all(u == l)` for two 1-D integer arrays, with numpy broadcasting: shapes must be equal or one
of them has one element; otherwise the comparison does not produce an all-true result
(False with a deprecation warning or ValueError according to the numpy version; ValueError here). -/
def npAllEq (u l : List Int) : Py Bool :=
  if u.length = l.length then .ok (decide (u = l))
  else match u, l with
    | [x], l => .ok (l.all (· = x))
    | u, [x] => .ok (u.all (· = x))
    | _, _ => .error .value

/-- `check` (_connectivity.py:212-219); `np.concatenate(())` raises ValueError, and so does
`min()` of an empty array. -/
def check (c : ElemConn) : Py Bool := do
  let ls ← c.indexLists
  if ls.isEmpty then .error .value
  else
    let index := ls.flatten
    match index.min?, index.max? with
    | some mn, some mx => do
        let uniq := npUnique index
        pyAssert (decide (mn = 0))
        pyAssert (decide (mx = (index.length : Int) - 1))
        let b ← npAllEq uniq index
        pyAssert b
        return true
    | _, _ => .error .value

/-- `all_index` (_connectivity.py:235-236). -/
def allIndex (c : ElemConn) : Py (List Int) := do
  let ls ← c.indexLists
  return ls.flatten

/-- `(ind[i], f2n[i, :]) for i in range(f2n.shape[0])` of one entry (_connectivity.py:249-251):
IndexError when the index list is shorter than the table. -/
def entryTuples (e : Entry) : Py (List (Int × List Int)) := do
  let ind ← e.index.toList
  if ind.length < e.e2n.rows.length then .error .index else return ind.zip e.e2n.rows

/-- `index_elem_tuples` (_connectivity.py:244-252). -/
def indexElemTuples (c : ElemConn) : Py (List (Int × List Int)) := do
  let ls ← c.tbl.mapM fun p => entryTuples p.2
  return ls.flatten

/-- `dict(zip(ind, f2n))` then `.get`: the last binding wins. -/
def lastBinding (pairs : List (Int × List Int)) (i : Int) : Option (List Int) :=
  (pairs.reverse.find? fun p => p.1 = i).map (·.2)

/-- `nodes_of_indexlist` (_connectivity.py:254-265): a missing index gives `None`, on which
`chain.from_iterable` raises TypeError. `so` is the iteration order of the final `set`. -/
def nodesOfIndexlist (so : List Int → List Int) (c : ElemConn) (elems : List Int) :
    Py (List Int) := do
  let ls ← c.indexLists
  let ind := ls.flatten
  let f2n := (c.tbl.map fun p => p.2.e2n.rows).flatten
  let nodes ← elems.mapM fun i =>
    match lastBinding (ind.zip f2n) i with
    | some r => Except.ok r
    | none => Except.error PyErr.type
  return so nodes.flatten.dedup

/-- Differences `index[1:] - index[:-1]` (_connectivity.py:269). -/
def diffs : List Int → List Int
  | a :: b :: t => (b - a) :: diffs (b :: t)
  | _ => []

/-- `np.argwhere(a == x)` as a list of positions (_connectivity.py:273).
Simplification: the code keeps the `(n, 1)` column, i.e. a list of one-element lists; the only use
made of this index by the package is the sort in `exportto_compressedindex`, for which both
representations order identically. -/
def argwhereEq (a : List Int) (x : Int) : List Int :=
  (a.zipIdx.filter fun p => p.1 = x).map fun p => (p.2 : Int)

/-- One iteration of the loop of `importfrom_compressedindex` (_connectivity.py:271-276). -/
def importStep (z : Csr) (c : ElemConn) (facesize : Int) : Py ElemConn := do
  let typef ← faceFromNnode.getE facesize
  let index := argwhereEq (diffs z.index) facesize
  let zind ← npGather z.index index
  let nodes ← zind.mapM fun s => npGather z.value (pyRange s (s + facesize))
  c.addElems typef ⟨some facesize.toNat, nodes⟩ (some (.list index))

/-- `importfrom_compressedindex` (_connectivity.py:267-276), applied to the connectivity `c`. -/
def importCompressed (c : ElemConn) (z : Csr) : Py ElemConn :=
  (npUnique (diffs z.index)).foldlM (importStep z) c

/-- Lexicographic `<=` on Python lists of integers. -/
def lexLe : List Int → List Int → Bool
  | [], _ => true
  | _ :: _, [] => false
  | a :: s, b :: t => if a < b then true else if b < a then false else lexLe s t

/-- `<=` on Python tuples `(index, nodes)`. -/
def tupLe (p q : Int × List Int) : Bool :=
  if p.1 < q.1 then true else if q.1 < p.1 then false else lexLe p.2 q.2

/-- `np.concatenate(([0], np.cumsum(l)))` (_connectivity.py:282). -/
def offsets (start : Int) : List Int → List Int
  | [] => [start]
  | n :: t => start :: offsets (start + n) t

/-- `exportto_compressedindex` (_connectivity.py:279-285). -/
def exportCompressed (c : ElemConn) : Py Csr := do
  let tup ← c.indexElemTuples
  let concat := tup.insertionSort (fun p q => tupLe p q = true)
  return ⟨offsets 0 (concat.map fun p => (p.2.length : Int)), (concat.map (·.2)).flatten⟩

/-- Merge of one entry in `mergedict` (_connectivity.py:297-304). -/
def mergeEntry (shift : Int) (m : Dict String Entry) (p : String × Entry) :
    Py (Dict String Entry) :=
  match m.get? p.1 with
  | some old => do
      let idx ← old.index.add (p.2.index.shift shift)
      let arr ← old.e2n.concat p.2.e2n
      return m.set p.1 ⟨idx, arr⟩
  | none => .ok (m.set p.1 ⟨p.2.index.shift shift, p.2.e2n⟩)

/-- Number of indices of a connectivity (_connectivity.py:289-292). -/
def indexCount (c : ElemConn) : Py Int := do
  let ls ← c.indexLists
  return (ls.map fun l => (l.length : Int)).sum

/-- `importfrom_merge` (_connectivity.py:287-307): the shifts are `[0] + sizes[:-1]`. -/
def importMerge (c : ElemConn) (l : List ElemConn) : Py ElemConn := do
  let sizes ← l.mapM indexCount
  let shifts := (0 : Int) :: sizes.dropLast
  let m ← (shifts.zip l).foldlM
    (fun (m : Dict String Entry) (p : Int × ElemConn) => p.2.tbl.foldlM (mergeEntry p.1) m) []
  m.foldlM (fun (c : ElemConn) (p : String × Entry) => c.addElems p.1 p.2.e2n (some p.2.index)) c

/-- `nodelist` (_connectivity.py:411-416); `so` is the iteration order of the Python set. -/
def nodelist (so : List Int → List Int) (c : ElemConn) : List Int :=
  so ((c.tbl.map fun p => p.2.e2n.rows.flatten).flatten.dedup)

/-- Extrusion of one entry (_connectivity.py:429-438): `np.tile(e2n, (ncell, 2))`, columns
`fnnode:2*fnnode` shifted by `nshift` (`fnnode` is the declared number of nodes of the type), block `i`
of rows shifted by `i * nshift`; the index is tiled and block `i` shifted by `i * nshift` as well. -/
def extrudeEntry (ncell : Nat) (nshift : Int) (fnnode : Nat) (rows : List (List Int))
    (index : List Int) : List (List Int) × List Int :=
  let nelem := rows.length
  let elemcon := (npTile ncell (rows.map fun r => r ++ r)).map
    (mapSlice (· + nshift) fnnode (2 * fnnode))
  (sliceLoop (fun i r => r.map (· + (i : Int) * nshift)) nelem ncell elemcon,
   sliceLoop (fun i x => x + (i : Int) * nshift) nelem ncell (npTile ncell index))

/-- Loop body of `extrude` (_connectivity.py:428-439). The one-dimensional empty table is outside the
model (TypeError here). -/
def extrudeStep (ncell : Nat) (nshift : Int) (new : ElemConn) (p : String × Entry) : Py ElemConn :=
  match p.2.e2n.ncol with
  | none => .error .type
  | some k => do
      let fnnode ← nnodeElem.getE p.1
      let index ← p.2.index.toList
      let r := extrudeEntry ncell nshift fnnode p.2.e2n.rows index
      let etype ← extrudedFace.getE p.1
      new.addElems etype ⟨some (2 * k), r.1⟩ (some (.list r.2))

/-- `extrude(nplanes, inodeshift)` (_connectivity.py:418-440). -/
def extrude (c : ElemConn) (nplanes : Nat) (nshift : Int) : Py ElemConn := do
  pyAssert (decide (1 < nplanes))
  c.tbl.foldlM (extrudeStep (nplanes - 1) nshift) empty

end ElemConn
end Cfd

import Verif.Model.Mesh

/-!
# Model of the Gmsh reader (cfdtools/gmsh/reader.py, _gmsh.py)

Everything after `l.split()` (reader.py:366-367) works on the lines split into words; `readFile` takes the text.
The builtin conversions `int(word)`, `float(word)` and `int(number)` are parameters (`PyNum`); numbers
are of any type `R`.

Simplifications
* log messages are not modelled; a file which does not exist either;
* in the 4.x reader a negative number of nodes in a block, which can make the loop of
  reader.py:324-332 run backwards, is an error;
* the lists `x`, `y`, `z` of the 4.x reader, always assigned together, are one list of triples.
-/

namespace Cfd.Gmsh

/-- Builtin conversions of Python. -/
structure PyNum (R : Type) where
  int : String → Py Int
  float : String → Py R
  trunc : R → Py Int

/-- A file: lines split into words. -/
abbrev Lines := List (List String)

/-- `gmshtype_elem` (_gmsh.py:16-32). -/
def gmshType : Dict Int String :=
  [(1, "bar2"), (2, "tri3"), (3, "quad4"), (4, "tetra4"), (5, "hexa8"), (6, "prism6"), (7, "pyra5"), (8, "bar3"),
   (9, "tri6"), (10, "quad9"), (11, "tetra10"), (12, "hexa27"), (13, "prism18"), (14, "pyra14"), (15, "node1")]

/-- What the sections give (reader.py:277, 359): families by number, types by family name, coordinates
(`none` is Python's `None`), elements. -/
structure Sections (R : Type) where
  fam : Option (Dict String String)
  bctype : Option (Dict String String)
  x : List (Option R)
  y : List (Option R)
  z : List (Option R)
  elts : List (List Int)
  deriving DecidableEq, Repr

/-- `msh.index(line)` -/
def lineIndex (msh : Lines) (line : List String) : Py Nat :=
  if line ∈ msh then .ok (msh.idxOf line) else .error .value

/-- `__get_section_from_name` (reader.py:233-237), the name being given without its `$`. -/
def getSection (msh : Lines) (name : String) : Py Lines := do
  let ibeg ← lineIndex msh ["$" ++ name]
  let iend ← lineIndex msh ["$End" ++ name]
  return (msh.take iend).drop (ibeg + 1)

/-- `lines[i][j]` -/
def word (lines : Lines) (i j : Int) : Py String := do
  let l ← npGet lines i
  npGet l j

/-- `int(lines[i][j])` -/
def intAt {R : Type} (num : PyNum R) (lines : Lines) (i j : Int) : Py Int := do
  let w ← word lines i j
  num.int w

/-- `float(lines[i][j])` -/
def floatAt {R : Type} (num : PyNum R) (lines : Lines) (i j : Int) : Py R := do
  let w ← word lines i j
  num.float w

/-- `s[1:-1]` -/
def unquote (s : String) : String := String.ofList (s.toList.tail.dropLast)

/-- One line of physical names (reader.py:253-254). -/
def readName (lines : Lines) (d : Dict String String × Dict String String) (i : Int) :
    Py (Dict String String × Dict String String) := do
  let tag ← word lines i 1
  let name ← word lines i 2
  let dim ← word lines i 0
  return (d.1.set tag (unquote name), d.2.set (unquote name) dim)

/-- Physical names (reader.py:248-259, 288-299). -/
def readNames {R : Type} (num : PyNum R) (msh : Lines) :
    Py (Option (Dict String String × Dict String String)) :=
  if ["$PhysicalNames"] ∈ msh then do
    let families ← getSection msh "PhysicalNames"
    let n ← intAt num families 0 0
    let d ← (pyRange 1 (n + 1)).foldlM (readName families) ([], [])
    return some d
  else .ok none

/-- `[int(j) for j in elements[i]]` -/
def intLine {R : Type} (num : PyNum R) (lines : Lines) (i : Int) : Py (List Int) := do
  let l ← npGet lines i
  l.mapM num.int

/-- `__read_sections_V2` (reader.py:239-277). -/
def readV2 {R : Type} (num : PyNum R) (msh : Lines) : Py (Sections R) := do
  let names ← readNames num msh
  let coords ← getSection msh "Nodes"
  let n ← intAt num coords 0 0
  let x ← (pyRange 1 (n + 1)).mapM fun i => floatAt num coords i 1
  let y ← (pyRange 1 (n + 1)).mapM fun i => floatAt num coords i 2
  let z ← (pyRange 1 (n + 1)).mapM fun i => floatAt num coords i 3
  let elements ← getSection msh "Elements"
  let ne ← intAt num elements 0 0
  let elts ← (pyRange 1 (ne + 1)).mapM (intLine num elements)
  return ⟨names.map (·.1), names.map (·.2), x.map some, y.map some, z.map some, elts⟩

/-! ## Version 4 -/

/-- One step of the search of `find_ent` (reader.py:308-311): `none` to go on. -/
def entLine {R : Type} (num : PyNum R) (entities : Lines) (j i : Int) : Py (Option Int) := do
  let l ← npGet entities i
  let t ← intAt num entities i 0
  if j = t ∧ 8 ≤ l.length then do
    let p ← intAt num entities i 8
    return some p
  else return none

/-- The loop of `find_ent`. -/
def entLoop {R : Type} (num : PyNum R) (entities : Lines) (j : Int) : List Int → Py Int
  | [] => .ok 0
  | i :: t => do
      match ← entLine num entities j i with
      | some p => return p
      | none => entLoop num entities j t

/-- `find_ent` (reader.py:303-312). -/
def findEnt {R : Type} (num : PyNum R) (msh : Lines) (j : Int) : Py Int := do
  let entities ← getSection msh "Entities"
  let a ← intAt num entities 0 0
  let b ← intAt num entities 0 1
  let c ← intAt num entities 0 2
  entLoop num entities j (pyRange (a + b) (c + (a + b) + 1))

/-- One node (reader.py:327-330). -/
def readNode {R : Type} (num : PyNum R) (coords : Lines) (cnt : Int) (p : List (Option (R × R × R))) (i : Int) :
    Py (List (Option (R × R × R))) := do
  let t ← intAt num coords i 0
  let x ← floatAt num coords (i + cnt) 0
  let y ← floatAt num coords (i + cnt) 1
  let z ← floatAt num coords (i + cnt) 2
  npSet p (t - 1) (some (x, y, z))

/-- The loop over the blocks of nodes (reader.py:324-332). -/
def nodeLoop {R : Type} (num : PyNum R) (coords : Lines) (nnodes : Int) (nodes : Int) (counter : Nat)
    (p : List (Option (R × R × R))) : Py (List (Option (R × R × R))) :=
  if nodes < nnodes then
    if counter < coords.length then
      match intAt num coords counter 3 with
      | .error e => .error e
      | .ok cnt =>
          if cnt < 0 then .error .value
          else
            match (pyRange (counter + 1) (counter + cnt + 1)).foldlM (readNode num coords cnt) p with
            | .error e => .error e
            | .ok p => nodeLoop num coords nnodes (nodes + cnt) (counter + 2 * cnt.toNat + 1) p
    else .error .index
  else .ok p
termination_by coords.length - counter

/-- The coordinates (reader.py:316-332): as many as the largest node tag announced. -/
def readNodesV4 {R : Type} (num : PyNum R) (msh : Lines) : Py (List (Option (R × R × R))) := do
  let coords ← getSection msh "Nodes"
  let n ← intAt num coords 0 3
  nodeLoop num coords n 1 1 (List.replicate n.toNat none)

/-- `l.insert(i, v)` -/
def pyInsert (l : List Int) (i : Nat) (v : Int) : List Int := l.take i ++ v :: l.drop i

/-- One element (reader.py:351-355). -/
def eltLine {R : Type} (num : PyNum R) (elements : Lines) (a c d : Int) (j : Int) : Py (List Int) := do
  let e ← intLine num elements j
  return pyInsert (pyInsert (pyInsert (pyInsert e 1 a) 2 2) 3 c) 4 d

/-- One block of elements (reader.py:345-357): position in the section and elements read so far. -/
def eltBlock {R : Type} (num : PyNum R) (msh elements : Lines) (st : Int × List (List Int)) :
    Py (Int × List (List Int)) := do
  let a ← intAt num elements st.1 2
  let d ← intAt num elements st.1 1
  let c ← findEnt num msh d
  let n ← intAt num elements st.1 3
  let es ← (pyRange (st.1 + 1) (st.1 + n + 1)).mapM (eltLine num elements a c d)
  return (st.1 + (n + 1), st.2 ++ es)

/-- The elements (reader.py:336-357). -/
def readEltsV4 {R : Type} (num : PyNum R) (msh : Lines) : Py (List (List Int)) := do
  let elements ← getSection msh "Elements"
  let nb ← intAt num elements 0 0
  let r ← (pyRange 0 nb).foldlM (fun st _ => eltBlock num msh elements st) (1, [])
  return r.2

/-- `__read_sections_V4` (reader.py:279-359). -/
def readV4 {R : Type} (num : PyNum R) (msh : Lines) : Py (Sections R) := do
  let names ← readNames num msh
  let p ← readNodesV4 num msh
  let elts ← readEltsV4 num msh
  return ⟨names.map (·.1), names.map (·.2), p.map (Option.map fun q => q.1), p.map (Option.map fun q => q.2.1),
    p.map (Option.map fun q => q.2.2), elts⟩

/-- `__read_sections` (reader.py:361-381). -/
def readSections {R : Type} (num : PyNum R) (msh : Lines) : Py (Sections R) := do
  let version ← getSection msh "MeshFormat"
  let f ← floatAt num version 0 0
  let v ← num.trunc f
  let ascii ← intAt num version 0 1
  pyAssert (decide (ascii = 0))
  let size ← intAt num version 0 2
  pyAssert (decide (size = 8))
  if v ≤ 2 then readV2 num msh
  else if 4 ≤ v then readV4 num msh
  else .error .runtime

/-! ## Analysis -/

/-- `_elem.dim_elem[gmshtype_elem[e[1]]]` (reader.py:54). -/
def eltDim (e : List Int) : Py Nat := do
  let t ← npGet e 1
  let name ← gmshType.getE t
  dimElem.getE name

/-- `self._maxdim` (reader.py:54): the maximum of an empty list is a ValueError. -/
def maxDim (elts : List (List Int)) : Py Nat := do
  let l ← elts.mapM eltDim
  match l.max? with
  | none => .error .value
  | some d => return d

/-- `l[i:]` -/
def sliceFrom (l : List Int) (i : Int) : List Int := l.drop (if i < 0 then i + l.length else i).toNat

/-- Type of an element when it has dimension `d` (reader.py:74-76, 93-95). -/
def typeOfDim (d : Nat) (e : List Int) : Py (Option String) := do
  let t ← npGet e 1
  match gmshType.get? t with
  | none => return none
  | some name => return if dimElem.get? name = some d then some name else none

/-- `elt[3 + ntag:]` (reader.py:80-81, 96, 107). -/
def eltNodes (e : List Int) : Py (List Int) := do
  let ntag ← npGet e 2
  return sliceFrom e (3 + ntag)

/-- One element of the volume connectivity (reader.py:73-87). -/
def addCell (d : Nat) (conn : Dict String (List (List Int))) (e : List Int) : Py (Dict String (List (List Int))) := do
  match ← typeOfDim d e with
  | none => return conn
  | some t => do
      let nodes ← eltNodes e
      return dictExtend conn t [nodes]

/-- Boundary connectivity by entity, and family of each entity (reader.py:91, 67). The lists `bnd` have the
same keys as the first one; their values are not used. -/
abbrev BndState := Dict Int (Dict String (List (List Int))) × Dict Int Int

/-- One element of the boundary connectivity (reader.py:92-113). -/
def addBnd (d : Nat) (st : BndState) (e : List Int) : Py BndState := do
  match ← typeOfDim d e with
  | none => return st
  | some t => do
      let ntag ← npGet e 2
      let tag ← npGet e 4
      let fam ← npGet e 3
      let old := (st.1.get? tag).getD []
      return (st.1.set tag (dictExtend old t [sliceFrom e (3 + ntag)]), st.2.set tag fam)

/-- `np.array(rows) - 1` (reader.py:118, 122): rows of different lengths are a ValueError. -/
def lowered (rows : List (List Int)) : Py Arr2 :=
  match rows with
  | [] => .ok ⟨none, []⟩
  | r :: t =>
      if t.all fun x => x.length = r.length then .ok ⟨some r.length, (r :: t).map (·.map (· - 1))⟩
      else .error .value

/-- The same on a dictionary of types (reader.py:117-118, 121-122). -/
def loweredAll (d : Dict String (List (List Int))) : Py (Dict String Arr2) :=
  d.mapM fun p => do
    let a ← lowered p.2
    return (p.1, a)

/-- Nodes of a patch (reader.py:207-209, 225-227): `np.unique` type by type. -/
def patchNodes (conn : Dict String Arr2) : List Int := conn.flatMap fun p => ElemConn.npUnique p.2.rows.flatten

/-- `__create_bnd` (reader.py:192-231): `self._famm` holds the keys of `boundaries`, whose values are given by
their `slicing`; all have the type `boundary`. -/
def createBnd (b : Dict String (List Int)) (family : String) (conn : Dict String Arr2) : Dict String (List Int) :=
  match b.get? family with
  | some s => b.set family (ElemConn.npUnique (s ++ patchNodes conn))
  | none => b.set family (patchNodes conn)

/-- `str(n)` -/
def pyStr (n : Int) : String := toString n

/-- One entity of the boundary (reader.py:127-136 and 138-146). -/
def addFamily (fam : Option (Dict String String)) (bnd2fam : Dict Int Int) (b : Dict String (List Int))
    (p : Int × Dict String Arr2) : Py (Dict String (List Int)) :=
  match fam with
  | some fam => do
      let n ← bnd2fam.getE p.1
      let family ← fam.getE (pyStr n)
      return if family ≠ "fluid" then createBnd b family p.2 else b
  | none => .ok (createBnd b "fluid" p.2)

/-- State of the reader after `read_data` (reader.py:162-165). -/
structure State (R : Type) where
  maxdim : Nat
  coords : List (Option R) × List (Option R) × List (Option R)
  conn : Dict String Arr2
  boundaries : Dict String (List Int)
  deriving DecidableEq, Repr

/-- `read_data` after the sections are read (reader.py:53-165). The entry `int_fluid` replaces a family of the
same name and is not exported (its type is `internal`): it is left out. -/
def analyze {R : Type} (s : Sections R) : Py (State R) := do
  let d ← maxDim s.elts
  if d < 2 then .error .runtime
  else do
    let conn ← s.elts.foldlM (addCell d) []
    let (bc, bnd2fam) ← s.elts.foldlM (addBnd (d - 1)) ([], [])
    let conn ← loweredAll conn
    let bc ← bc.mapM fun p => do
      let c ← loweredAll p.2
      return (p.1, c)
    let b ← bc.foldlM (addFamily s.fam bnd2fam) []
    return ⟨d, (s.x, s.y, s.z), conn, b.filter fun p => p.1 ≠ "int_fluid"⟩

/-- `export_mesh` (reader.py:167-190); the periodic data of a mark are 16 zeros. -/
def exportMesh {R : Type} (s : State R) : Py (Mesh (Option R)) := do
  let m ← (Mesh.new 0 s.coords.1.length).setCoords s.coords.1 s.coords.2.1 s.coords.2.2
  let cells ← s.conn.foldlM (fun (c : ElemConn) p => do
    let dim ← dimElem.getE p.1
    if dim = s.maxdim then c.addElems p.1 p.2 else return c) ElemConn.empty
  let m := m.setCell2node cells
  return s.boundaries.foldl (fun m p =>
    m.addBoco ⟨p.1, .bdnode, "boundary", .list p.2, some (List.replicate 16 0)⟩) m

/-- `read_data()` then `export_mesh()`. -/
def read {R : Type} (num : PyNum R) (msh : Lines) : Py (Mesh (Option R)) := do
  let s ← readSections num msh
  let st ← analyze s
  exportMesh st

/-- `c.isspace()`, the separators of `str.split()`. -/
def pySpace (c : Char) : Bool :=
  let n := c.toNat
  (9 ≤ n && n ≤ 13) || (28 ≤ n && n ≤ 32) || n = 0x85 || n = 0xA0 || n = 0x1680 || (0x2000 ≤ n && n ≤ 0x200A) ||
    n = 0x2028 || n = 0x2029 || n = 0x202F || n = 0x205F || n = 0x3000

/-- `l.split()`: the maximal runs of characters which are not white space. `cur` is the current run. -/
def splitFrom (cur : List Char) : List Char → List String
  | [] => if cur = [] then [] else [String.ofList cur]
  | c :: t =>
      if pySpace c then (if cur = [] then [] else [String.ofList cur]) ++ splitFrom [] t
      else splitFrom (cur ++ [c]) t

/-- `l.split()` (reader.py:366). -/
def pySplit (l : String) : List String := splitFrom [] l.toList

/-- The whole reader on the lines of a file (reader.py:365-367). -/
def readFile {R : Type} (num : PyNum R) (text : List String) : Py (Mesh (Option R)) := read num (text.map pySplit)

end Cfd.Gmsh

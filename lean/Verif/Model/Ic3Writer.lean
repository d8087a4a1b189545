import Verif.Model.Ic3Format
import Verif.Model.Data

/-!
# Model of the IC3 writers (cfdtools/ic3/writerV2.py, writerV3.py)

The methods of `writerV3.writer` override those of `writerV2.writer` although their names begin with two
underscores, because both classes have the same name (`_writer__WriteRestartHeader`, ...).

The file is written by successive calls of `BinaryWrite`. The model lists them in order ("chunks"), each
one being the bytes written or the exception raised instead; the file left is what precedes the first
exception.

Simplifications
* conversions between integers and doubles are parameters (`Conv`);
* `str.upper` is the ASCII one;
* arrays are given by their shape and their values in C order; element types other than float64 and int64
  are represented by the values converted to double;
* a scalar array of shape `(n, 1)` is written by Python through the deprecated conversion of arrays of one
  element.
-/

namespace Cfd.Ic3

/-- Conversion of an integer to a double, and of a double to an int64 (`header.idata[0] = value`). -/
structure Conv where
  ofInt : Int → F64
  toInt : F64 → Py Int

/-- Element type and values (C order) of an array. -/
inductive NpData where
  | f64 (l : List F64)
  | i64 (l : List Int)
  | other (l : List F64)
  deriving DecidableEq, Repr

/-- `np.ndarray`. -/
structure NpArr where
  shape : List Nat
  data : NpData
  deriving DecidableEq, Repr

/-- `size`. -/
def NpArr.size (a : NpArr) : Nat :=
  match a.data with
  | .f64 l => l.length
  | .i64 l => l.length
  | .other l => l.length

/-- Values as doubles, as `struct` converts them for `'d'`. -/
def NpArr.doubles (cv : Conv) (a : NpArr) : List F64 :=
  match a.data with
  | .f64 l => l
  | .i64 l => l.map cv.ofInt
  | .other l => l

/-- `a.size == a.shape[0]`. -/
def NpArr.isScalar (a : NpArr) : Py Bool :=
  match a.shape with
  | [] => .error .index
  | n :: _ => .ok (decide (a.size = n))

/-- Values of `Mesh._params` used by the writers. -/
inductive SimVal where
  | int (n : Int)
  | f64 (x : F64)
  | wgts (d : Dict String F64)
  deriving DecidableEq, Repr

/-- The entry `icvpart` of a partition: missing, an integer array, or the `array(None)` which the reader
makes of a payload cut by the end of the file (reader_legacy.py:358-359). -/
inductive Icv where
  | missing
  | arr (l : List Int)
  | null
  deriving DecidableEq, Repr

/-- `Mesh._cellprop['partition']`: `{'npart': .., 'icvpart': ..}`. -/
structure Partition where
  npart : Option Int
  icvpart : Icv
  deriving DecidableEq, Repr

/-- `Mesh._celldata`: a `DataSet` (with its attributes) or a plain dictionary (initially `{}`). -/
structure CellSet where
  attrs : Option DataAttrs
  data : Dict String NpArr
  deriving DecidableEq, Repr

/-- A mesh with the data, parameters and partition used by the IC3 writers (_mesh.py:105-117).
`partition = none`: no such key; `some none`: the value `None` left by `readerV4`. -/
structure FullMesh where
  mesh : Mesh F64
  cells : CellSet
  nodes : Dict String NpArr
  params : Dict String SimVal
  partition : Option (Option Partition)
  deriving DecidableEq, Repr

/-- `simstate` (writerV2.py:131). -/
structure SimState where
  wgt : SimVal
  step : SimVal
  dt : SimVal
  time : SimVal
  deriving DecidableEq, Repr

/-- `set_simstate()` (writerV2.py:121-136). -/
def setSimstate (params : Dict String SimVal) : SimState :=
  { wgt := (params.get? "wgt").getD (.wgts [])
    step := (params.get? "step").getD (.int 0)
    dt := (params.get? "dt").getD (.int 0)
    time := (params.get? "time").getD (.int 0) }

/-- Attributes of the writer after `__init__` (writerV2.py:30-44). -/
structure WState where
  nno : Nat
  nfa : Nat
  ncv : Nat
  coords : List (F64 × F64 × F64)
  noofa : List Int
  noofaV : List Int
  f2e : F2C
  part : Option Partition
  bocos : Dict String Mark
  sim : SimState
  cells : CellSet
  nodes : Dict String NpArr
  deriving DecidableEq, Repr

/-- The index is a list (`boco.index.type == 'list'`, writerV2.py:65). -/
def isListIndex : IndexList → Bool
  | .list _ => true
  | _ => false

/-- Faces are generated when there are none (writerV2.py:55-57). -/
def needFaces (tbl : FaceTable) (m : Mesh F64) : Py (Mesh F64) :=
  if m.faces.isEmpty then m.makeFaces tbl else .ok m

/-- Node marks are transferred to the faces (writerV2.py:58-60). -/
def needFaceMarks (m : Mesh F64) : Py (Mesh F64) :=
  if m.bocos.any (fun p => p.2.nodebased) then m.bocosToFaces else .ok m

/-- Faces without mark get the mark `unmarked` (writerV2.py:61-64). -/
def needUnmarked (so : List Int → List Int) (m : Mesh F64) : Py (Mesh F64) :=
  if m.faces.keys.contains "boundary" then (m.makeUnmarked so "unmarked").map (·.2) else .ok m

/-- Boundary faces are renumbered when a mark is a list (writerV2.py:65-67). -/
def needReindex (m : Mesh F64) : Py (Mesh F64) :=
  if m.bocos.any (fun p => isListIndex p.2.index) then m.reindexBoundary else .ok m

/-- First part of `set_mesh` (writerV2.py:55-67): faces and marks are completed in the mesh itself. -/
def completeMesh (tbl : FaceTable) (so : List Int → List Int) (m : Mesh F64) : Py (Mesh F64) := do
  let m ← needFaces tbl m
  let m ← needFaceMarks m
  let m ← needUnmarked so m
  needReindex m

/-- Face tables to write (writerV2.py:89-96). -/
def writerFaces (m : Mesh F64) : Py (Csr × F2C) :=
  match m.faces.get? "mixed" with
  | some fs => do
      let z ← fs.f2n.exportCompressed
      let c ← Mesh.f2cConn fs.f2c
      return (z, c)
  | none => do
      let r ← m.exportMixed
      let z ← r.1.exportCompressed
      return (z, some r.2)

/-- Rows of the coordinates, `np.stack([x, y, z], axis=1)`. -/
def stackCoords (c : List F64 × List F64 × List F64) : List (F64 × F64 × F64) :=
  c.1.zip (c.2.1.zip c.2.2)

/-- Second part of `set_mesh`, `set_bocos` and `set_vars` (writerV2.py:71-148), on the completed mesh. -/
def setMesh (f : FullMesh) (m : Mesh F64) : Py WState :=
  match m.coords with
  | none => .error .key
  | some c => do
      let xyz := stackCoords c
      pyAssert (decide (xyz.length = m.nnode))
      let zf ← writerFaces m
      return { nno := m.nnode, nfa := m.nface, ncv := m.ncell, coords := xyz
               noofa := ElemConn.diffs zf.1.index, noofaV := zf.1.value, f2e := zf.2
               part := (match f.partition with
                 | none => some ⟨some 1, .arr (List.replicate m.ncell 0)⟩
                 | some p => p)
               bocos := m.bocos.filter fun p => decide (p.2.type ≠ "internal")
               sim := setSimstate f.params, cells := f.cells, nodes := f.nodes }

/-- Format versions of the two writers. -/
inductive Ver where
  | v2 | v3
  deriving DecidableEq, Repr

/-- The version number written (writerV2.py:215, writerV3.py:44-49). -/
def Ver.num : Ver → Int
  | .v2 => 2
  | .v3 => 3

section
variable (host : Order) (e : Endian)

/-- A section header written by `header.write`. -/
def secHeader (name : String) (id : Int) (skip : Nat) (idata : List Int) (rdata : List F64 := []) :
    Py Bytes :=
  (mkHeader name id skip idata rdata).write host e

/-- `BinaryWrite(.., "i" * n, args)`: the number of arguments must match. -/
def writeI32 (n : Nat) (args : List Int) : Py Bytes :=
  if args.length = n then structPack host e (args.map .i) else .error .struct

/-- `BinaryWrite(.., "q" * n, args)`. -/
def writeI64 (n : Nat) (args : List Int) : Py Bytes :=
  if args.length = n then structPack host e (args.map .q) else .error .struct

/-- `BinaryWrite(.., "d" * n, args)`. -/
def writeF64 (n : Nat) (args : List F64) : Py Bytes :=
  if args.length = n then structPack host e (args.map .d) else .error .struct

/-- `__WriteRestartHeader` (writerV2.py:207-215, writerV3.py:36-49). -/
def headerChunk (v : Ver) : Py Bytes := structPack host e [.i magic, .i v.num]

/-- One section of consecutive numbers (writerV2.py:217-262). -/
def checkSection (name : String) (id : Int) (n : Nat) : List (Py Bytes) :=
  [secHeader host e name id (hsize + 4 * n) [n],
   writeI32 host e n (pyRange 0 n)]

/-- `__WriteRestartConnectivity_check` (writerV2.py:217-262; nothing in V3, writerV3.py:51-53). -/
def checkChunks (v : Ver) (w : WState) : List (Py Bytes) :=
  match v with
  | .v2 => checkSection host e "NO_CHECK" cNoCheck w.nno ++ checkSection host e "FA_CHECK" cFaCheck w.nfa ++
      checkSection host e "CV_CHECK" cCvCheck w.ncv
  | .v3 => []

/-- `self.f2e.ravel()`: `None` has no such method (writerV2.py:324). -/
def f2eChunk (nfa : Nat) : F2C → Py Bytes
  | none => .error .attribute
  | some rows => writeI32 host e (nfa * 2) (rows.flatMap fun r => [r.1, r.2])

/-- Header of one mark (writerV2.py:329-350). -/
def zoneChunk (p : String × Mark) : Py Bytes := do
  pyAssert (decide (p.1 = p.2.name))
  pyAssert p.2.onFaces
  pyAssert (decide (p.2.type ∈ type2zonekind.keys))
  let r ← p.2.index.getRange
  let kind ← type2zonekind.getE p.2.type
  let rdata := p.2.perio.getD []
  if 16 < rdata.length then .error .index
  else secHeader host e p.1 cFaZone hsize [kind, r.1, r.2] rdata

/-- `last_boco` after the loop (writerV2.py:328, 345): it starts at 0. -/
def lastBoco (bocos : Dict String Mark) : Int :=
  bocos.foldl (fun a p => match p.2.index.getRange with | .ok r => max a r.2 | .error _ => a) 0

/-- Header of the internal faces (writerV2.py:352-362). -/
def internalChunk (w : WState) : Py Bytes :=
  secHeader host e "internal-domain" cFaZone hsize [6, lastBoco w.bocos + 1, (w.nfa : Int) - 1]

/-- Ranks of the cells (writerV2.py:373-378): zeros by default; `*array(None)` is a TypeError. -/
def icvChunk (n : Nat) : Icv → Py Bytes
  | .missing => writeI32 host e n (List.replicate n 0)
  | .arr l => writeI32 host e n l
  | .null => .error .type

/-- Partition (writerV2.py:365-378): `None` has no method `get`. -/
def partChunks (w : WState) : List (Py Bytes) :=
  match w.part with
  | none => [.error .attribute]
  | some p =>
      [secHeader host e "CV_PART" cCvPart (hsize + 4 * w.ncv) [w.ncv, p.npart.getD 1],
       icvChunk host e w.ncv p.icvpart]

/-- `__WriteRestartConnectivity` (writerV2.py:264-390). -/
def connChunks (v : Ver) (w : WState) : List (Py Bytes) :=
  [secHeader host e "NO_FA_CV_NOOFA_COUNTS" cCounts hsize [w.nno, w.nfa, w.ncv, w.noofaV.length]] ++
  checkChunks host e v w ++
  [secHeader host e "NOOFA_I_AND_V" cNoofa (hsize + 4 * w.nfa + 4 * w.noofaV.length)
     [w.nfa, w.noofaV.length],
   writeI32 host e w.nfa w.noofa,
   writeI32 host e w.noofaV.length w.noofaV,
   secHeader host e "CVOFA" cCvofa (hsize + 4 * w.nfa * 2) [w.nfa, 2],
   f2eChunk host e w.nfa w.f2e] ++
  w.bocos.map (zoneChunk host e) ++
  [internalChunk host e w] ++
  partChunks host e w ++
  [secHeader host e "X_NO" cXno (hsize + 8 * w.nno * 3) [w.nno, 3],
   writeF64 host e (w.nno * 3) (w.coords.flatMap fun p => [p.1, p.2.1, p.2.2])]

/-- `header.idata[0] = value` (writerV2.py:413). -/
def simInt (cv : Conv) : SimVal → Py Int
  | .int n => .ok n
  | .f64 x => cv.toInt x
  | .wgts _ => .error .type

/-- `header.rdata[0] = value` (writerV2.py:424). -/
def simF64 (cv : Conv) : SimVal → Py F64
  | .int n => .ok (cv.ofInt n)
  | .f64 x => .ok x
  | .wgts _ => .error .type

/-- Header of an integer parameter (writerV2.py:406-414). -/
def stepChunk (cv : Conv) (name : String) (s : SimVal) : Py Bytes := do
  let n ← simInt cv s
  secHeader host e name cI0 hsize [n]

/-- Header of a real parameter (writerV2.py:417-425). -/
def realChunk (cv : Conv) (name : String) (s : SimVal) : Py Bytes := do
  let x ← simF64 cv s
  secHeader host e name cD0 hsize [] [x]

/-- Headers of the averaging weights (writerV2.py:427-433). -/
def wgtChunks : SimVal → List (Py Bytes)
  | .wgts d => d.map fun p => secHeader host e (p.1.toUpper ++ "_WGT") cD0 hsize [] [p.2]
  | _ => [.error .attribute]

/-- `__WriteInformativeValues` (writerV2.py:392-433). -/
def infoChunks (cv : Conv) (s : SimState) : List (Py Bytes) :=
  [secHeader host e "DATA" cData hsize [],
   stepChunk host e cv "STEP" s.step,
   realChunk host e cv "DT" s.dt,
   realChunk host e cv "TIME" s.time] ++
  wgtChunks host e s.wgt

/-- A scalar array: header then values, when the array is a scalar (writerV2.py:444-461). -/
def whenScalar (a : NpArr) (chunks : List (Py Bytes)) : List (Py Bytes) :=
  match a.isScalar with
  | .error er => [.error er]
  | .ok true => chunks
  | .ok false => []

/-- Node or cell scalar in V2 (writerV2.py:444-461, 493-510). -/
def scalarV2 (cv : Conv) (id : Int) (n : Nat) (p : String × NpArr) : List (Py Bytes) :=
  whenScalar p.2
    [secHeader host e p.1 id (hsize + 8 * n) [n],
     writeF64 host e n (p.2.doubles cv)]

/-- Node vector (writerV2.py:463-481, writerV3.py:87-105), cell vector in V2 (writerV2.py:512-530). -/
def vectorV2 (cv : Conv) (id : Int) (n : Nat) (p : String × NpArr) : List (Py Bytes) :=
  if p.2.shape.length = 2 then
    [secHeader host e p.1 id (hsize + 8 * n * 3) [n, 3],
     writeF64 host e (n * 3) (p.2.doubles cv)]
  else []

/-- Cell tensor in V2 (writerV2.py:532-551). -/
def tensorV2 (cv : Conv) (n : Nat) (p : String × NpArr) : List (Py Bytes) :=
  if p.2.shape.length = 3 then
    [secHeader host e p.1 cCvD33 (hsize + 8 * n * 9) [n, 3, 3],
     writeF64 host e (n * 9) (p.2.doubles cv)]
  else []

/-- `__WriteRestartVar` of V2 (writerV2.py:435-551). -/
def varChunksV2 (cv : Conv) (w : WState) : List (Py Bytes) :=
  w.nodes.flatMap (scalarV2 host e cv cNoD1 w.nno) ++
  w.nodes.flatMap (vectorV2 host e cv cNoD3 w.nno) ++
  w.cells.data.flatMap (scalarV2 host e cv cCvD1 w.ncv) ++
  w.cells.data.flatMap (vectorV2 host e cv cCvD3 w.ncv) ++
  w.cells.data.flatMap (tensorV2 host e cv w.ncv)

/-- Scalar in V3: the element type selects the section (writerV3.py:64-85, 119-141); `idata` has the
number of elements, and for cells `ndof`. -/
def scalarV3 (idF idI : Int) (n : Nat) (idata : List Int) (p : String × NpArr) : List (Py Bytes) :=
  whenScalar p.2 (match p.2.data with
    | .f64 l => [secHeader host e p.1 idF (hsize + 8 * n) idata, writeF64 host e n l]
    | .i64 l => [secHeader host e p.1 idI (hsize + 8 * n) idata, writeI64 host e n l]
    | .other _ => [.error .key])

/-- Cell vector in V3 (writerV3.py:143-162). -/
def vectorV3 (cv : Conv) (n : Nat) (idata : List Int) (p : String × NpArr) : List (Py Bytes) :=
  if p.2.shape.length = 2 then
    [secHeader host e p.1 cCvD3 (hsize + 8 * n * 3) idata,
     writeF64 host e (n * 3) (p.2.doubles cv)]
  else []

/-- Cell tensor in V3 (writerV3.py:164-184). -/
def tensorV3 (cv : Conv) (n : Nat) (idata : List Int) (p : String × NpArr) : List (Py Bytes) :=
  if p.2.shape.length = 3 then
    [secHeader host e p.1 cCvD33 (hsize + 8 * n * 9) (idata ++ [3]),
     writeF64 host e (n * 9) (p.2.doubles cv)]
  else []

/-- Cell part of `__WriteRestartVar` of V3 (writerV3.py:112-184). A plain dictionary has no attribute
`ndof`. A negative `ndof` is outside the model (the skip written would be negative). -/
def cellChunksV3 (cv : Conv) (ncv : Nat) (c : CellSet) : List (Py Bytes) :=
  match c.attrs with
  | none => if c.data.isEmpty then [] else [.error .attribute]
  | some a =>
      let n := (a.ndof * ncv).toNat
      c.data.flatMap (scalarV3 host e cCvD1 cCvII1 n [ncv, a.ndof]) ++
      c.data.flatMap (vectorV3 host e cv n [ncv, a.ndof]) ++
      c.data.flatMap (tensorV3 host e cv n [ncv, a.ndof])

/-- `__WriteRestartVar` of V3 (writerV3.py:55-184). -/
def varChunksV3 (cv : Conv) (w : WState) : List (Py Bytes) :=
  w.nodes.flatMap (scalarV3 host e cNoD1 cNoII1 w.nno [w.nno]) ++
  w.nodes.flatMap (vectorV2 host e cv cNoD3 w.nno) ++
  cellChunksV3 host e cv w.ncv w.cells

/-- `__WriteRestartVar` of the writer chosen. -/
def varChunks (v : Ver) (cv : Conv) (w : WState) : List (Py Bytes) :=
  match v with
  | .v2 => varChunksV2 host e cv w
  | .v3 => varChunksV3 host e cv w

/-- Everything before the end-of-file section. -/
def bodyChunks (v : Ver) (cv : Conv) (w : WState) : List (Py Bytes) :=
  [headerChunk host e v] ++ connChunks host e v w ++ infoChunks host e cv w.sim ++ varChunks host e v cv w

/-- The successive writes of `write_data` (writerV2.py:159-192). -/
def fileChunks (v : Ver) (cv : Conv) (w : WState) : List (Py Bytes) :=
  bodyChunks host e v cv w ++ [secHeader host e "EOF" cEof hsize []]

end

/-- Effect of the writes: what is in the file, and the exception that stopped them if any. -/
def runChunks : List (Py Bytes) → Bytes × Py Unit
  | [] => ([], .ok ())
  | .error er :: _ => ([], .error er)
  | .ok b :: t => let r := runChunks t
      (b ++ r.1, r.2)

/-- `writer(mesh, endian)` then `write_data(filename)`: the content of the file (none when the
construction of the writer raises: no file is opened) and the outcome. -/
def writeIc3 (tbl : FaceTable) (so : List Int → List Int) (host : Order) (e : Endian) (v : Ver)
    (cv : Conv) (f : FullMesh) : Option Bytes × Py Unit :=
  match (do let m ← completeMesh tbl so f.mesh; setMesh f m) with
  | .error er => (none, .error er)
  | .ok w =>
      let r := runChunks (fileChunks host e v cv w)
      (some r.1, r.2)

end Cfd.Ic3

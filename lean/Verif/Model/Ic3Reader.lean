import Verif.Model.Ic3Writer

/-!
# Model of the IC3 reader (cfdtools/ic3/reader_legacy.py)

Simplifications
* the array `slicing` of a mark (unique nodes of its faces) is not kept, only the exceptions its
  computation can raise;
* `connectivity['nkeys']` is 0 in the code (never set), so the reordering branches are dead;
* a format such as `"%di" % n` for a huge `n` is refused by `struct`; here the read is short;
* a negative number of cells is refused by `np.zeros` (ValueError, reader_legacy.py:357) and here by the format that
  follows (struct.error);
* `str.lower` is the ASCII one; of the statistics printed only the exceptions they raise on empty arrays are modelled
  here (what they say is in Model/Report.lean).
-/

namespace Cfd.Ic3

/-- The count of a format `"%di" % n`: a negative number is an invalid format (struct.error). -/
def formatCount (n : Int) : Py Nat := if n < 0 then .error .struct else .ok n.toNat

/-- `BinaryRead(fid, "%di" % n, .., 4 * n)` (_ic3.py:142-175): `none` is the `None` returned on a short
read. -/
def readI32 (file : Bytes) (o : Order) (pos : Nat) (n : Int) : Py (Option (List Int)) := do
  let k ← formatCount n
  return (readAt file pos (4 * k)).map (unpackInts o 4 k)

/-- `BinaryRead(fid, "%dd" % n, .., 8 * n)`. -/
def readF64 (file : Bytes) (o : Order) (pos : Nat) (n : Int) : Py (Option (List F64)) := do
  let k ← formatCount n
  return (readAt file pos (8 * k)).map (unpackF64s o k)

/-- `BinaryRead(fid, "%dq" % n, .., 8 * n)`. -/
def readI64 (file : Bytes) (o : Order) (pos : Nat) (n : Int) : Py (Option (List Int)) := do
  let k ← formatCount n
  return (readAt file pos (8 * k)).map (unpackInts o 8 k)

/-- Use of a result of `BinaryRead` on which `None` raises the given exception. -/
def orRaise {α : Type} (e : PyErr) : Option α → Py α
  | none => .error e
  | some x => .ok x

/-- `h.idata[k]` (always 8 entries). -/
def Header.int (h : Header) (k : Nat) : Int := h.idata.getD k 0

/-- `while True: h = restartSectionHeader(); if not h.readVar(ids, reset_offset=False): break; ...`
from position `pos` (reader_legacy.py:322-345, 399-407, 459-508, 514-561, 567-594). `step` handles a
section found at payload position `p`; it returns the new state, the number of bytes it moved forward
and whether to continue. -/
def sectionLoop {σ : Type} (file : Bytes) (o : Order) (ids : List Int)
    (step : σ → Header → Nat → Py (σ × Nat × Bool)) (pos : Nat) (s : σ) : Py σ :=
  match hr : scan file o ids pos with
  | .error e => .error e
  | .ok (.absent _) => .ok s
  | .ok (.found h p) => match step s h p with
      | .error e => .error e
      | .ok (s', k, true) => sectionLoop file o ids step (p + k) s'
      | .ok (s', _, false) => .ok s'
  termination_by file.length - pos
  decreasing_by
    have h1 := scan_found_pos _ _ _ _ _ _ hr
    have h2 : 0 < hsize := by decide
    omega

/-- Bytes moved by a read of `n` bytes at `p`. -/
def moved (file : Bytes) (p n : Nat) : Nat := afterRead file p n - p

/-- Content of `self.mesh` (reader_legacy.py:174-186). -/
structure RMesh where
  no : Int
  fa : Int
  cv : Int
  noofa : Int
  csr : Csr
  cvofa : List (Int × Int)
  bocos : List Mark
  npart : Int
  icvpart : Icv
  coords : List (F64 × F64 × F64)
  deriving DecidableEq, Repr

/-- `np.allclose(l, np.arange(n))` for integers: relative tolerance 1e-5 (the absolute tolerance 1e-8 and
the rounding of the comparison in double precision are neglected). -/
def closeToRange (l : List Int) (n : Int) : Bool :=
  (l.zip (pyRange 0 n)).all fun p => decide (((p.1 - p.2).natAbs : Int) * 100000 ≤ p.2)

/-- One check of consecutive numbers (reader_legacy.py:214-216, 225-227, 238-240): `np.allclose` with
`array(None)` raises TypeError. -/
def checkRange (file : Bytes) (o : Order) (pos : Nat) (n : Int) : Py Unit := do
  let r ← readI32 file o pos n
  let l ← orRaise .type r
  pyAssert (closeToRange l n)

/-- `if self.check_integrity` (reader_legacy.py:205-245). -/
def integrity (file : Bytes) (o : Order) (no fa cv : Int) : Py Unit := do
  match ← scan file o [cNoCheck] 8 with
  | .absent _ => return ()
  | .found h p => do
      pyAssert (decide (h.int 0 = no))
      pyAssert (decide (h.id = cNoCheck))
      checkRange file o p no
      let (_, p) ← scanReq file o [cFaCheck]
      checkRange file o p fa
      let (h, p) ← scanReq file o [cCvCheck]
      pyAssert (decide (h.int 0 = cv))
      pyAssert (decide (h.id = cCvCheck))
      checkRange file o p cv

/-- Faces to nodes (reader_legacy.py:253-275). With a short read `nno_per_face[-1]` is an IndexError on
the zero-dimensional `array(None)`. -/
def readNoofa (file : Bytes) (o : Order) (fa noofa : Int) : Py Csr := do
  let (h, p) ← scanReq file o [cNoofa]
  pyAssert (decide (h.int 0 = fa))
  pyAssert (decide (h.int 1 = noofa))
  let nno ← orRaise .index (← readI32 file o p fa)
  let index := ElemConn.offsets 0 nno
  let a ← npGet index (-2)
  let b ← npGet nno (-1)
  pyAssert (decide (a = noofa - b))
  let value ← orRaise .type (← readI32 file o (p + 4 * fa.toNat) noofa)
  let z : Csr := ⟨index, value⟩
  let _ ← z.check
  return z

/-- `reshape((n, 2))`. -/
def pairs : List Int → List (Int × Int)
  | a :: b :: t => (a, b) :: pairs t
  | _ => []

/-- `reshape((n, 3))`. -/
def triples : List F64 → List (F64 × F64 × F64)
  | a :: b :: c :: t => (a, b, c) :: triples t
  | _ => []

/-- Faces to cells (reader_legacy.py:284-299): the table, and the position reached. -/
def readCvofa (file : Bytes) (o : Order) (fa cv : Int) : Py (List (Int × Int) × Nat) := do
  let (h, p) ← scanReq file o [cCvofa]
  pyAssert (decide (h.int 0 = fa))
  pyAssert (decide (h.int 1 = 2))
  let l ← orRaise .type (← readI32 file o p (fa * 2))
  match l.max? with
  | none => .error .value
  | some mx => do
      pyAssert (decide (mx < cv))
      pyAssert (decide (mx = cv - 1))
      return (pairs l, p + 4 * (fa * 2).toNat)

/-- One mark (reader_legacy.py:326-345). -/
def zoneStep (z : Csr) (bocos : List Mark) (h : Header) (_p : Nat) : Py (List Mark × Nat × Bool) := do
  let type ← zonekind2type.getE (h.int 0)
  let _ ← npGet z.index (h.int 1)
  let b : Mark := ⟨h.name, if type = "internal" then .intface else .bdface, type,
    .range (h.int 1) (h.int 2), some h.rdata⟩
  return (bocos ++ [b], 0, decide (h.int 0 ≠ 6))

/-- Partition (reader_legacy.py:352-359). -/
def readPart (file : Bytes) (o : Order) (cv : Int) : Py (Int × Icv) := do
  let (h, p) ← scanReq file o [cCvPart]
  let l ← readI32 file o p cv
  return (h.int 1, match l with | some l => .arr l | none => .null)

/-- Coordinates (reader_legacy.py:366-374): `array(None)` cannot be reshaped. -/
def readCoords (file : Bytes) (o : Order) (no : Int) : Py (List (F64 × F64 × F64)) := do
  let (h, p) ← scanReq file o [cXno]
  pyAssert (decide (h.int 0 = no))
  pyAssert (decide (h.int 1 = 3))
  let l ← orRaise .value (← readF64 file o p (no * 3))
  return triples l

/-- `_ReadRestartConnectivity` (reader_legacy.py:164-376). -/
def readConnectivity (integ : Bool) (file : Bytes) (o : Order) : Py RMesh := do
  let (h, _) ← scanReq file o [cCounts]
  let no := h.int 0
  let fa := h.int 1
  let cv := h.int 2
  let noofa := h.int 3
  if integ then integrity file o no fa cv else pure ()
  let csr ← readNoofa file o fa noofa
  let (cvofa, p) ← readCvofa file o fa cv
  let bocos ← sectionLoop file o [cFaZone] (zoneStep csr) p []
  let (npart, icv) ← readPart file o cv
  let coords ← readCoords file o no
  return ⟨no, fa, cv, noofa, csr, cvofa, bocos, npart, icv, coords⟩

/-- One informative value (reader_legacy.py:404-407). -/
def infoStep (s : Dict String SimVal) (h : Header) (_p : Nat) : Py (Dict String SimVal × Nat × Bool) :=
  if h.id = cI0 then .ok (s.set h.name.toLower (.int (h.int 0)), 0, true)
  else .ok (s.set h.name.toLower (.f64 (h.rdata.getD 0 0)), 0, true)

/-- `_ReadInformativeValues` (reader_legacy.py:378-407). -/
def readInfo (file : Bytes) (o : Order) : Py (Dict String SimVal) :=
  sectionLoop file o [cI0, cD0] infoStep 8
    [("step", .int 0), ("dt", .int 0), ("time", .int 0), ("wgt", .wgts [])]

/-- Data read: `celldata` (attributes and arrays), `nodedata`, and the arrays kept in
`self.variables["nodes"]` and `["faces"]` only. -/
structure RVars where
  attrs : DataAttrs
  cells : Dict String NpArr
  nodes : Dict String NpArr
  varNodes : Dict String NpArr
  varFaces : Dict String NpArr
  deriving DecidableEq, Repr

/-- `_set_ndof_properties` (reader_legacy.py:415-435). -/
def ndofOf (version intndof : Int) : Py Int :=
  if version < 0 then .error .value
  else if version < 3 then .ok 1
  else if intndof = 0 then .ok 1
  else .ok intndof

/-- `if ndof > 1: celldata.Xrep = 'spectralcell'; celldata.ndof = ndof` (reader_legacy.py:489-491). -/
def setNdofAttrs (a : DataAttrs) (ndof : Int) : Py DataAttrs :=
  if 1 < ndof then do
    let a ← a.setXrep "spectralcell"
    a.setNdof ndof
  else .ok a

/-- The bits of the default nan, which `array(None).astype(float64)` contains. -/
def nanBits : F64 := 0x7ff8000000000000

/-- A one-dimensional array read by the scalar loop with the type of the section id (`properties_ugpcode`,
_ic3.py:43-54); `array(None)` becomes a zero-dimensional nan, or raises TypeError for integers. -/
def readScalar (file : Bytes) (o : Order) (id : Int) (p : Nat) (n : Int) : Py NpArr :=
  if id = cNoII1 ∨ id = cCvII1 then do
    let l ← orRaise .type (← readI64 file o p n)
    return ⟨[l.length], .i64 l⟩
  else do
    match ← readF64 file o p n with
    | some l => return ⟨[l.length], .f64 l⟩
    | none => return ⟨[], .f64 [nanBits]⟩

/-- `print_stats_scalar`/`print_stats_vector`: `min()` of an empty array raises. -/
def stats (a : NpArr) : Py Unit := if a.size = 0 then .error .value else .ok ()

/-- One scalar section (reader_legacy.py:476-508). -/
def scalarStep (file : Bytes) (o : Order) (version no fa cv : Int) (s : RVars) (h : Header) (p : Nat) :
    Py (RVars × Nat × Bool) :=
  if h.int 0 = no then do
    let a ← readScalar file o h.id p no
    stats a
    return ({ s with nodes := s.nodes.set h.name a, varNodes := s.varNodes.set h.name a },
      moved file p (8 * no.toNat), true)
  else if h.int 0 = fa then do
    let a ← readScalar file o h.id p fa
    stats a
    return ({ s with varFaces := s.varFaces.set h.name a }, moved file p (8 * fa.toNat), true)
  else if h.int 0 = cv then do
    let ndof ← ndofOf version (h.int 1)
    let attrs ← setNdofAttrs s.attrs ndof
    let a ← readScalar file o h.id p (ndof * cv)
    stats a
    return ({ s with attrs := attrs, cells := s.cells.set h.name a },
      moved file p (8 * (ndof * cv).toNat), true)
  else .error .runtime

/-- Doubles reshaped to rows of `k` components (given by its trailing shape): `array(None)` cannot be
reshaped. -/
def readRows (file : Bytes) (o : Order) (p : Nat) (n : Int) (tail : List Nat) : Py NpArr := do
  let l ← orRaise .value (← readF64 file o p (n * (tail.prod : Nat)))
  return ⟨n.toNat :: tail, .f64 l⟩

/-- One vector section (reader_legacy.py:529-561). -/
def vectorStep (file : Bytes) (o : Order) (version no fa cv : Int) (s : RVars) (h : Header) (p : Nat) :
    Py (RVars × Nat × Bool) :=
  if h.int 0 = no then do
    let a ← readRows file o p no [3]
    stats a
    return ({ s with varNodes := s.varNodes.set h.name a }, moved file p (8 * (no * 3).toNat), true)
  else if h.int 0 = fa then do
    let a ← readRows file o p fa [3]
    stats a
    return ({ s with varFaces := s.varFaces.set h.name a }, moved file p (8 * (fa * 3).toNat), true)
  else if h.int 0 = cv then do
    let ndof ← ndofOf version (h.int 1)
    let attrs ← setNdofAttrs s.attrs ndof
    let a ← readRows file o p (ndof * cv) [3]
    stats a
    return ({ s with attrs := attrs, cells := s.cells.set h.name a },
      moved file p (8 * (ndof * cv * 3).toNat), true)
  else .error .runtime

/-- One tensor section (reader_legacy.py:573-594). -/
def tensorStep (file : Bytes) (o : Order) (version cv : Int) (s : RVars) (h : Header) (p : Nat) :
    Py (RVars × Nat × Bool) :=
  if h.int 0 = cv then do
    let ndof ← ndofOf version (h.int 1)
    let attrs ← setNdofAttrs s.attrs ndof
    let a ← readRows file o p (ndof * cv) [3, 3]
    stats a
    return ({ s with attrs := attrs, cells := s.cells.set h.name a },
      moved file p (8 * (ndof * cv * 9).toNat), true)
  else .error .runtime

/-- `DataSet('cellaverage')` and `DataSet('nodal')` (reader_legacy.py:128-130, 450). -/
def vars0 : RVars := ⟨⟨.dataSet, "cellaverage", 1, "instant"⟩, [], [], [], []⟩

/-- `_ReadRestartVar` (reader_legacy.py:437-595). -/
def readVars (file : Bytes) (o : Order) (version no fa cv : Int) : Py RVars := do
  let s ← sectionLoop file o [cNoD1, cNoII1, cFaD1, cCvD1, cCvII1]
    (scalarStep file o version no fa cv) 8 vars0
  let s ← sectionLoop file o [cNoD3, cFaD3, cCvD3] (vectorStep file o version no fa cv) 8 s
  sectionLoop file o [cCvD33] (tensorStep file o version cv) 8 s

/-- Everything read by `read_data`. -/
structure RData where
  order : Order
  version : Int
  mesh : RMesh
  sim : Dict String SimVal
  vars : RVars
  deriving DecidableEq, Repr

/-- `read_data` (reader_legacy.py:101-136). -/
def readData (integ : Bool) (file : Bytes) : Py RData := do
  let (o, version) ← readRestartHeader file
  let mesh ← readConnectivity integ file o
  let sim ← readInfo file o
  let vars ← readVars file o version mesh.no mesh.fa mesh.cv
  return ⟨o, version, mesh, sim, vars⟩

/-- `self.mesh['params']` (reader_legacy.py:175-181, 305-312, 328). -/
def paramsOf (m : RMesh) : Dict String SimVal :=
  [("no_count", .int m.no), ("fa_count", .int m.fa), ("cv_count", .int m.cv),
   ("noofa_count", .int m.noofa), ("nboco", .int m.bocos.length),
   ("nfa_b", .int ((m.cvofa.filter fun r => r.2 = -1).length : Nat)),
   ("nfa_bp", .int ((m.cvofa.filter fun r => r.2 < -1).length : Nat))]

/-- `export_mesh` (reader_legacy.py:138-162). -/
def exportMesh (r : RData) : Py FullMesh := do
  let m ← (Mesh.new r.mesh.cv.toNat r.mesh.no.toNat).setCoordsNd r.mesh.coords
  let f2n ← ElemConn.empty.importCompressed r.mesh.csr
  let m ← m.addFaces "mixed" f2n (some (some r.mesh.cvofa))
  let m := r.mesh.bocos.foldl Mesh.addBoco m
  return { mesh := m, cells := ⟨some r.vars.attrs, r.vars.cells⟩, nodes := r.vars.nodes
           params := r.sim.foldl (fun d p => d.set p.1 p.2) (paramsOf r.mesh)
           partition := some (some ⟨some r.mesh.npart, r.mesh.icvpart⟩) }

/-- `reader(filename)`, `read_data()`, `export_mesh()`. -/
def readIc3 (integ : Bool) (file : Bytes) : Py FullMesh := do
  let r ← readData integ file
  exportMesh r

end Cfd.Ic3

import Verif.Model.Ic3Reader

/-!
# Model of the IC3 V4 files (cfdtools/ic3/writerV4.py, readerV4.py)

A V4 mesh or solution is an HDF5 file. It is modelled by its content: attributes and one-dimensional
datasets, under the names the code gives to them. What h5py is assumed to do:
* a dataset is read back with the values written;
* numbers written with `dtype='i4'` that fit 32 bits are kept; what happens to the others (error,
  clipping or wrapping, according to the versions) is a parameter (`H5.i4`);
* fixed length strings of 128 bytes: longer labels are cut, trailing null characters are lost
  (labels are supposed to be ASCII and without `/`);
* the links of a group are enumerated in the order of their names.

Simplifications
* only the final content is modelled: when the writer raises, the truncated file it leaves is not;
* informative attributes (versions, synonyms) and the array `slicing` of a mark are not kept; of the
  latter only the exceptions of its computation are;
* `str.lower`, `str.upper` are the ASCII ones.
-/

namespace Cfd.Ic3

/-- What h5py makes of an integer stored with `dtype='i4'`. -/
structure H5 where
  i4 : Int → Py Int

/-- Content of a mesh file (writerV4.py:81-180). `perio` holds the datasets
`Boundaries/<name>/periodic_transform`. -/
structure MeshFile where
  no : Nat
  fa : Nat
  cv : Nat
  coordinates : List F64
  cells : Dict String (List (List Int))
  cvofa : List Int
  noofaI : List Int
  noofaV : List Int
  labels : List String
  offsets : List Int
  kinds : List Int
  perio : Dict String (List F64)
  deriving DecidableEq, Repr

/-- Content of the group `VolumeStats` (writerV4.py:245-253): attributes and datasets. -/
structure StatsGroup where
  wgts : Dict String SimVal
  data : Dict String (List F64)
  deriving DecidableEq, Repr

/-- Content of a solution file (writerV4.py:205-255). -/
structure SolFile where
  step : SimVal
  time : SimVal
  data : Dict String (List F64)
  stats : Option StatsGroup
  deriving DecidableEq, Repr

/-- A label as the file keeps it (`string_dtype(encoding='utf-8', length=128)`, writerV4.py:175). -/
def h5label (s : String) : String :=
  String.ofList (((s.toList.take 128).reverse.dropWhile (· = '\x00')).reverse)

/-- One mark (writerV4.py:140-162): first face, label, kind and periodic data. The dataset
`periodic_transform` has 3 values (ValueError if there are fewer). -/
def zoneV4 (p : String × Mark) : Py ((Int × String × Int) × Option (List F64)) := do
  pyAssert (decide (p.1 = p.2.name))
  pyAssert p.2.onFaces
  pyAssert (decide (p.2.type ∈ type2zonekind.keys))
  match p.2.index with
  | .range a _ => do
      let kind ← type2zonekind.getE p.2.type
      match p.2.perio with
      | none => return ((a, p.1, kind), none)
      | some pt =>
          if pt.length < 3 then .error .value
          else return ((a, p.1, kind), some (pt.take 3))
  | _ => .error .assertion

/-- Names of the datasets of `Boundaries`: a group cannot have the same name (ValueError). -/
def reservedLabels : List String := ["labels", "offsets", "kinds"]

/-- `sorted(zip(min_range, labels, kinds), key=lambda x: x[0])` (writerV4.py:171). -/
def sortZones (l : List (Int × String × Int)) : List (Int × String × Int) :=
  l.insertionSort fun a b => a.1 ≤ b.1

/-- `_write_boundaries` (writerV4.py:130-180): the sorted zones and the groups of periodic data. -/
def zonesV4 (w : WState) : Py (List (Int × String × Int) × Dict String (List F64)) := do
  let zs ← w.bocos.mapM zoneV4
  let perio := zs.filterMap fun z => z.2.map fun pt => (z.1.2.1, pt)
  if perio.any fun p => reservedLabels.contains p.1 then .error .value
  else return (sortZones (zs.map (·.1) ++ [(lastBoco w.bocos + 1, "internal-domain", 6)]), perio)

/-- Values of the cell connectivity (writerV4.py:108-112). -/
def cellTables (m : Mesh F64) : Dict String (List (List Int)) :=
  match m.cell2node with
  | none => []
  | some c => c.tbl.map fun p => (p.1, p.2.e2n.rows)

/-- `self.f2e.ravel()` (writerV4.py:117): `None` has no such method. -/
def ravelF2e : F2C → Py (List Int)
  | none => .error .attribute
  | some rows => .ok (rows.flatMap fun r => [r.1, r.2])

/-- The mesh file (writerV4.py:42-61, 81-180). -/
def meshFile (h5 : H5) (m : Mesh F64) (w : WState) : Py MeshFile := do
  let f2e ← ravelF2e w.f2e
  let cvofa ← f2e.mapM h5.i4
  let noofaI ← w.noofa.mapM h5.i4
  let noofaV ← w.noofaV.mapM h5.i4
  let (zs, perio) ← zonesV4 w
  let offsets ← (zs.map (·.1) ++ [(w.nfa : Int)]).mapM h5.i4
  return { no := w.nno, fa := w.nfa, cv := w.ncv
           coordinates := w.coords.flatMap fun p => [p.1, p.2.1, p.2.2]
           cells := cellTables m, cvofa := cvofa, noofaI := noofaI, noofaV := noofaV
           labels := zs.map fun z => h5label z.2.1, offsets := offsets
           kinds := zs.map fun z => z.2.2, perio := perio }

/-- Value of an attribute: a dictionary has no HDF5 equivalent (TypeError). -/
def attrValue : SimVal → Py SimVal
  | .wgts _ => .error .type
  | s => .ok s

/-- Creation of datasets one by one: an existing name is a ValueError. -/
def createAll : List (String × List F64) → Py (Dict String (List F64))
  | [] => .ok []
  | p :: t => do
      let d ← createAll t
      if d.keys.contains p.1 then .error .value else return p :: d

/-- The names of `['RHO', 'RHOU', 'RHOE']` (writerV4.py:223-225). -/
def solNames : List String := ["RHO", "RHOU", "RHOE"]

/-- `any(x in var for x in ['_AVG', '_RMS', '_REY'])` (writerV4.py:240). -/
def isStat (name : String) : Bool :=
  ["_AVG", "_RMS", "_REY"].any fun x => decide (x.toList <:+: name.toList)

/-- One solution variable (writerV4.py:225-228). -/
def solEntry (cv : Conv) (d : Dict String NpArr) (n : String) : Py (String × List F64) := do
  let a ← d.getE n
  return (n.toLower, a.doubles cv)

/-- `_write_solution_vars` (writerV4.py:215-229): nothing when one of the three variables is missing. -/
def solVars (cv : Conv) (d : Dict String NpArr) : Py (Dict String (List F64)) :=
  if solNames.all fun x => d.keys.contains x then solNames.mapM (solEntry cv d) else .ok []

/-- `_write_solution_stats` (writerV4.py:231-255). -/
def solStats (cv : Conv) (params : Dict String SimVal) (d : Dict String NpArr) : Py (Option StatsGroup) :=
  let vars := d.filter fun p => isStat p.1
  if vars.isEmpty then .ok none
  else do
    let wgts ← (params.filter fun p => decide ("_wgt".toList <:+ p.1.toList)).mapM fun p => do
      let v ← attrValue p.2
      return (p.1, v)
    let data ← createAll (vars.map fun p => (p.1.toLower, p.2.doubles cv))
    return some ⟨wgts, data⟩

/-- The solution file (writerV4.py:66-79, 205-255). -/
def solFile (cv : Conv) (f : FullMesh) : Py SolFile := do
  let step ← attrValue ((f.params.get? "step").getD (.int 0))
  let time ← attrValue ((f.params.get? "time").getD (.int 0))
  let data ← solVars cv f.cells.data
  let stats ← solStats cv f.params f.cells.data
  return ⟨step, time, data, stats⟩

/-- `writer(mesh)` then `write_data(mesh_filename, solution_filename)` (writerV4.py:34-79), the second
file being written if `sol`. -/
def writeV4 (tbl : FaceTable) (so : List Int → List Int) (h5 : H5) (cv : Conv) (f : FullMesh)
    (sol : Bool) : Py (MeshFile × Option SolFile) := do
  let m ← completeMesh tbl so f.mesh
  let w ← setMesh f m
  let mf ← meshFile h5 m w
  if sol then do
    let sf ← solFile cv f
    return (mf, some sf)
  else return (mf, none)

/-! ## Reader -/

/-- Faces to nodes (readerV4.py:164-180). -/
def readNoofaV4 (x : MeshFile) : Py Csr := do
  let index := ElemConn.offsets 0 x.noofaI
  let a ← npGet index (-2)
  let b ← npGet x.noofaI (-1)
  pyAssert (decide (a = x.noofaI.sum - b))
  let z : Csr := ⟨index, x.noofaV⟩
  let _ ← z.check
  return z

/-- Faces to cells (readerV4.py:190-198): a wrong size cannot be reshaped (ValueError). -/
def readCvofaV4 (x : MeshFile) : Py (List (Int × Int)) :=
  if x.cvofa.length ≠ x.fa * 2 then .error .value
  else match x.cvofa.max? with
    | none => .error .value
    | some mx => do
        pyAssert (decide (mx < x.cv))
        pyAssert (decide (mx = (x.cv : Int) - 1))
        return pairs x.cvofa

/-- One mark (readerV4.py:226-248). -/
def readZoneV4 (z : Csr) (perio : Dict String (List F64)) (q : String × Int × Int × Int) : Py Mark := do
  let type ← zonekind2type.getE q.2.1
  let _ ← npGet z.index q.2.2.1
  return ⟨q.1, if type = "internal" then .intface else .bdface, type, .range q.2.2.1 q.2.2.2,
    perio.get? q.1⟩

/-- `zip(labels, kinds, offsets[:-1], offsets[1:] - 1)` (readerV4.py:221-226). -/
def zoneQuads (x : MeshFile) : List (String × Int × Int × Int) :=
  x.labels.zip (x.kinds.zip (x.offsets.dropLast.zip (x.offsets.tail.map (· - 1))))

/-- Content of `self.mesh` after `_read_connectivity` (readerV4.py:144-266). There is no partition. -/
structure RMeshV4 where
  no : Nat
  fa : Nat
  cv : Nat
  csr : Csr
  cvofa : List (Int × Int)
  bocos : List Mark
  coords : List (F64 × F64 × F64)
  deriving DecidableEq, Repr

/-- `_read_connectivity` (readerV4.py:144-266). -/
def readMeshV4 (x : MeshFile) : Py RMeshV4 := do
  let csr ← readNoofaV4 x
  let cvofa ← readCvofaV4 x
  let bocos ← (zoneQuads x).mapM (readZoneV4 csr x.perio)
  if x.coordinates.length ≠ x.no * 3 then .error .value
  else return ⟨x.no, x.fa, x.cv, csr, cvofa, bocos, triples x.coordinates⟩

/-- The array made of the values of a dataset (readerV4.py:292-296); the statistics raise on an empty
array. In numpy `size // 0` is 0. -/
def fieldV4 (cv : Nat) (l : List F64) : Py NpArr :=
  let nb := l.length / cv
  if 1 < nb then
    if l.length % nb = 0 then .ok ⟨[l.length / nb, nb], .f64 l⟩ else .error .value
  else if l.isEmpty then .error .value
  else .ok ⟨[l.length], .f64 l⟩

/-- One iteration of `read_vars` (readerV4.py:290-301). -/
def readVarV4 (cv : Nat) (data : Dict String (List F64)) (cells : Dict String NpArr) (var : String) :
    Py (Dict String NpArr) := do
  let l ← data.getE var
  let a ← fieldV4 cv l
  return cells.set var.toUpper a

/-- Names of the links of a group, in the order of h5py. -/
def linkNames (d : Dict String (List F64)) : List String := d.keys.insertionSort (· ≤ ·)

/-- `_read_variables` (readerV4.py:282-306). -/
def readVarsV4 (cv : Nat) (s : SolFile) : Py (Dict String NpArr) := do
  let cells ← ["rho", "rhou", "rhoe"].foldlM (readVarV4 cv s.data) []
  match s.stats with
  | none => return cells
  | some g => (linkNames g.data).foldlM (readVarV4 cv g.data) cells

/-- `_read_informative_values` (readerV4.py:268-280): the attributes of the file, then those of
`VolumeStats`. -/
def readInfoV4 (s : SolFile) : Dict String SimVal :=
  let d : Dict String SimVal := [("step", s.step), ("time", s.time)]
  match s.stats with
  | none => d
  | some g => (g.wgts.insertionSort fun a b => a.1 ≤ b.1).foldl (fun d p => d.set p.1 p.2) d

/-- `self.mesh['params']` (readerV4.py:47-53, 149-153, 204-211, 229). -/
def paramsV4 (m : RMeshV4) : Dict String SimVal :=
  [("no_count", .int m.no), ("fa_count", .int m.fa), ("cv_count", .int m.cv),
   ("noofa_count", .int (ElemConn.diffs m.csr.index).sum), ("nboco", .int m.bocos.length),
   ("nfa_b", .int ((m.cvofa.filter fun r => r.2 = -1).length : Nat)),
   ("nfa_bp", .int ((m.cvofa.filter fun r => r.2 < -1).length : Nat))]

/-- `export_mesh` (readerV4.py:125-142): the partition is `None`. -/
def exportV4 (r : RMeshV4) (cells : Dict String NpArr) (sim : Dict String SimVal) : Py FullMesh := do
  let m ← (Mesh.new r.cv r.no).setCoordsNd r.coords
  let f2n ← ElemConn.empty.importCompressed r.csr
  let m ← m.addFaces "mixed" f2n (some (some r.cvofa))
  let m := r.bocos.foldl Mesh.addBoco m
  return { mesh := m, cells := ⟨some ⟨.dataSet, "cellaverage", 1, "instant"⟩, cells⟩, nodes := []
           params := sim.foldl (fun d p => d.set p.1 p.2) (paramsV4 r)
           partition := some none }

/-- `reader(mesh_filename, solution_filename)`, `read_data()`, `export_mesh()`. -/
def readV4 (x : MeshFile) (s : Option SolFile) : Py FullMesh := do
  let r ← readMeshV4 x
  match s with
  | none => exportV4 r [] [("step", .int 0), ("time", .int 0)]
  | some s => do
      let cells ← readVarsV4 x.cv s
      exportV4 r cells (readInfoV4 s)

end Cfd.Ic3

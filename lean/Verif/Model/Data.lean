import Mathlib.Algebra.Field.Basic
import Verif.Model.Mesh

/-!
# Model of `DataSetBase`, `DataSet`, `DataSetList` (cfdtools/data.py) and of the data of a `Mesh`

Simplifications
* values have an arbitrary type `V`; of numerical arrays only the samples, or only the number of
  samples (spectra), are kept;
* times are in a type `T` with a zero (the value for which `if time:` fails);
* `_geoprop` is in Model/DataGeo.lean; `xsize`, plotting and logging are not modelled.
-/

namespace Cfd

/-- `[lo:hi]` on a sequence of length `n`: bounds as natural numbers (Python slice rules, step 1). -/
def sliceBounds (n : Nat) (lo hi : Option Int) : Nat × Nat :=
  let clip (i : Int) : Nat := if i < 0 then (i + n).toNat else min i.toNat n
  (match lo with | none => 0 | some i => clip i, match hi with | none => n | some i => clip i)

/-- `a[lo:hi]`. -/
def pySlice {α : Type} (a : List α) (lo hi : Option Int) : List α :=
  let b := sliceBounds a.length lo hi
  (a.take b.2).drop b.1

/-- The classes of data sets. -/
inductive DataClass where
  | base | dataSet | dataSetList
  deriving DecidableEq, Repr

/-- `_available_Xrep` (data.py:15, 79, 166). -/
def DataClass.xreps : DataClass → List String
  | .base => ["nodal", "cellaverage"]
  | .dataSet => ["nodal", "cellaverage", "spectralcell"]
  | .dataSetList => ["nodal", "cellaverage", "spectralcell"]

/-- `_available_Trep` (data.py:16, 80, 167). -/
def DataClass.treps : DataClass → List String
  | .base => ["instant"]
  | .dataSet => ["instant", "timeevol", "spectrum", "spectrogram"]
  | .dataSetList => ["instant", "timeevol", "pod"]

/-- The attributes `_Xrep`, `_ndof`, `_Trep` of a data set. -/
structure DataAttrs where
  cls : DataClass
  xrep : String
  ndof : Int
  trep : String
  deriving DecidableEq, Repr

namespace DataAttrs

/-- Setter `ndof` (data.py:30-33). -/
def setNdof (a : DataAttrs) (n : Int) : Py DataAttrs := do
  pyAssert (decide (n = 1 ∨ a.xrep = "spectralcell"))
  return { a with ndof := n }

/-- Setter `Xrep` (data.py:39-42). -/
def setXrep (a : DataAttrs) (x : String) : Py DataAttrs := do
  pyAssert (decide (x ∈ a.cls.xreps))
  return { a with xrep := x }

/-- Setter `Trep` (data.py:48-52). -/
def setTrep (a : DataAttrs) (t : String) : Py DataAttrs := do
  pyAssert (decide (t ∈ a.cls.treps))
  return { a with trep := t }

/-- `DataSetBase.__init__` (data.py:18-24): the three setters, in that order. The initial values stand
for the missing attributes and are always replaced. -/
def init (cls : DataClass) (xrep : String) (ndof : Int) (trep : String) : Py DataAttrs := do
  let a ← (DataAttrs.mk cls "" 1 "").setTrep trep
  let a ← a.setXrep xrep
  a.setNdof ndof

/-- An attribute assignment. -/
inductive Assign where
  | xrep (x : String)
  | ndof (n : Int)
  | trep (t : String)
  deriving DecidableEq, Repr

/-- The assignment, and the exception it raises if any. -/
def assign (a : DataAttrs) : Assign → Py DataAttrs
  | .xrep x => a.setXrep x
  | .ndof n => a.setNdof n
  | .trep t => a.setTrep t

/-- A history of assignments: those that raise change nothing. -/
def history (a : DataAttrs) (l : List Assign) : DataAttrs :=
  l.foldl (fun a s => match a.assign s with | .ok a' => a' | .error _ => a) a

end DataAttrs

/-- `DataSet` (data.py:78-84). `time` is `_properties['time']`. -/
structure DataSet (V T : Type) where
  attrs : DataAttrs
  data : Dict String V
  time : Option T
  deriving DecidableEq, Repr

namespace DataSet
variable {V T : Type}

/-- `add_data` (data.py:86-89); `if time:` is false for zero. -/
def addData [Zero T] [DecidableEq T] (d : DataSet V T) (name : String) (v : V) (time : Option T) :
    DataSet V T :=
  { d with
    time := (match time with
      | none => d.time
      | some t => if t = 0 then d.time else some t)
    data := d.data.set name v }

end DataSet

/-- `DataSetList` (data.py:163-175): one dictionary per step, with its own `time` entry. -/
structure DataSetList (V T : Type) where
  attrs : DataAttrs
  steps : List (Dict String V × Option T)
  deriving DecidableEq, Repr

namespace DataSetList
variable {V T : Type}

/-- `add_datalist` (data.py:177-180). The dictionary given must be a new object at each call (the code
stores a reference to it and writes the time in it), and has no entry `time` (Model/DataGeo has such entries). -/
def addDatalist [Zero T] [DecidableEq T] (d : DataSetList V T) (l : Dict String V) (time : Option T) :
    DataSetList V T :=
  { d with steps := d.steps ++ [(l, match time with
      | none => none
      | some t => if t = 0 then none else some t)] }

/-- The HDF5 group name `i000012` of a step (data.py:199): `f"i{i:06}"`. -/
def groupName (i : Nat) : String :=
  let s := toString i
  "i" ++ String.ofList (List.replicate (6 - s.length) '0') ++ s

/-- `_dumphdfgroup` (data.py:193-204): one group per step with its data sets and its attributes. -/
def dumpGroup (d : DataSetList V T) : List (String × Dict String V × Option T) :=
  d.steps.zipIdx.map fun p => (groupName p.2, p.1.1, p.1.2)

end DataSetList

/-! ## Statistics and spectra -/

namespace TimeSeries
variable {K : Type} [Field K]

/-- `t[1:] - t[:-1]`. -/
def diffs (t : List K) : List K := (t.drop 1).zipWith (fun a b => a - b) t

/-- Average time step and number of samples of `dtstats` (data.py:108-112); `np.mean` of an empty
array is a nan in Python and 0 here (no claim is made about it). -/
def dtstats (t : List K) (lo hi : Option Int) : K × Nat :=
  let t' := pySlice t lo hi
  ((diffs t').sum / ((diffs t').length : K), t'.length)

end TimeSeries

/-- Shapes of the result of `dataSet_spectrogram` (data.py:133-156): number of frequencies, number of
times, and for each variable the shape of its array. -/
structure SpectroShape where
  nfreq : Nat
  ntime : Nat
  vars : List (String × Nat × Nat)
  deriving DecidableEq, Repr

/-- Number of elements of `a[lo:hi]` with natural bounds, for `n` elements. -/
def sliceLen (n lo hi : Nat) : Nat := min hi n - lo

/-- Number of elements of `a[start::step]`. -/
def strideLen (n start step : Nat) : Nat := (n - start + step - 1) / step

/-- `list.remove('time')`: ValueError when absent. -/
def removeTime (names : List String) : Py (List String) :=
  if "time" ∈ names then .ok (names.erase "time") else .error .value

/-- One window of a variable (data.py:152-154): it has to have the `2 h + 1` samples of `np.hanning`, or a single one,
otherwise numpy cannot broadcast. A missing variable is a KeyError. -/
def spectroWindow (samples : Dict String Nat) (h : Nat) (name : String) (i : Nat) : Py Unit := do
  let n ← samples.getE name
  let len := sliceLen n (h * i) (h * (i + 2) + 1)
  if len = 2 * h + 1 ∨ len = 1 then .ok () else .error .value

/-- Shape of the array of one variable (data.py:149-156): the real FFT of `2 h + 1` samples has `h + 1`
values. -/
def spectroVar (samples : Dict String Nat) (nit h : Nat) (name : String) : Py (String × Nat × Nat) := do
  let _ ← (List.range nit).mapM (spectroWindow samples h name)
  return (name, nit, h + 1 - 2)

/-- `dataSet_spectrogram` (data.py:133-156), shapes only, for a window of at least 2 samples.
`samples` gives the number of samples of each variable. `int(2 * ntot / nwind)` is computed exactly
here (the Python division is rounded to a double). -/
def spectrogram (trep : String) (samples : Dict String Nat) (filter : List String) (window : Nat) :
    Py SpectroShape := do
  let names ← removeTime (if filter = [] then samples.keys else filter)
  pyAssert (decide (trep = "timeevol") && decide ("time" ∈ samples.keys))
  let ntot ← samples.getE "time"
  let nwind := if window = 0 then ntot / 100 else window
  if nwind = 0 then .error .zeroDiv else
  let hwin := nwind / 2
  let nit := 2 * ntot / nwind - 1
  if hwin = 0 then .error .value else
  -- a negative number of windows cannot be the dimension of `np.zeros`
  if 2 * ntot / nwind = 0 ∧ names ≠ [] then .error .value else
  let vars ← names.mapM (spectroVar samples nit hwin)
  return ⟨sliceLen nwind 2 (hwin + 1), strideLen ntot hwin hwin - 1, vars⟩

/-- `np.abs(fftm.fft(self[name]))` (data.py:130), shape only: `fft` keeps the number of samples, and raises
ValueError when there is none. A missing variable is a KeyError. -/
def spectrumVar (samples : Dict String Nat) (name : String) : Py (String × Nat) := do
  let n ← samples.getE name
  if n = 0 then .error .value else .ok (name, n)

/-- `dataSet_spectrum` (data.py:120-131), shapes only: number of frequencies, and number of values of
each variable. -/
def spectrum (trep : String) (samples : Dict String Nat) (filter : List String) (lo hi : Option Int) :
    Py (Nat × List (String × Nat)) := do
  pyAssert (decide (trep = "timeevol") && decide ("time" ∈ samples.keys))
  let ntot ← samples.getE "time"
  let b := sliceBounds ntot lo hi
  let names ← removeTime (if filter = [] then samples.keys else filter)
  let vars ← names.mapM (spectrumVar samples)
  return (b.2 - b.1, vars)

/-! ## Data of a mesh -/

/-- Node data of a mesh: a plain dictionary (its initial value, or set by the user) or a `DataSet` (set
by the IC3 readers, reader_legacy.py:129 and readerV4.py:64). -/
inductive NodeData (V : Type) where
  | dict (d : Dict String V)
  | dataset (d : Dict String V)
  deriving DecidableEq, Repr

/-- The data attached to a mesh (_mesh.py:114-115): `celldata = none` is the initial `{}`. -/
structure MeshData (V : Type) where
  celldata : Option (Dict String V)
  nodedata : NodeData V
  deriving DecidableEq, Repr

namespace MeshData
variable {V : Type}

/-- Data by name. -/
def NodeData.entries : NodeData V → Dict String V
  | .dict d => d
  | .dataset d => d

/-- `pop_nodedata` (_mesh.py:322-323): a `DataSet` has no method `pop`. -/
def popNodedata (m : MeshData V) (name : String) : Py (Option V) × MeshData V :=
  match m.nodedata with
  | .dict d => match d.get? name with
      | some v => (.ok (some v), { m with nodedata := .dict (d.erase name) })
      | none => (.ok none, m)
  | .dataset d => match d.get? name with
      | some _ => (.error .attribute, m)
      | none => (.ok none, m)

/-- `pop_celldata` (_mesh.py:325-326): the data is read, not removed. A `DataSet` is always true. -/
def popCelldata (m : MeshData V) (name : String) : Py (Option V) × MeshData V :=
  match m.celldata with
  | none => (.ok none, m)
  | some d => match d.get? name with
      | some v => (.ok (some v), m)
      | none => (.error .key, m)

/-- The loop of `write_generic` over `--remove-cell-data` (_cli.py:222-227). -/
def removeCellData (m : MeshData V) : List String → Py (MeshData V)
  | [] => .ok m
  | v :: t => match m.popCelldata v with
      | (.ok _, m') => removeCellData m' t
      | (.error e, _) => .error e

end MeshData
end Cfd

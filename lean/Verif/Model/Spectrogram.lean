import Verif.Model.Spectrum

/-!
# Spectrogram of a series (data.py)

`DataSet.dataSet_spectrogram` with its values, for variables of one dimension. `numpy.fft.rfft` gives the first half of
`numpy.fft.fft` (values `0 … n / 2` of `n`); `numpy.hanning` and `numpy.log` are parameters.
-/

namespace Cfd.Spectrum

/-- The numbers of numpy, with the logarithm (of type `L`: it may be `-inf`) and `hanning M`. -/
structure LogNumbers (K C L : Type) extends Numbers K C where
  log : K → L
  hanning : Nat → List K

/-- A variable of the new data set: the frequencies or times, or one row per time. -/
inductive Var (K L : Type) where
  | vec (v : List K)
  | rows (v : List (List L))
  deriving DecidableEq, Repr

variable {K C L : Type}

/-- `a * np.hanning(2 * hwin + 1)` (data.py:153): a single value is repeated, other sizes raise ValueError. -/
def timesHanning [Mul K] (N : LogNumbers K C L) (h : Nat) (a : List K) : Py (List K) :=
  if a.length = 2 * h + 1 then .ok (List.zipWith (· * ·) a (N.hanning (2 * h + 1)))
  else match a with
    | [v] => .ok ((N.hanning (2 * h + 1)).map fun w => v * w)
    | _ => .error .value

/-- `fftm.rfft`: the first half of the transform. -/
def rfft [CommRing C] (N : Numbers K C) (x : List K) : Py (List C) := do
  let a ← fft N x
  return a.take (x.length / 2 + 1)

/-- One row (data.py:152-154). -/
def spectroRow [Mul K] [CommRing C] (N : LogNumbers K C L) (x : List K) (h i : Nat) : Py (List L) := do
  let a ← timesHanning N h ((x.take (h * (i + 2) + 1)).drop (h * i))
  let b ← rfft N.toNumbers a
  return ((b.map N.abs).map N.log).drop 2

/-- The rows of one variable (data.py:148-156). -/
def addSpectrogram [Mul K] [CommRing C] (N : LogNumbers K C L) (data : Dict String (List K)) (nit h : Nat)
    (res : Dict String (Var K L)) (name : String) : Py (Dict String (Var K L)) := do
  let rows ← (List.range nit).mapM fun i => do
    let x ← data.getE name
    spectroRow N x h i
  return res.set name (.rows rows)

/-- `a[start::step]`, `step` not 0. -/
def everyFrom {α : Type} (a : List α) (start step : Nat) : List α :=
  (List.range (strideLen a.length start step)).filterMap fun i => a[start + step * i]?

/-- `window if window else int(ntot / 100)` (data.py:141). -/
def windowSize (window ntot : Nat) : Nat := if window = 0 then ntot / 100 else window

/-- `DataSet.dataSet_spectrogram` (data.py:133-157): the variables of the new data set. The warning on the deviation of the time
steps (138-139) is not represented; `int(2 * ntot / nwind)` is exact. -/
def dataSetSpectrogram [Field K] [CommRing C] (N : LogNumbers K C L) (trep : String) (data : Dict String (List K))
    (filter : List String) (window : Nat) : Py (Dict String (Var K L)) := do
  let names ← removeTime (if filter = [] then data.keys else filter)
  pyAssert (decide (trep = "timeevol") && decide ("time" ∈ data.keys))
  let t ← data.getE "time"
  let s := TimeSeries.dtstats t none none
  let nwind := windowSize window s.2
  if nwind = 0 then .error .zeroDiv else
  let hwin := nwind / 2
  let freq := ((fftfreq nwind s.1).take (hwin + 1)).drop 2
  let nit := 2 * s.2 / nwind - 1
  if hwin = 0 then .error .value else
  let time := (everyFrom t hwin hwin).dropLast
  -- a negative number of windows cannot be the dimension of `np.zeros`
  if 2 * s.2 / nwind = 0 ∧ names ≠ [] then .error .value else
  names.foldlM (addSpectrogram N data nit hwin) [("freq", .vec freq), ("time", .vec time)]

end Cfd.Spectrum

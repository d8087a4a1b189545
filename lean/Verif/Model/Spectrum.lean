import Verif.Model.Data

/-!
# Spectrum of a series (data.py)

`DataSet.dataSet_spectrum` with the values of the series, for variables of one dimension (one value per sample). The transforms of
numpy are modelled by their documented definitions, in exact arithmetic:

* `numpy.fft.fft(a)`: `A_k = sum_m a_m exp(-2 pi i m k / n)`, ValueError without sample;
* `numpy.fft.fftfreq(n, d)`: `[0, 1, ..., -1] / (n d)`.
-/

namespace Cfd.Spectrum

/-- The numbers of numpy: reals `K` in complex numbers `C`, `root n = exp(-2 pi i / n)`, the modulus. -/
structure Numbers (K C : Type) where
  embed : K → C
  root : Nat → C
  abs : C → K

variable {K C : Type}

/-- `numpy.fft.fft` on a list of reals, as documented. -/
def fft [CommRing C] (N : Numbers K C) (x : List K) : Py (List C) :=
  if x = [] then .error .value
  else .ok ((List.range x.length).map fun k => (x.zipIdx.map fun p => N.embed p.1 * N.root x.length ^ (p.2 * k)).sum)

/-- `numpy.fft.fftfreq`: `arange(0, (n - 1) // 2 + 1)` followed by `arange(-(n // 2), 0)`, times `1 / (n d)`. -/
def fftfreq [Field K] (n : Nat) (d : K) : List K :=
  ((List.range ((n + 1) / 2)).map (fun k : Nat => (k : K)) ++ (List.range (n / 2)).map (fun k : Nat => (k : K) - (n / 2 : Nat))).map
    fun v => v * (1 / (n * d))

/-- `newdataset.add_data(name, np.abs(fftm.fft(self[name])))` (data.py:130). -/
def addSpectrum [CommRing C] (N : Numbers K C) (data res : Dict String (List K)) (name : String) : Py (Dict String (List K)) := do
  let x ← data.getE name
  let a ← fft N x
  return res.set name (a.map N.abs)

/-- `DataSet.dataSet_spectrum` (data.py:120-131): the variables of the new data set. The warning on the deviation of the time
steps (122-123) is not represented. -/
def dataSetSpectrum [Field K] [CommRing C] (N : Numbers K C) (trep : String) (data : Dict String (List K)) (filter : List String)
    (lo hi : Option Int) : Py (Dict String (List K)) := do
  pyAssert (decide (trep = "timeevol") && decide ("time" ∈ data.keys))
  let t ← data.getE "time"
  let s := TimeSeries.dtstats t lo hi
  let names ← removeTime (if filter = [] then data.keys else filter)
  names.foldlM (addSpectrum N data) [("freq", fftfreq s.2 s.1)]

end Cfd.Spectrum

import Verif.Model.Vtk
import Verif.Model.Spectrum

/-!
# Values of the averages over planes (_vtk.py)

The numerical functions used by `vtk_zconvolution` (`ZNum` of `Model/Vtk`), for variables of one component. The functions of numpy are
modelled by their documented definitions, in exact arithmetic:

* `numpy.average(a)`: sum over number;
* `numpy.std(a)`: `sqrt(mean(abs(a - a.mean()) ** 2))`;
* `numpy.fft.fft(a, norm='ortho')`: the transform of `Model/Spectrum` times `1 / sqrt(n)`.
-/

namespace Cfd.PlaneValues
open Cfd.Spectrum Cfd.Vtk

/-- The numbers of numpy, with square root and `numpy.angle`. -/
structure ModeNumbers (K C : Type) extends Numbers K C where
  sqrt : K → K
  angle : C → K

variable {K C : Type} [Field K] [CommRing C]

/-- `np.average` (_vtk.py:305 and 345). -/
def average (x : List K) : K := x.sum / x.length

/-- `np.std` (_vtk.py:307, 330 and 353). -/
def deviation (N : ModeNumbers K C) (x : List K) : K := N.sqrt (average (x.map fun v => (v - average x) ^ 2))

/-- `np.fft.fft(data, norm='ortho', axis=0)` (_vtk.py:347) on the values of one column. -/
def fftOrtho (N : ModeNumbers K C) (x : List K) : Py (List C) := do
  let a ← fft N.toNumbers x
  return a.map fun c => c * N.embed (1 / N.sqrt x.length)

/-- `datafft[k]` for one column (_vtk.py:347-351). As the functions of `ZNum` are total this is 0 without the line `k`; `reduceVar`
raises in that case. -/
def modeValue (N : ModeNumbers K C) (k : Nat) (x : List K) : C :=
  match fftOrtho N x with
  | .ok a => a.getD k 0
  | .error _ => 0

/-- The numerical functions of `vtk_zconvolution` (_vtk.py:290-353) with positions of two components in a plane (the default
`splitcoords`). -/
def planeNumbers [Max K] (N : ModeNumbers K C) (argsort : List K → List Nat) : ZNum (K × K) K K where
  argsort := argsort
  avg := average
  std := deviation N
  posStd c := max (deviation N (c.map Prod.fst)) (deviation N (c.map Prod.snd))
  vavg := average
  vstd := deviation N
  vmode k x := N.abs (modeValue N k x)
  vphase k x := N.angle (modeValue N k x)

end Cfd.PlaneValues

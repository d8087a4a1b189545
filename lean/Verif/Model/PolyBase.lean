import Verif.Py
import Mathlib.LinearAlgebra.Matrix.Adjugate
import Mathlib.LinearAlgebra.Matrix.Determinant.Basic

/-!
# Model of polynomial bases: `cfdtools/utils/polybase.py`

Numbers are in a field (exact arithmetic); the points of `roots_legendre` are a parameter. numpy's evaluation and
derivation of series are modelled as they are written in numpy (`numpy.polynomial.polynomial.polyval`, `polyder`,
`numpy.polynomial.legendre.legval`, `legder`; the default domain and window are equal, so no change of variable).
`numpy.linalg.inv` is the inverse of an invertible matrix and an error (`LinAlgError`, a `ValueError`) otherwise. The
point `x` is a number: for an array numpy does the same for each of its points.
-/

namespace Cfd.PolyBase

/-- Keys of `polybasis_dict` (polybase.py:11). -/
inductive Series where
  | legendre
  | polynomial
  deriving DecidableEq, Repr

variable {F : Type} [Field F]

/-- `polyval`: from the last coefficient down. -/
def polyval (c : List F) (x : F) : F :=
  match c.reverse with
  | [] => 0
  | a :: t => t.foldl (fun c0 ci => ci + c0 * x) a

/-- `polyder`: `der[j - 1] = j * c[j]`, a zero for a constant. -/
def polyder (c : List F) : List F :=
  if c.length ≤ 1 then [0] else (c.zipIdx.drop 1).map fun p => (p.2 : F) * p.1

/-- The loop of `legval` on the coefficients that are left, from the last one. -/
def legLoop (x : F) : List F → Nat → F → F → F
  | [], _, c0, c1 => c0 + c1 * x
  | ci :: t, nd, c0, c1 =>
      legLoop x t (nd - 1) (ci - c1 * (((nd - 1 : Nat) - 1 : F) / (nd - 1 : Nat)))
        (c0 + c1 * x * ((2 * (nd - 1 : Nat) - 1 : F) / (nd - 1 : Nat)))

/-- `legval` (Clenshaw's recursion). -/
def legval (c : List F) (x : F) : F :=
  match c.reverse with
  | [] => 0
  | [a] => a + 0 * x
  | c1 :: c0 :: t => legLoop x t c.length c0 c1

/-- The loop of `legder` on the reversed coefficients `c[j], c[j-1], ...`: `der[j-1] = (2*j - 1)*c[j]` and
`c[j-2] += c[j]`. numpy writes the steps 2 and 1 apart, with the same values. The result is reversed as well. -/
def legderRev : List F → List F
  | [] => []
  | [_] => []
  | [c1, _] => [c1]
  | cj :: c' :: c'' :: t => (2 * ((t.length + 2 : Nat) : F) - 1) * cj :: legderRev (c' :: (c'' + cj) :: t)
termination_by l => l.length

/-- `legder`: a zero for a constant. -/
def legder (c : List F) : List F := if c.length ≤ 1 then [0] else (legderRev c.reverse).reverse

/-- `self._polyeval(c)(x)` (polybase.py:20). -/
def seriesEval (s : Series) (c : List F) (x : F) : F :=
  match s with
  | .legendre => legval c x
  | .polynomial => polyval c x

/-- `self._polyeval(c).deriv().coef` (polybase.py:21). -/
def seriesDeriv (s : Series) (c : List F) : List F :=
  match s with
  | .legendre => legder c
  | .polynomial => polyder c

/-- `self._basis[i]` (polybase.py:19). -/
def basis (i : Nat) : List F := List.replicate i 0 ++ [1]

/-- `self._gradbasis[i]` (polybase.py:21). -/
def gradbasis (s : Series) (i : Nat) : List F := seriesDeriv s (basis i)

/-- `vdm` (polybase.py:23-26): a row per basis function, a column per root. -/
def vdm (s : Series) {n : Nat} (roots : Fin n → F) : Matrix (Fin n) (Fin n) F :=
  Matrix.of fun i j => seriesEval s (basis i) (roots j)

/-- `numpy.linalg.inv`. -/
def linInv [DecidableEq F] {n : Nat} (m : Matrix (Fin n) (Fin n) F) : Py (Matrix (Fin n) (Fin n) F) :=
  if m.det = 0 then .error .value else .ok (m.det⁻¹ • m.adjugate)

/-- `interp_weights` (polybase.py:32-33), with `invvdm` (polybase.py:28-30). -/
def interpWeights [DecidableEq F] (s : Series) {n : Nat} (roots : Fin n → F) (x : F) : Py (Fin n → F) := do
  return (← linInv (vdm s roots)).mulVec fun i => seriesEval s (basis i) x

/-- `diff_weights` (polybase.py:37-38). -/
def diffWeights [DecidableEq F] (s : Series) {n : Nat} (roots : Fin n → F) (x : F) : Py (Fin n → F) := do
  return (← linInv (vdm s roots)).mulVec fun i => seriesEval s (gradbasis s i) x

end Cfd.PolyBase

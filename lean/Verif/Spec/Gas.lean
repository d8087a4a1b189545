import Verif.Spec.Probes
import Mathlib.Analysis.SpecialFunctions.Pow.Real
import Mathlib.Analysis.SpecialFunctions.Sqrt

/-! # A perfect gas: ratio of specific heats 7/5 -/

namespace Cfd.Spec.Gas
open Cfd.Probes Cfd.Spec.Probes

/-- Real numbers; the literals of the code are decimal numbers. `steady` stands for the test on coordinates. -/
noncomputable def exactPhy (steady : List (List ℝ) → Bool) : PhyNum ℝ where
  add := (· + ·)
  sub := (· - ·)
  mul := (· * ·)
  div := (· / ·)
  pow := fun a b => a ^ b
  sqrt := fun a => √a
  log := Real.log
  lit := fun s =>
    if s = "1.4" then 7 / 5 else if s = "0.4" then 2 / 5 else if s = "1.0" then 1 else if s = "2" then 2 else if s = "5" then 5 else 0
  steady := steady

/-- Variables of the solver that a quantity depends on: pressure, density, velocity. -/
def solved (var : String) : List String :=
  if var = "Asound" ∨ var = "S" then ["P", "RHO"]
  else if var = "U" then ["U-X", "U-Y", "U-Z"]
  else if var = "Mach" then ["U-X", "U-Y", "U-Z", "P", "RHO"]
  else if var = "INVX+" ∨ var = "INVX-" then ["U-X", "P", "RHO"]
  else []

/-- The quantities that can be computed. -/
def quantities : List String := ["Asound", "S", "U", "Mach", "INVX+", "INVX-"]

/-- Value in the file of a variable, at a time and a point. -/
def inFile (file : String → Option (Raw ℝ)) (var : String) (i j : Nat) : Option ℝ :=
  ((file var).bind (fileVal var)).bind fun v => entry v i j

/-- `y` is the quantity for the pressure, density and velocity `x`. Speed of sound: `rho a^2 = 7/5 p`. Entropy: `p = rho^(7/5)
exp(2/5 S)`. Mach number: speed over speed of sound. Invariants: `5 a + u` and `5 a - u`. -/
def Law (x : String → ℝ) (var : String) (y : ℝ) : Prop :=
  (var = "Asound" → 0 < y ∧ x "RHO" * y ^ 2 = 7 / 5 * x "P") ∧
  (var = "S" → x "P" = x "RHO" ^ (7 / 5 : ℝ) * Real.exp (2 / 5 * y)) ∧
  (var = "U" → 0 ≤ y ∧ y ^ 2 = x "U-X" ^ 2 + x "U-Y" ^ 2 + x "U-Z" ^ 2) ∧
  (var = "Mach" → 0 ≤ y ∧ y ^ 2 * (7 / 5 * x "P") = x "RHO" * (x "U-X" ^ 2 + x "U-Y" ^ 2 + x "U-Z" ^ 2)) ∧
  (var = "INVX+" → ∃ a, 0 < a ∧ x "RHO" * a ^ 2 = 7 / 5 * x "P" ∧ y = 5 * a + x "U-X") ∧
  (var = "INVX-" → ∃ a, 0 < a ∧ x "RHO" * a ^ 2 = 7 / 5 * x "P" ∧ y = 5 * a - x "U-X")

end Cfd.Spec.Gas

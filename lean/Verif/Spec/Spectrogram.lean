import Verif.Model.Spectrogram
import Verif.Spec.Spectrum
import Mathlib.Analysis.SpecialFunctions.Log.Basic

/-! # Spectrograms -/

namespace Cfd.Spec.Spectrum
open Cfd.Spectrum

/-- The window of Hann over `2 h + 1` samples. -/
noncomputable def hann (h j : Nat) : ℝ := 1 / 2 - 1 / 2 * Real.cos (2 * Real.pi * j / (2 * h))

/-- Logarithm of a real, with `⊥` for -inf. -/
noncomputable def logR (x : ℝ) : WithBot ℝ := if x = 0 then ⊥ else (Real.log x : ℝ)

/-- Real and complex numbers. -/
noncomputable def exactLog : LogNumbers ℝ ℂ (WithBot ℝ) where
  toNumbers := exact
  log := logR
  hanning := fun m => (List.range m).map fun j => hann ((m - 1) / 2) j

/-- How much of an oscillation of frequency `g` there is in the `2 h + 1` samples from number `a` on, under the window of Hann:
modulus of the sum of the samples times `exp(-2 pi i g t)`, at their times `t`. -/
noncomputable def content (x t : Nat → ℝ) (h a : Nat) (g : ℝ) : ℝ :=
  ‖((List.range (2 * h + 1)).map fun j => ((hann h j * x (a + j) : ℝ) : ℂ) *
      Complex.exp (-2 * Real.pi * Complex.I * g * t (a + j))).sum‖

end Cfd.Spec.Spectrum

import Verif.Model.Spectrum
import Mathlib.Analysis.SpecialFunctions.Trigonometric.Basic
import Mathlib.Analysis.SpecialFunctions.Complex.Log

/-! # Oscillations and spectra -/

namespace Cfd.Spec.Spectrum
open Cfd.Spectrum

/-- Real and complex numbers. -/
noncomputable def exact : Numbers ℝ ℂ where
  embed := fun x => (x : ℂ)
  root := fun n => Complex.exp (-2 * Real.pi * Complex.I / n)
  abs := fun z => ‖z‖

/-- An oscillation. -/
structure Tone where
  amp : ℝ
  freq : ℝ
  phase : ℝ

/-- A mean value and oscillations, at time `t`. -/
noncomputable def signal (mean : ℝ) (tones : List Tone) (t : ℝ) : ℝ :=
  mean + (tones.map fun w => w.amp * Real.cos (2 * Real.pi * w.freq * t + w.phase)).sum

/-- `n` samples of a function of time, from `t0` with constant step `dt`. -/
def samples (n : Nat) (t0 dt : ℝ) (f : ℝ → ℝ) : List ℝ := (List.range n).map fun j : Nat => f (t0 + j * dt)

/-- An oscillation is resolved by `n` samples: a whole number of periods, at least one, of more than two samples each. -/
def Resolved (n : Nat) (dt : ℝ) (w : Tone) : Prop := ∃ m : Nat, 0 < m ∧ 2 * m < n ∧ w.freq * (n * dt) = m

/-- The line at frequency `f` of a spectrum of `n` samples has the value `a`, for the given mean and oscillations. -/
def Line (n : Nat) (mean : ℝ) (tones : List Tone) (f a : ℝ) : Prop :=
  (f = 0 → a = n * |mean|) ∧ (∀ w ∈ tones, |f| = w.freq → a = n * |w.amp| / 2) ∧
    (f ≠ 0 → (∀ w ∈ tones, |f| ≠ w.freq) → a = 0)

end Cfd.Spec.Spectrum

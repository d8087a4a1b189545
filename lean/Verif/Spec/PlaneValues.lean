import Verif.Model.PlaneValues
import Verif.Spec.Spectrum
import Verif.Spec.Vtk
import Mathlib.Analysis.SpecialFunctions.Complex.Arg

/-! # Layers of cells -/

namespace Cfd.Spec.PlaneValues
open Cfd.Spectrum Cfd.PlaneValues Cfd.Spec.Spectrum

/-- Real and complex numbers. -/
noncomputable def exactModes : ModeNumbers ℝ ℂ where
  toNumbers := exact
  sqrt := fun x => √x
  angle := fun z => Complex.arg z

/-- Distance in a plane. -/
noncomputable def planeDist (p q : ℝ × ℝ) : ℝ := √((p.1 - q.1) ^ 2 + (p.2 - q.2) ^ 2)

/-- The centers `(xy, z)` of the cells are those of `n` layers, from `z0` with constant step `h`, each with a cell in each of the
columns `cols`; the cells may be in any order. -/
def Layers (cols : List (ℝ × ℝ)) (n : Nat) (z0 h : ℝ) (xy : List (ℝ × ℝ)) (z : List ℝ) : Prop :=
  xy.length = z.length ∧
    (xy.zip z).Perm (cols.flatMap fun p => (List.range n).map fun k : Nat => (p, z0 + k * h))

/-- A mesh in layers: cells of less than 255 nodes, all with nodes of the mesh, centers in at least two layers more than `tol` apart, in
columns more than `2 tol` apart. -/
structure LayeredMesh {Q : Type} (g : Vtk.Grid Q) (cols : List (ℝ × ℝ)) (n : Nat) (z0 h tol : ℝ) (xy : List (ℝ × ℝ)) (z : List ℝ) :
    Prop where
  grid : Spec.Vtk.GridWF g
  sizes : ∀ c ∈ g.items, c.2.length < 255
  cells : z.length = g.items.length
  layers : Layers cols n z0 h xy z
  column : cols ≠ []
  several : 2 ≤ n
  tolerance : 0 ≤ tol
  step : tol < h
  apart : Spec.Vtk.Separated planeDist tol cols

/-- The functions of numpy and scipy do what they say: `argsort` sorts, the tree finds the nearest position, the sort of a list has
the same elements. -/
structure SortTools (argsort : List ℝ → List Nat) (nn : List (ℝ × ℝ) → ℝ × ℝ → Nat) (so : List Int → List Int) : Prop where
  argsort : ∀ z, Spec.Vtk.IsArgsort z (argsort z)
  nearest : ∀ ref, ref ≠ [] → Spec.Vtk.IsNearest planeDist ref (nn ref)
  sort : ∀ l, (so l).Perm l

/-- The values of a field at the centers of the cells. -/
def atCenters (f : ℝ × ℝ → ℝ → ℝ) (xy : List (ℝ × ℝ)) (z : List ℝ) : List ℝ := xy.zipWith f z

/-- The value `a` of mode `k` over `n` layers, for a field with the given oscillations. -/
def ModeOf (n : Nat) (h : ℝ) (tones : List Tone) (k : Nat) (a : ℝ) : Prop :=
  (∀ w ∈ tones, w.freq * (n * h) = k ∨ w.freq * (n * h) = n - k → a = √n * |w.amp| / 2) ∧
    ((∀ w ∈ tones, w.freq * (n * h) ≠ k ∧ w.freq * (n * h) ≠ n - k) → a = 0)

/-- The angle of an oscillation at position `z`, in `(-π, π]`. -/
def AngleAt (z : ℝ) (w : Tone) (θ : ℝ) : Prop :=
  -Real.pi < θ ∧ θ ≤ Real.pi ∧ ∃ k : ℤ, θ = 2 * Real.pi * w.freq * z + w.phase + 2 * Real.pi * k

end Cfd.Spec.PlaneValues

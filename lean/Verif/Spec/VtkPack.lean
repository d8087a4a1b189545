import Verif.Model.VtkPack
import Mathlib.Data.String.Basic
import Verif.Spec.Vtk
import Verif.Spec.Files

/-!
# Specification of packed series (C73, C74)
-/

namespace Cfd.Spec.VtkPack
open Cfd.Vtk Cfd.Xdmf Cfd.VtkPack Cfd.Spec Cfd.Spec.Vtk

variable {R V T K Loc : Type}

/-- Group of file number `i`: `i` with at least six digits. -/
def stepGroup (i : Nat) : String := "/datalist/i" ++ String.ofList (List.replicate (6 - (toString i).length) '0') ++ toString i

/-- Data set of a variable of file number `i`. -/
def varPath (i : Nat) (name : String) : String := stepGroup i ++ "/" ++ name

/-- The files named are there, with these contents. -/
def Contents (env : PackEnv R V T K) (s : Fs Loc) (names : List Name) (files : List (VtkFile R V T)) : Prop :=
  List.Forall₂ (fun n f => ∃ b, s.content (s.resolve (PyPath.parse n).str) = some b ∧ env.read n b = .ok f) names files

/-- A file of a series over the grid of `f0`: the same cells in some order, up to the tolerance, and every variable with one
value per cell. Time 0 is not kept by the code (C54), and `time` is not the name of a variable. -/
structure SameSeries [LinearOrder K] [Zero T] (env : PackEnv R V T K) (f0 f : VtkFile R V T) : Prop where
  cells : ∃ σ, SameCenters env.dist env.tol (env.centers f0.grid) (env.centers f.grid) σ
  sizes : ∀ name v, f.data.get? name = some v → v.length = (env.centers f.grid).length
  names : f.data.keys.Nodup ∧ "time" ∉ f.data.keys
  time : f.time ≠ some 0

/-- The values `v` of the cells of `f`, each at the number of the cell of `f0` at the same place. -/
def Placed [LinearOrder K] (env : PackEnv R V T K) (f0 f : VtkFile R V T) (v w : List V) : Prop :=
  w.length = v.length ∧ ∀ (k j : Nat) (p r : R × R × R), (env.centers f.grid)[k]? = some p → (env.centers f0.grid)[j]? = some r →
    env.dist r p ≤ env.tol → w[j]? = v[k]?

/-- A packed file: the points and the cells of the first grid, type by type, and for each file, at its place in the list, its
time and its variables, each value at the number in the first grid of the cell at the same place; nothing else. -/
structure Packed [LinearOrder K] (env : PackEnv R V T K) (f0 : VtkFile R V T) (files : List (VtkFile R V T))
    (h : H5 R (List V) T) : Prop where
  nodes : h.sets.get? "/mesh/nodes" = some (.nodes f0.grid.points)
  cells : ∀ x ∈ vtkTypes, cellsOfType f0.grid x.2.1 ≠ [] →
    ∃ a, h.sets.get? ("/mesh/cells/" ++ x.1) = some (.cells a) ∧ a.rows = cellsOfType f0.grid x.2.1
  steps : ∀ (i : Nat) (f : VtkFile R V T), files[i]? = some f → stepGroup i ∈ h.groups ∧
    (∀ t, (stepGroup i, t) ∈ h.times ↔ f.time = some t) ∧
    ∀ name v, f.data.get? name = some v → ∃ w, h.sets.get? (varPath i name) = some (.data w) ∧ Placed env f0 f v w
  only : ∀ path ∈ h.sets.keys, path = "/mesh/nodes" ∨
    (∃ x ∈ vtkTypes, cellsOfType f0.grid x.2.1 ≠ [] ∧ path = "/mesh/cells/" ++ x.1) ∨
    ∃ (i : Nat) (f : VtkFile R V T) (name : String), files[i]? = some f ∧ name ∈ f.data.keys ∧ path = varPath i name

/-- Cell `j` of the grid has number `j` in the mesh. -/
def SameNumbers {P : Type} (g : Grid P) (c : ElemConn) : Prop :=
  ∀ (j : Nat) (cell : Int × List Int), g.items[j]? = some cell → ∃ x ∈ vtkTypes, x.2.1 = cell.1 ∧ (x.1, (j : Int), cell.2) ∈ elements c

/-- The cells are listed by increasing VTK code. -/
def CodesSorted {P : Type} (g : Grid P) : Prop := g.items.Pairwise fun a b => a.1 ≤ b.1

/-- The cells are listed by alphabetical order of the names of their types. -/
def NamesSorted {P : Type} (g : Grid P) : Prop :=
  g.items.Pairwise fun a b => ∀ x ∈ vtkTypes, ∀ y ∈ vtkTypes, x.2.1 = a.1 → y.2.1 = b.1 → x.1 ≤ y.1

end Cfd.Spec.VtkPack

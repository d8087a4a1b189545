import Verif.Spec.Cgns
import Verif.Spec.Extrude
import Verif.Spec.Gmsh
import Verif.Spec.Vtk
import Verif.Model.Files

/-!
Specification of the conversion of Gmsh and CGNS files to VTK grids: a grid is described by its points and its cells
(name of the type, nodes from 0), type by type.
-/

namespace Cfd.Spec.VtkConvert
open Cfd.Vtk Cfd.Spec.Vtk Cfd.Spec.Gmsh

/-- A cell: name of its type, nodes from 0. -/
abbrev Cell := String × List Int

/-- The grid has these points and, type by type, these cells in order. -/
structure IsGrid {P : Type} (pts : List P) (cells : List Cell) (g : Grid P) : Prop where
  points : g.points = pts
  types : ∀ t ∈ vtkTypes, cellsOfType g t.2.1 = (cells.filter fun c => c.1 = t.1).map (·.2)
  count : g.items.length = cells.length

/-- The cells of a Gmsh file. -/
def gmshCells (elts : List Elt) : List Cell := (cellsOf elts).map fun e => (e.name, e.nodes.map (· - 1))

/-- The cells of a CGNS zone: elements of the dimension of the base. -/
def cgnsCells {R : Type} (z : Cfd.Cgns.Zone R) (dim : Int) : List Cell :=
  (Cgns.kinds.filter fun k => (k.dim : Int) = dim).flatMap fun k => (Cgns.elemsOfKind z k).map fun e => (k.name, e.2)

/-- All nodes of the cells are among the first `n`. -/
def NodesExist (n : Nat) (cells : List Cell) : Prop := ∀ c ∈ cells, ∀ k ∈ c.2, 0 ≤ k ∧ k < n

/-- `L` layers of cells above quadrangles on `N` nodes: layer after layer. -/
def layers (N L : Nat) (cells : List Cell) : List Cell :=
  (List.range L).flatMap fun k => cells.map fun c => ("hexa8", sweptNodes N k c.2)

/-- Copies of the points at these heights. -/
def lifted {R : Type} [Add R] [Mul R] [Zero R] [One R] (heights : List R) (pts : List (R × R × R)) : List (R × R × R) :=
  heights.flatMap fun s => pts.map fun p => translate p (0, 0, 1) s

/-- Points with scaled coordinates, if there is a scale. -/
def scaled {R : Type} [Mul R] (s : Option (R × R × R)) (pts : List (R × R × R)) : List (R × R × R) :=
  match s with
  | none => pts
  | some s => pts.map fun p => (p.1 * s.1, p.2.1 * s.2.1, p.2.2 * s.2.2)

/-- Given enough steps, the command ends: a file which did not exist holds the bytes `enc g` of a grid `g` with these points
and cells, and no other file has changed. -/
def Written {R Loc : Type} (enc : Grid (R × R × R) → List UInt8) (run : Nat → Option (Fs Loc × Py Name)) (s : Fs Loc)
    (pts : List (R × R × R)) (cells : List Cell) : Prop :=
  ∃ n s' name g, (∀ fuel, n ≤ fuel → run fuel = some (s', .ok name)) ∧ s.content (s.resolve name) = none ∧
    s'.content (s.resolve name) = some (enc g) ∧ (∀ l, l ≠ s.resolve name → s'.content l = s.content l) ∧ IsGrid pts cells g

/-- However many steps are allowed, the command ends with an exception and no file changes, if it ends. -/
def Refused {Loc : Type} (run : Nat → Option (Fs Loc × Py Name)) (s : Fs Loc) : Prop :=
  ∀ fuel s' r, run fuel = some (s', r) → s' = s ∧ ∃ e, r = .error e

end Cfd.Spec.VtkConvert

import Verif.Model.Report
import Verif.Spec.Cube
import Mathlib.Algebra.Order.Field.Basic

/-! # What the lines printed on a mesh should say (C89) -/

namespace Cfd.Spec.Report
open Cfd.Report

section
variable {R : Type} [Field R] [LinearOrder R]

/-- `a`, `v` and `b` are the least value, the mean and the greatest value of a list. -/
structure Summary (l : List R) (a v b : R) : Prop where
  least : a ∈ l ∧ ∀ x ∈ l, a ≤ x
  mean : v = l.sum / (l.length : R)
  greatest : b ∈ l ∧ ∀ x ∈ l, x ≤ b

/-- The text gives the ends of a range, or the least and greatest numbers of a list and their number. -/
def TellsIndex : IndexList → IndexText → Prop
  | .range a b, .range a' b' => a' = a ∧ b' = b
  | .list l, .list a b n => n = l.length ∧ (a ∈ l ∧ ∀ x ∈ l, a ≤ x) ∧ b ∈ l ∧ ∀ x ∈ l, x ≤ b
  | _, _ => False

/-- The line of the elements of a type: number of rows and of nodes, numbers. -/
def TellsElems (p : String × Entry) (l : Line R) : Prop :=
  ∃ t, l = .elems p.1 (p.2.e2n.rows.length :: p.2.e2n.ncol.toList) t ∧ TellsIndex p.2.index t

/-- The lines of the cells. -/
def TellsCells : Option ElemConn → List (Line R) → Prop
  | none, ls => ls = [.noCells]
  | some c, ls => List.Forall₂ TellsElems c.tbl ls

/-- The lines of the sets of faces. -/
def TellsFaces (d : Dict String FaceSet) (ls : List (Line R)) : Prop :=
  (d = [] ∧ ls = [.noFaces]) ∨ (d ≠ [] ∧ ∃ blocks : List (List (Line R)), ls = blocks.flatten ∧
    List.Forall₂ (fun p b => ∃ t, b = .faces p.1 (p.2.f2n.tbl.map (·.1)) :: t ∧ List.Forall₂ TellsElems p.2.f2n.tbl t) d blocks)

/-- The line of a mark. -/
def TellsMark (p : String × Mark) (l : Line R) : Prop := ∃ t, l = .mark p.2.name p.2.geodim t ∧ TellsIndex p.2.index t

/-- Number of elements of a line. -/
def lineCount : Line R → Nat
  | .elems _ (n :: _) _ => n
  | _ => 0

/-- The side of the cube orthogonal to `ax` at `pos`: its lowest corner. -/
def lowCorner (ax : Axis) (pos : Nat) : Ijk := match ax with
  | .x => (pos, 0, 0)
  | .y => (0, pos, 0)
  | .z => (0, 0, pos)

/-- The highest corner. -/
def highCorner (c : Cube) (ax : Axis) (pos : Nat) : Ijk := match ax with
  | .x => (pos, c.ny, c.nz)
  | .y => (c.nx, pos, c.nz)
  | .z => (c.nx, c.ny, pos)

/-- Number of its nodes. -/
def sideSize (c : Cube) : Axis → Nat
  | .x => (c.ny + 1) * (c.nz + 1)
  | .y => (c.nx + 1) * (c.nz + 1)
  | .z => (c.nx + 1) * (c.ny + 1)

/-- A statistics line tells about these values. -/
def TellsStat (name : String) (component : Option Nat) (l : List R) (s : Stat R) : Prop :=
  s.name = name ∧ s.component = component ∧ Summary l s.min s.mean s.max

end
end Cfd.Spec.Report

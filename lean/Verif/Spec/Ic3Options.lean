import Verif.Spec.CgnsConvert
import Verif.Spec.Ic3Copy
import Verif.Spec.Ic3Extrude
import Verif.Spec.VtkConvert

/-!
Specification of the options `--remove-cell-data`, `--extrude` and `--scale` of the commands that write IC3 files.
-/

namespace Cfd.Spec.Ic3Options
open Cfd.Ic3 Cfd.Spec.Ic3 Cfd.Spec.VtkConvert

/-- Given enough steps, the command ends: a file which did not exist satisfies `P`, and no other file has changed. -/
def WrittenAs {Loc : Type} (run : Nat → Option (Fs Loc × Py Name)) (s : Fs Loc) (P : Bytes → Prop) : Prop :=
  ∃ n s' name b, (∀ fuel, n ≤ fuel → run fuel = some (s', .ok name)) ∧ s.content (s.resolve name) = none ∧
    s'.content (s.resolve name) = some b ∧ (∀ l, l ≠ s.resolve name → s'.content l = s.content l) ∧ P b

/-- If the command succeeds, a file which did not exist satisfies `P`, and no other file has changed. -/
def OnlyWrites {Loc : Type} (run : Nat → Option (Fs Loc × Py Name)) (s : Fs Loc) (P : Bytes → Prop) : Prop :=
  ∀ fuel s' name, run fuel = some (s', .ok name) → s.content (s.resolve name) = none ∧
    (∀ l, l ≠ s.resolve name → s'.content l = s.content l) ∧ ∃ b, s'.content (s.resolve name) = some b ∧ P b

/-- The IC3 file `b` is read as a layer of hexahedra above the quadrangles `q` on `N` nodes with marks `bocos`; its nodes are
at `pts`. -/
def LayerFile {R : Type} (bits : R → F64) (N : Nat) (q : Quads) (bocos : Dict String Mark) (pts : List (R × R × R))
    (integ : Bool) (b : Bytes) : Prop :=
  ∃ g lb li, readIc3 integ b = .ok g ∧ LayerRead N q bocos "fluid" lb li g.mesh ∧
    ∀ i : Nat, nodeAt g.mesh i = (pts[i]?).map fun p => (bits p.1, bits p.2.1, bits p.2.2)

/-- No IC3 file: the reader refuses it. -/
def Unreadable (b : Bytes) : Prop := ∀ integ g, readIc3 integ b ≠ .ok g

/-- The quadrangles of a Gmsh file, numbered from 0 in the order of the file. -/
def gmshQuads (elts : List Cfd.Spec.Gmsh.Elt) : Quads := (gmshCells elts).zipIdx.map fun x => ((x.2 : Int), x.1.2)

/-- The quadrangles of a CGNS zone: number of the file minus one, nodes. -/
def cgnsQuads {R : Type} (z : Cfd.Cgns.Zone R) : Quads := Cgns.elemsOfKind z ⟨7, "quad4", 4, 2⟩

/-- The zone with multiplied coordinates, if there is a scale. -/
def scaledZone {R : Type} [Mul R] (s : Option (R × R × R)) (z : Cfd.Cgns.Zone R) : Cfd.Cgns.Zone R :=
  match s with
  | none => z
  | some s => { z with x := z.x.map (· * s.1), y := z.y.map (· * s.2.1), z := z.z.map (· * s.2.2) }

/-- The mesh with multiplied coordinates, if there is a scale. -/
def scaledFull (mul : F64 → F64 → F64) (s : Option (F64 × F64 × F64)) (f : FullMesh) : FullMesh :=
  match s with
  | none => f
  | some s => { f with mesh := { f.mesh with coords := f.mesh.coords.map fun p =>
      (p.1.map (mul · s.1), p.2.1.map (mul · s.2.1), p.2.2.map (mul · s.2.2)) } }

end Cfd.Spec.Ic3Options

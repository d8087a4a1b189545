import Verif.Spec.Ic3Round
import Verif.Model.Ic3V4

/-!
Specification of what a mesh written to IC3 V4 (HDF5) files and read again must keep.
-/

namespace Cfd.Spec.Ic3
open Cfd.Ic3

/-- The HDF5 library keeps the integers that fit 32 bits. -/
def Keeps32 (h5 : H5) : Prop := ∀ n, FitsInt 4 n → h5.i4 n = .ok n

/-- The mesh fits the datasets: the number of faces is the actual one, all numbers fit 32 bits, names
of marks have at most 128 characters and do not end with a null character. -/
structure FitsV4 (m : Mesh F64) (l : List Face) : Prop where
  count : m.nface = l.length
  faces : FitsInt 4 (l.length : Int)
  numbers : ∀ f ∈ l, FitsInt 4 f.2.1 ∧ FitsInt 4 f.2.2 ∧ ∀ n ∈ f.1, FitsInt 4 n
  labels : ∀ p ∈ m.bocos, p.2.type ≠ "internal" → p.1.length ≤ 128 ∧ p.1.toList.getLast? ≠ some '\x00'

/-- Same counts, coordinates and faces (nodes and cells). -/
structure SameGeometry (m : Mesh F64) (l : List Face) (g : FullMesh) : Prop where
  ncell : g.mesh.ncell = m.ncell
  nnode : g.mesh.nnode = m.nnode
  nface : g.mesh.nface = m.nface
  coords : g.mesh.coords = m.coords
  faces : MeshFaces g.mesh l

/-- A zone of faces: first face, name, type and periodic data. -/
structure Zone where
  start : Int
  name : String
  type : String
  perio : Option (List F64)
  deriving DecidableEq, Repr

/-- The marks of a mesh which are written, as zones: of the periodic data three values are kept. -/
def zonesOf (m : Mesh F64) : List Zone :=
  (m.bocos.filter fun p => decide (p.2.type ≠ "internal")).map fun p =>
    ⟨(markRange p.2).1, p.1, p.2.type, p.2.perio.map (List.take 3)⟩

/-- A zone read as a mark: it ends before the face `next`. -/
def Zone.mark (z : Zone) (next : Int) : Mark :=
  ⟨z.name, if z.type = "internal" then .intface else .bdface, z.type, .range z.start (next - 1), z.perio⟩

/-- Zones one after the other, each one ending where the next one starts, the last one at face `n`. -/
def marksOf (zs : List Zone) (n : Int) : List Mark :=
  List.zipWith Zone.mark zs ((zs.map (·.start)).tail ++ [n])

/-- The marks read again: name, type and range of faces of each mark, its first three periodic values; the
internal zone holds the faces from `k` on; there is no other mark. -/
structure SameMarks (m : Mesh F64) (k n : Int) (g : FullMesh) : Prop where
  marks : ∀ name b, m.bocos.get? name = some b → b.type ≠ "internal" →
    g.mesh.bocos.get? name = some ⟨name, .bdface, b.type, b.index, b.perio.map (List.take 3)⟩
  internal : g.mesh.bocos.get? "internal-domain" =
    some ⟨"internal-domain", .intface, "internal", .range k (n - 1), none⟩
  others : ∀ name, name ∈ g.mesh.bocos.keys →
    name = "internal-domain" ∨ ∃ b, m.bocos.get? name = some b ∧ b.type ≠ "internal"

/-- Names of statistics. -/
def StatName (s : String) : Prop :=
  ∃ x ∈ ["_AVG", "_RMS", "_REY"], ∃ a b : List Char, s.toList = a ++ x.toList ++ b

/-- Names of the arrays a V4 solution holds. -/
def SolName (s : String) : Prop := s = "RHO" ∨ s = "RHOU" ∨ s = "RHOE" ∨ StatName s

/-- Names of averaging weights. -/
def WgtName (s : String) : Prop := ∃ a : List Char, s.toList = a ++ "_wgt".toList

/-- Arrays of `n` cells with `c` components each. -/
def Components (n c : Nat) (a : NpArr) : Prop := 1 ≤ c ∧ a.size = n * c

/-- How an array of `n` cells and `c` components is read again: values in the same order; one row per
cell, unless there is a single component. -/
def flat (cv : Conv) (n c : Nat) (a : NpArr) : NpArr :=
  ⟨if c = 1 then [n] else [n, c], .f64 (a.doubles cv)⟩

/-- Names that a change to lower case and back to upper case keeps. -/
def UpperName (s : String) : Prop := s.toLower.toUpper = s

instance (s : String) : Decidable (UpperName s) := inferInstanceAs (Decidable (_ = _))

/-- The solution read again: the conserved variables and the statistics, under the same names, and no
other array; iteration and time; averaging weights if there are statistics. -/
structure SameSolution (cv : Conv) (f : FullMesh) (n : Nat) (g : FullMesh) : Prop where
  cells : ∀ name a c, f.cells.data.get? name = some a → SolName name → Components n c a →
    g.cells.data.get? name = some (flat cv n c a)
  others : ∀ name, name ∈ g.cells.data.keys → SolName name ∧ name ∈ f.cells.data.keys
  step : ∀ v, f.params.get? "step" = some v → g.params.get? "step" = some v
  time : ∀ v, f.params.get? "time" = some v → g.params.get? "time" = some v
  weights : (∃ s ∈ f.cells.data.keys, StatName s) → ∀ name v, WgtName name →
    f.params.get? name = some v → g.params.get? name = some v

end Cfd.Spec.Ic3

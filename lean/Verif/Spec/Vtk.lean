import Verif.Model.Vtk
import Verif.Spec.Conn

/-!
# Specification of the VTK interface
-/

namespace Cfd.Spec.Vtk
open Cfd.Vtk Cfd.Spec

variable {P : Type}

/-- The point with number `q`, if there is one. -/
def pointAt (g : Grid P) (q : Int) : Option P := if 0 ≤ q then g.points[q.toNat]? else none

/-- Type of a cell and coordinates of its points in order. -/
def shownCell (g : Grid P) (k : Nat) : Option (Int × List (Option P)) :=
  g.items[k]?.map fun c => (c.1, c.2.map (pointAt g))

/-- Every cell refers to existing points, and types are VTK codes. -/
def GridWF (g : Grid P) : Prop :=
  ∀ c ∈ g.items, (0 ≤ c.1 ∧ c.1 < 256) ∧ ∀ q ∈ c.2, 0 ≤ q ∧ q < g.points.length

/-- The cells of one VTK type in order. -/
def cellsOfType (g : Grid P) (k : Int) : List (List Int) := (g.items.filter fun c => c.1 = k).map (·.2)

/-- The elements of one type in order. -/
def rowsOfType (c : ElemConn) (t : String) : List (List Int) := (elementsOf c t).map (·.2)

/-- Element types and their VTK names (documentation of VTK: `VTK_LINE` = 3, `VTK_TRIANGLE` = 5, `VTK_QUAD` = 9,
`VTK_TETRA` = 10, `VTK_HEXAHEDRON` = 12, `VTK_WEDGE` = 13, `VTK_PYRAMID` = 14), with the number of nodes. -/
def vtkTypes : List (String × Int × Nat) :=
  [("bar2", 3, 2), ("tri3", 5, 3), ("quad4", 9, 4), ("tetra4", 10, 4), ("hexa8", 12, 8), ("prism6", 13, 6), ("pyra5", 14, 5)]

/-- A grid and a connectivity have the same cells: type by type, in order. -/
def SameCells (g : Grid P) (c : ElemConn) : Prop :=
  (∀ x ∈ vtkTypes, cellsOfType g x.2.1 = rowsOfType c x.1) ∧
    g.items.length = (elements c).length

/-- A grid of the known cell types, with the right numbers of points. -/
def KnownCells (g : Grid P) : Prop :=
  ∀ c ∈ g.items, (∃ x ∈ vtkTypes, c.1 = x.2.1 ∧ c.2.length = x.2.2) ∧ ∀ q ∈ c.2, 0 ≤ q ∧ q < g.points.length

/-! ## Series of files -/

section Series
variable {K V T : Type} [LinearOrder K]

/-- A distance: symmetric, with the triangle inequality. -/
structure IsDist [Add K] (dist : P → P → K) : Prop where
  symm : ∀ a b, dist a b = dist b a
  triangle : ∀ a b c, dist a c ≤ dist a b + dist b c

/-- `nn` finds the closest position of `ref`. -/
def IsNearest (dist : P → P → K) (ref : List P) (nn : P → Nat) : Prop :=
  ∀ p, ∃ r, ref[nn p]? = some r ∧ ∀ r' ∈ ref, dist r p ≤ dist r' p

/-- Positions more than twice the tolerance apart. -/
def Separated [Add K] (dist : P → P → K) (tol : K) (ref : List P) : Prop :=
  ∀ (i j : Nat) (a b : P), ref[i]? = some a → ref[j]? = some b → i ≠ j → tol + tol < dist a b

/-- The cells of a file are those of the reference in another order: cell `i` of the file is at the place of cell
`σ i` of the reference, up to the tolerance. -/
structure SameCenters (dist : P → P → K) (tol : K) (ref ctr : List P) (σ : Nat → Nat) : Prop where
  count : ctr.length = ref.length
  range : ∀ i, i < ctr.length → σ i < ref.length
  inj : ∀ i j, i < ctr.length → j < ctr.length → σ i = σ j → i = j
  near : ∀ (i : Nat) (p r : P), ctr[i]? = some p → ref[σ i]? = some r → dist r p ≤ tol

/-- The variables kept by `read`. -/
def keptNames (filter : List String) (f : File P V T) : List String := if filter = [] then f.data.keys else filter

/-- The values stored are those of the file, each at the place of its cell in the reference. -/
def InOrder (filter : List String) (f : File P V T) (σ : Nat → Nat) (stored : Dict String (List V)) : Prop :=
  (∀ name, name ∈ stored.keys ↔ name ∈ keptNames filter f) ∧
    ∀ name v w, f.data.get? name = some v → stored.get? name = some w →
      w.length = f.centers.length ∧ ∀ i, i < f.centers.length → w[σ i]? = v[i]?

/-- A file with all the variables, one value per cell. -/
def Complete (filter : List String) (f : File P V T) : Prop :=
  ∀ name ∈ keptNames filter f, ∃ v, f.data.get? name = some v ∧ v.length = f.centers.length

end Series
/-! ## Planes -/

section Planes
variable {K V : Type} [LinearOrder K]

/-- `np.argsort`: the positions of the values, in increasing order of the values. -/
def IsArgsort (z : List K) (l : List Nat) : Prop :=
  l.Perm (List.range z.length) ∧ l.Pairwise fun i j => ∀ a b, z[i]? = some a → z[j]? = some b → a ≤ b

/-- The jump between two cells, when they are both in the mesh. -/
def Jump [Sub K] (z : List K) (tol : K) (i j : Nat) : Prop := ∃ a b, z[i]? = some a ∧ z[j]? = some b ∧ tol < b - a

/-- The cells split into planes: each cell in exactly one plane, planes in increasing order, no jump inside a plane, a
jump between two planes. -/
structure IsPlanes [Sub K] (z : List K) (tol : K) (chunks : List (List Nat)) : Prop where
  once : chunks.flatten.Perm (List.range z.length)
  sorted : chunks.flatten.Pairwise fun i j => ∀ a b, z[i]? = some a → z[j]? = some b → a ≤ b
  nonempty : ∀ c ∈ chunks, c ≠ []
  inside : ∀ c ∈ chunks, c.IsChain fun i j => ¬ Jump z tol i j
  between : chunks.IsChain fun c d => ∃ i j, c.getLast? = some i ∧ d.head? = some j ∧ Jump z tol i j

/-- Positions of the cells of a plane. -/
def positions (xy : List P) (c : List Nat) : List P := c.filterMap fun i => xy[i]?

/-- The cells of the planes in columns: row `k` has the cells of plane `k`, each at the place of the first plane it is
above. -/
structure Located (dist : P → P → K) (tol : K) (xy : List P) (chunks ik : List (List Nat)) : Prop where
  rows : List.Forall₂ (fun c r => r.Perm c) chunks ik
  near : ∀ (first : List Nat), chunks.head? = some first → ∀ r ∈ ik, ∀ (j i0 i : Nat) (p q : P),
    first[j]? = some i0 → r[j]? = some i → xy[i0]? = some p → xy[i]? = some q → dist p q ≤ tol

end Planes
/-! ## Requested arrays -/

/-- What an item of the selection says about an option. -/
def mention : SelItem → String → Option OptVal
  | .word s, key =>
      if s = "no_avg" then (if key = "avg" then some (.bool false) else none)
      else if s = key then some (.bool true) else none
  | .opts d, key => d.get? key

/-- Value of an option for a variable: the last item that mentions it, else the general value. -/
def resolved (glob : Dict String OptVal) (items : List SelItem) (key : String) : Option OptVal :=
  (items.reverse.findSome? fun i => mention i key).or (glob.get? key)

/-- Options of each selected variable: all variables when there is no selection. -/
def requested (names : List String) (glob : Dict String OptVal) (select : Option (Dict String (List SelItem)))
    (var : String) : Option (String → Option OptVal) :=
  match select with
  | none => if var ∈ names then some glob.get? else none
  | some sel => (sel.get? var).map (resolved glob)

/-- Arrays that can be computed for a variable. -/
inductive Product where
  | snapshot
  | avg
  | mode (k : Nat)
  | phase (k : Nat)
  | rms
  deriving DecidableEq

/-- Name of the array. -/
def Product.label (var : String) : Product → String
  | .snapshot => var
  | .avg => var ++ "_avg"
  | .mode k => var ++ "_k" ++ toString k
  | .phase k => var ++ "_k" ++ toString k ++ "_phase"
  | .rms => var ++ "_rms"

/-- An option is set: `True`, or a number other than 0. -/
def IsSet : OptVal → Prop
  | .bool b => b = true
  | .int n => n ≠ 0

instance : (v : OptVal) → Decidable (IsSet v)
  | .bool b => inferInstanceAs (Decidable (b = true))
  | .int n => inferInstanceAs (Decidable (n ≠ 0))

/-- Number given by an option, `True` being 1 and `False` 0. -/
def numberOf : OptVal → Int
  | .bool b => if b = true then 1 else 0
  | .int n => n

/-- The options ask for the array. -/
def Asked (o : String → Option OptVal) : Product → Prop
  | .snapshot => ∃ v, o "snapshot" = some v ∧ IsSet v
  | .avg => ∃ v, o "avg" = some v ∧ IsSet v
  | .mode k => 1 ≤ k ∧ ∃ v, o "nmode" = some v ∧ (k : Int) ≤ numberOf v
  | .phase k => (1 ≤ k ∧ ∃ v, o "nmode" = some v ∧ (k : Int) ≤ numberOf v) ∧ ∃ v, o "phase" = some v ∧ IsSet v
  | .rms => ∃ v, o "rms" = some v ∧ IsSet v

/-- Values of a variable in the cells of a column, from the first plane on. -/
def column {V : Type} (v : List V) (ik : List (List Nat)) (j : Nat) : List V :=
  ik.filterMap fun r => r[j]?.bind fun i => v[i]?

/-- Value of an array in a cell of the first plane, from the values of its column. -/
def Product.value {K V : Type} (N : ZNum P K V) : Product → List V → Option V
  | .snapshot, c => c.head?
  | .avg, c => some (N.vavg c)
  | .mode k, c => some (N.vmode k c)
  | .phase k, c => some (N.vphase k c)
  | .rms, c => some (N.vstd c)

end Cfd.Spec.Vtk

import Verif.Model.Probes

/-!
# Specification of probe data (C48)
-/

namespace Cfd.Spec.Probes
open Cfd.Probes

variable {F : Type}

/-- Variables a computed variable is made from. -/
def needs (var : String) : List String :=
  if var = "Asound" then ["P", "RHO"]
  else if var = "S" then ["P", "RHO"]
  else if var = "U" then ["U-X", "U-Y", "U-Z"]
  else if var = "Mach" then ["U", "Asound"]
  else if var = "INVX+" then ["U-X", "Asound"]
  else if var = "INVX-" then ["U-X", "Asound"]
  else []

/-- Formula of a computed variable at one point, from the values of the variables it needs. -/
def formula (N : PhyNum F) (var : String) (x : String → F) : F :=
  if var = "Asound" then N.sqrt (N.div (N.mul (N.lit "1.4") (x "P")) (x "RHO"))
  else if var = "S" then
    N.mul (N.div (N.lit "1.0") (N.lit "0.4")) (N.log (N.div (x "P") (N.pow (x "RHO") (N.lit "1.4"))))
  else if var = "U" then
    N.sqrt (N.add (N.add (N.pow (x "U-X") (N.lit "2")) (N.pow (x "U-Y") (N.lit "2"))) (N.pow (x "U-Z") (N.lit "2")))
  else if var = "Mach" then N.div (x "U") (x "Asound")
  else if var = "INVX+" then N.add (N.mul (N.lit "5") (x "Asound")) (x "U-X")
  else N.sub (N.mul (N.lit "5") (x "Asound")) (x "U-X")

/-- Shape of an array. -/
inductive Shape where
  | vec (n : Nat)
  | mat (m n : Nat)

/-- The array has the shape. -/
def HasShape : Shape → Val F → Prop
  | .vec n, .vec l => l.length = n
  | .mat m n, .mat rows => rows.length = m ∧ ∀ r ∈ rows, r.length = n
  | _, _ => False

/-- Value of an array at one point (line 0 for one dimension). -/
def entry : Val F → Nat → Nat → Option F
  | .vec l, i, j => if i = 0 then l[j]? else none
  | .mat rows, i, j => rows[i]?.bind fun r => r[j]?

/-- Coordinates, of which only one line is kept. -/
def isCoordinate (var : String) : Prop := var = "X" ∨ var = "Y" ∨ var = "Z"

instance (var : String) : Decidable (isCoordinate var) := by unfold isCoordinate; infer_instance

/-- Values in a file: the columns after the first three; one line for a coordinate. -/
def fileVal (var : String) : Raw F → Option (Val F)
  | .scalar _ => none
  | .arr (.vec l) => some (.vec (l.drop 3))
  | .arr (.mat rows) =>
      if isCoordinate var then rows.head?.map fun r => .vec (r.drop 3) else some (.mat (rows.map (·.drop 3)))

/-- The variable is loaded, or has a file, or can be computed from available ones. -/
inductive Available (loaded : Data F) (file : String → Option (Raw F)) : String → Prop
  | loaded (var : String) (v : Val F) : loaded.get? var = some v → Available loaded file var
  | file (var : String) (r : Raw F) : file var = some r → Available loaded file var
  | computed (var : String) : needs var ≠ [] → (∀ d ∈ needs var, Available loaded file d) → Available loaded file var

/-- Value of an available variable: what is loaded, else what is in the file, else given by the formula, point by
point. -/
inductive HasValue (N : PhyNum F) (loaded : Data F) (file : String → Option (Raw F)) : String → Val F → Prop
  | loaded (var : String) (v : Val F) : loaded.get? var = some v → HasValue N loaded file var v
  | file (var : String) (r : Raw F) (v : Val F) : loaded.get? var = none → file var = some r → fileVal var r = some v →
      HasValue N loaded file var v
  | computed (var : String) (v : Val F) (sh : Shape) (val : String → Val F) : loaded.get? var = none → file var = none →
      needs var ≠ [] → (∀ d ∈ needs var, HasValue N loaded file d (val d)) →
      HasShape sh v → (∀ d ∈ needs var, HasShape sh (val d)) →
      (∀ i j (x : String → F), (∀ d ∈ needs var, entry (val d) i j = some (x d)) → entry v i j = some (formula N var x)) →
      HasValue N loaded file var v

/-- A shape with at least one point. -/
def Shape.NonEmpty : Shape → Prop
  | .vec n => 0 < n
  | .mat m n => 0 < m ∧ 0 < n

/-- Files and loaded arrays can be used together: all physical variables have the same shape, coordinates do not
change with time, nothing is empty. -/
structure Consistent (N : PhyNum F) (loaded : Data F) (file : String → Option (Raw F)) (sh : Shape) : Prop where
  nonempty : sh.NonEmpty
  loaded : ∀ k v, loaded.get? k = some v → v.stats = .ok () ∧ (¬ isCoordinate k → k ≠ "time" → HasShape sh v)
  files : ∀ k r, file k = some r → ∃ v, fileVal k r = some v ∧ v.stats = .ok () ∧ (¬ isCoordinate k → HasShape sh v)
  steady : ∀ k rows, file k = some (.arr (.mat rows)) → isCoordinate k → N.steady (rows.map (·.drop 3)) = true

/-- Nothing that was loaded changes. -/
def Keeps (d d' : Data F) : Prop := ∀ k v, d.get? k = some v → d'.get? k = some v

end Cfd.Spec.Probes

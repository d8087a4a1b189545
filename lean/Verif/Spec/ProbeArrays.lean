import Verif.Spec.Plotline

/-!
# Specification of probe arrays of any shapes (C48, C75)

The values of `Verif.Spec.Probes` are for files of one shape. Here arrays may have different shapes: an operation of numpy uses a
single line or a single point for all.
-/

namespace Cfd.Spec.Probes
open Cfd.Probes

variable {F : Type}

/-- Element `i`, a single element standing for all. -/
def along {α : Type} (l : List α) (i : Nat) : Option α := if l.length = 1 then l[0]? else l[i]?

/-- Value used at time `i` and point `j`: an array of one dimension is the same at all times. -/
def broadcast : Val F → Nat → Nat → Option F
  | .vec l, _, j => along l j
  | .mat rows, i, j => (along rows i).bind fun r => along r j

/-- Lines and columns, not only one line. -/
def TwoDim : Val F → Prop
  | .vec _ => False
  | .mat _ => True

/-- Value of a variable: what is loaded, else what is in the file, else given by the formula at all times and points where all the
variables it needs have a value. -/
inductive ArrayValue (N : PhyNum F) (loaded : Data F) (file : String → Option (Raw F)) : String → Val F → Prop
  | loaded (var : String) (v : Val F) : loaded.get? var = some v → ArrayValue N loaded file var v
  | file (var : String) (r : Raw F) (v : Val F) : loaded.get? var = none → file var = some r → fileVal var r = some v →
      ArrayValue N loaded file var v
  | computed (var : String) (v : Val F) (val : String → Val F) : loaded.get? var = none → file var = none → needs var ≠ [] →
      (∀ d ∈ needs var, ArrayValue N loaded file d (val d)) →
      (TwoDim v ↔ ∃ d ∈ needs var, TwoDim (val d)) →
      (∀ i j y, broadcast v i j = some y ↔
        ∃ x : String → F, (∀ d ∈ needs var, broadcast (val d) i j = some (x d)) ∧ y = formula N var x) →
      ArrayValue N loaded file var v

/-- The times: what is loaded, else the second column of the file of a physical variable. -/
def TimeValue (loaded : Data F) (file : String → Option (Raw F)) (v : Val F) : Prop :=
  loaded.get? "time" = some v ∨
  loaded.get? "time" = none ∧ ∃ k rows t, ¬ isCoordinate k ∧ file k = some (.arr (.mat rows)) ∧
    rows.map (fun r => r[1]?) = t.map some ∧ v = .vec t

end Cfd.Spec.Probes

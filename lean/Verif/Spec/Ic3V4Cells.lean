import Verif.Spec.Ic3V4
import Verif.Spec.Ic3Writes

/-! Specification of what the IC3 V4 files can hold. -/

namespace Cfd.Spec.Ic3
open Cfd.Ic3

/-- A zone of the V4 file: under its own name, on faces, of a known type; periodic data has three values at least and a name
which is not one of those of the tables of zones. -/
structure ZoneFits (key : String) (b : Mark) : Prop where
  name : b.name = key
  faces : b.onFaces = true
  known : b.type ∈ zoneTypes
  perio : ∀ pt, b.perio = some pt → 3 ≤ pt.length ∧ key ∉ ["labels", "offsets", "kinds"]

/-- The solution can be stored: `step` and `time` are numbers; when there are statistics, so are their weights, and the names
of the statistics in lower case are distinct. -/
structure SolFits (f : FullMesh) : Prop where
  step : ∀ s, f.params.get? "step" = some s → ∀ d, s ≠ .wgts d
  time : ∀ s, f.params.get? "time" = some s → ∀ d, s ≠ .wgts d
  weights : (∃ n ∈ f.cells.data.keys, StatName n) → ∀ p ∈ f.params, WgtName p.1 → ∀ d, p.2 ≠ .wgts d
  stats : f.cells.data.Pairwise fun p q => StatName p.1 → StatName q.1 → p.1.toLower ≠ q.1.toLower

/-- The node marks of a mesh can be zones of a V4 file: short names; periodic data as for zones. -/
def MarksV4 (m : Mesh F64) : Prop :=
  ∀ p ∈ m.bocos, p.1.length ≤ 128 ∧ p.1.toList.getLast? ≠ some '\x00' ∧
    ∀ pt, p.2.perio = some pt → 3 ≤ pt.length ∧ p.1 ∉ ["labels", "offsets", "kinds"]

end Cfd.Spec.Ic3

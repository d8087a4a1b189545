import Verif.Model.Files

/-!
# Which format a command uses (C70)
-/

namespace Cfd.Spec.Commands

/-- The format `name`, of suffix `ext`, is asked for by `--fmt`, or nothing is asked for and the file name has the suffix. -/
def Uses (fmt : Option String) (filename : Name) (name ext : String) : Prop :=
  fmt = some name ∨ fmt = none ∧ (PyPath.parse filename).suffix = ext.toList

end Cfd.Spec.Commands

import Verif.Model.Shared

/-!
# Specification for shared objects (C78)
-/

namespace Cfd.Spec.Shared
open Cfd.Shared

variable {V T : Type}

/-- The operation changes the dictionary at address `r`: an assignment to it, or its addition with a time that is not zero. -/
def Changes [Zero T] (r : Nat) : Op V T → Prop
  | .add q time => q = r ∧ ∃ t, time = some t ∧ t ≠ 0
  | .put q _ _ => q = r

/-- The operation adds a step. -/
def isAdd : Op V T → Bool
  | .add _ _ => true
  | .put _ _ _ => false

/-- The `i`-th addition (from 0) is that of dictionary `r` with `time`, between the operations `before` and `later`. -/
structure Added (ops before later : List (Op V T)) (r : Nat) (time : Option T) (i : Nat) : Prop where
  split : ops = before ++ .add r time :: later
  position : (before.filter isAdd).length = i

end Cfd.Spec.Shared

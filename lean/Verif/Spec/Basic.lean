import Verif.Py

/-! Small specification vocabulary shared by several properties. -/

namespace Cfd.Spec

/-- The distinct elements of a list in order of first occurrence. -/
def firstUse {α : Type} [DecidableEq α] : List α → List α
  | [] => []
  | a :: t => a :: (firstUse t).filter (· ≠ a)

/-- `l` numbers things from 0 to `l.length - 1`, each number used once. -/
def ValidNumbering (l : List Int) : Prop :=
  l.Nodup ∧ ∀ i, i ∈ l ↔ 0 ≤ i ∧ i < l.length

end Cfd.Spec

import Verif.Model.DataGeo

/-!
# Specification: the geometry of a data set (C97)

What a call of `set_nodes` gives for each direction, in words of its arguments only.
-/

namespace Cfd.Spec

variable {K M : Type}

/-- The argument can be tested: it is not an array of several values, nor (recent numpy) an empty one. -/
def Testable (strict : Bool) : Coord K → Prop
  | .array l => l.length ≤ 1 ∧ (strict = true → l ≠ [])
  | _ => True

/-- The argument holds something: a list with values, or an array of one value that is not zero. -/
def Held [Zero K] : Coord K → Prop
  | .none => False
  | .list l => l ≠ []
  | .array l => ∃ a, l = [a] ∧ a ≠ 0

/-- A value is the one of the last element of a history that has one. -/
def IsLast {α β : Type} (has : α → β → Prop) (l : List α) (v : Option β) : Prop :=
  (v = none ∧ ∀ a ∈ l, ∀ b, ¬ has a b) ∨
  ∃ b, v = some b ∧ ∃ before a after, l = before ++ a :: after ∧ has a b ∧ ∀ a' ∈ after, ∀ b', ¬ has a' b'

/-- The call gives `x`. -/
def GivesX : GeoProp.Call K M → GeoVal K M → Prop
  | .nodes x _ _, v => v = .coord x
  | .mesh _, _ => False

/-- The call gives `y`: it holds something. -/
def GivesY [Zero K] : GeoProp.Call K M → GeoVal K M → Prop
  | .nodes _ y _, v => Held y ∧ v = .coord y
  | .mesh _, _ => False

/-- The call gives `z`: it holds something, and `y` could be tested. -/
def GivesZ [Zero K] (strict : Bool) : GeoProp.Call K M → GeoVal K M → Prop
  | .nodes _ y z, v => Testable strict y ∧ Held z ∧ v = .coord z
  | .mesh _, _ => False

/-- The call gives a mesh. -/
def GivesMesh : GeoProp.Call K M → GeoVal K M → Prop
  | .nodes _ _ _, _ => False
  | .mesh m, v => v = .mesh m

/-- What a user expects to find under a name after `set_nodes` on a new data set: what they gave, if
anything. -/
def Expected : Coord K → Option (GeoVal K M)
  | .none => none
  | c => some (.coord c)

/-- The time shown for a step: the time given if it is not zero, otherwise the entry `time` of the dictionary. -/
def TimeShown {V T : Type} [Zero T] (entry : Option (V ⊕ T)) (time : Option T) (shown : Option (V ⊕ T)) : Prop :=
  (∃ t, time = some t ∧ t ≠ 0 ∧ shown = some (.inr t)) ∨ ((time = none ∨ time = some 0) ∧ shown = entry)

end Cfd.Spec

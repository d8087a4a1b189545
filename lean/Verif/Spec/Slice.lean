/-!
# Samples selected by two bounds (C51)
-/

namespace Cfd.Spec

/-- Sample `i` of `n` is not before the lower bound; a negative bound counts from the end. -/
def fromBound (n : Nat) (lo : Option Int) (i : Nat) : Bool :=
  match lo with
  | none => true
  | some k => if k < 0 then decide (k + n ≤ i) else decide (k ≤ i)

/-- Sample `i` of `n` is before the upper bound; a negative bound counts from the end. -/
def toBound (n : Nat) (hi : Option Int) (i : Nat) : Bool :=
  match hi with
  | none => true
  | some k => if k < 0 then decide ((i : Int) < k + n) else decide ((i : Int) < k)

/-- The samples between the bounds, in order. -/
def selected {α : Type} (t : List α) (lo hi : Option Int) : List α :=
  (t.zipIdx.filter fun p => fromBound t.length lo p.2 && toBound t.length hi p.2).map (·.1)

end Cfd.Spec

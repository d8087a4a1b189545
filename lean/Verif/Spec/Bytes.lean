import Verif.Model.Bytes

/-! Specification of binary values: two's complement integers and 64-bit doubles in either byte order. -/

namespace Cfd.Spec

/-- Signed integers representable on `k` bytes. -/
def FitsInt (k : Nat) (n : Int) : Prop :=
  -(2 ^ (8 * k - 1) : Int) ≤ n ∧ n < (2 ^ (8 * k - 1) : Int)

instance (k : Nat) (n : Int) : Decidable (FitsInt k n) := inferInstanceAs (Decidable (_ ∧ _))

/-- Bytes of a list of integers on `k` bytes each. -/
def intsBytes (o : Order) (k : Nat) (l : List Int) : Bytes :=
  l.flatMap fun n => natBytes o k (n % (2 ^ (8 * k) : Int)).toNat

/-- Bytes of a list of doubles. -/
def f64sBytes (o : Order) (l : List F64) : Bytes := l.flatMap fun x => natBytes o 8 x.toNat

end Cfd.Spec

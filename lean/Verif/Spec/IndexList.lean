import Verif.Model.IndexList

/-! Specification for index lists: what a user expects of a sequence of operations, on plain lists. -/

namespace Cfd.Spec

/-- The operations offered on an index list. `add` is `self + other` with `other` a list. -/
inductive IdxOp where
  | append (l : List Int)
  | shift (n : Int)
  | addRange (a b : Int)
  | compress

/-- Effect on the enumerated indices. -/
def IdxOp.onList : IdxOp → List Int → List Int
  | append l, cur => cur ++ l
  | shift n, cur => cur.map (· + n)
  | addRange a b, cur => cur ++ pyRange a (b + 1)
  | compress, cur => cur

/-- The same operation on the object. -/
def IdxOp.onObj : IdxOp → IndexList → Py IndexList
  | append l, s => s.append l
  | shift n, s => .ok (s.shift n)
  | addRange a b, s => s.add (.range a b)
  | compress, s => s.compress

/-- `l` is made of consecutive increasing integers. -/
def Consecutive (l : List Int) : Prop := ∀ i, (h : i + 1 < l.length) → l[i + 1] = l[i] + 1

end Cfd.Spec

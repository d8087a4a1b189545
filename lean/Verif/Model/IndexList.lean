import Verif.Py

/-!
# Model of `indexlist` (cfdtools/meshbase/_connectivity.py:13-109)

The Python object has a mutable `_type` in {None, 'range', 'list'}; here the three states are the
three constructors, and mutating methods return the new state.
Simplification: list elements are integers (numpy integers and Python integers are identified).
-/

namespace Cfd

/-- State of an `indexlist` (_connectivity.py:22-28, 38-41). `range a b` has both ends included. -/
inductive IndexList where
  | unset
  | range (first last : Int)
  | list (l : List Int)
  deriving DecidableEq, Repr

namespace IndexList

/-- `size` (_connectivity.py:34-36); on an unset index `self._range` is missing or `None`,
which raises (AttributeError before any set, TypeError afterwards; one error here). -/
def size : IndexList → Py Int
  | unset => .error .attribute
  | range a b => .ok (b - a + 1)
  | list l => .ok l.length

/-- `range()` (_connectivity.py:44-48). -/
def getRange : IndexList → Py (Int × Int)
  | range a b => .ok (a, b)
  | _ => .error .runtime

/-- `list()` (_connectivity.py:56-62). -/
def toList : IndexList → Py (List Int)
  | unset => .error .runtime
  | range a b => .ok (pyRange a (b + 1))
  | list l => .ok l

/-- `append(ilist)` (_connectivity.py:79-82): the object always becomes a list. -/
def append (s : IndexList) (l : List Int) : Py IndexList := do
  let cur ← s.toList
  return .list (cur ++ l)

/-- `shift(i)` (_connectivity.py:84-88): a new object; an unset index returns `None`,
on which every later use raises, represented by `unset`. -/
def shift (s : IndexList) (i : Int) : IndexList :=
  match s with
  | unset => .unset
  | range a b => .range (a + i) (b + i)
  | list l => .list (l.map (· + i))

/-- `compress()` (_connectivity.py:90-95): compares with
`np.arange(self._list[0], self._list[0]+len(self._list))`; the empty list raises IndexError. -/
def compress (s : IndexList) : Py IndexList :=
  match s with
  | list [] => .error .index
  | list (x :: t) =>
      if x :: t = pyRange x (x + ((x :: t).length : Int)) then
        .ok (.range x ((x :: t).getLast (List.cons_ne_nil x t)))
      else .ok (.list (x :: t))
  | s => .ok s

/-- `__getitem__` with an integer (_connectivity.py:97-98). -/
def getItem (s : IndexList) (i : Int) : Py Int := do
  let l ← s.toList
  npGet l i

/-- `__add__` (_connectivity.py:100-102). -/
def add (s t : IndexList) : Py IndexList := do
  let a ← s.toList
  let b ← t.toList
  return .list (a ++ b)

end IndexList
end Cfd

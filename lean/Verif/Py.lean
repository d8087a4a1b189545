import Mathlib.Data.List.Sort

/-!
# Python level conventions

Exceptions are values (`Except PyErr`), Python dictionaries are insertion ordered association
lists, `range` and numpy integer indexing are explicit functions.
Nothing in this file is specific to cfdtools.
-/

namespace Cfd

/-- Python exceptions that the modelled code can raise. -/
inductive PyErr where
  | assertion   -- AssertionError
  | runtime     -- RuntimeError (`api.error_stop`, cfdtools/api.py:63-64)
  | key         -- KeyError
  | index       -- IndexError
  | type        -- TypeError
  | value       -- ValueError (also numpy shape mismatch)
  | name        -- NameError
  | attribute   -- AttributeError
  | struct      -- struct.error
  | zeroDiv     -- ZeroDivisionError
  | timer       -- cfdtools.api.TimerError
  | unicode     -- UnicodeDecodeError
  | os          -- OSError
  | exit        -- SystemExit (argparse)
  deriving DecidableEq, Repr

/-- Result of a Python call: a value or a raised exception. -/
abbrev Py (α : Type) := Except PyErr α

/-- `assert b` -/
def pyAssert (b : Bool) : Py Unit := if b then .ok () else .error .assertion

/-- `list(range(a, b))` on integers. -/
def pyRange (a b : Int) : List Int := (List.range (b - a).toNat).map fun (k : Nat) => a + (k : Int)

/-- `sorted` on a list of integers. -/
def sortInts (l : List Int) : List Int := l.insertionSort (· ≤ ·)

/-- Integer indexing of a sequence or of the first axis of a numpy array: negative indices count
from the end, anything else out of bounds is an IndexError. -/
def npGet {α : Type} (a : List α) (i : Int) : Py α :=
  let j := if i < 0 then i + a.length else i
  if j < 0 then .error .index
  else match a[j.toNat]? with
    | some x => .ok x
    | none => .error .index

/-- Fancy indexing `a[idx]` of a numpy array by a list of integers. -/
def npGather {α : Type} (a : List α) (idx : List Int) : Py (List α) := idx.mapM (npGet a)

/-- `a[i] = v` for one integer index (negative indices count from the end). -/
def npSet {α : Type} (a : List α) (i : Int) (v : α) : Py (List α) :=
  let j := if i < 0 then i + a.length else i
  if j < 0 ∨ (a.length : Int) ≤ j then .error .index else .ok (a.set j.toNat v)

/-- `a[idx] = vals` element by element, in order (numpy fancy assignment). -/
def npScatter {α : Type} : List α → List (Int × α) → Py (List α)
  | a, [] => .ok a
  | a, (i, v) :: t => do
      let a' ← npSet a i v
      npScatter a' t

/-- `a[lo:hi] = f(a[lo:hi])` element by element (`a[lo:hi] += v` on numpy arrays). -/
def mapSlice {α : Type} (f : α → α) (lo hi : Nat) (a : List α) : List α :=
  a.zipIdx.map fun p => if lo ≤ p.2 ∧ p.2 < hi then f p.1 else p.1

/-- `np.tile(a, n)` along the first axis. -/
def npTile {α : Type} (n : Nat) (a : List α) : List α := (List.replicate n a).flatten

/-- `for i in range(n): a[i*len:(i+1)*len] = f(i, .)`. -/
def sliceLoop {α : Type} (f : Nat → α → α) (len n : Nat) (a : List α) : List α :=
  (List.range n).foldl (fun a i => mapSlice (f i) (i * len) ((i + 1) * len) a) a

/-- Python `dict`: insertion ordered association list (keys are kept distinct by the operations). -/
abbrev Dict (K V : Type) := List (K × V)

namespace Dict
variable {K V : Type} [DecidableEq K]

/-- `d.get(k)` -/
def get? (d : Dict K V) (k : K) : Option V :=
  match d with
  | [] => none
  | (k', v) :: t => if k' = k then some v else get? t k

/-- `d[k] = v`: replaces in place or appends at the end. -/
def set (d : Dict K V) (k : K) (v : V) : Dict K V :=
  match d with
  | [] => [(k, v)]
  | (k', v') :: t => if k' = k then (k, v) :: t else (k', v') :: set t k v

/-- `d.pop(k, None)`: removal of a key. -/
def erase (d : Dict K V) (k : K) : Dict K V :=
  match d with
  | [] => []
  | (k', v') :: t => if k' = k then t else (k', v') :: erase t k

/-- `d.keys()` -/
def keys (d : Dict K V) : List K := d.map (·.1)

/-- `d.values()` -/
def vals (d : Dict K V) : List V := d.map (·.2)

/-- `d[k]` with KeyError. -/
def getE (d : Dict K V) (k : K) : Py V :=
  match d.get? k with
  | some v => .ok v
  | none => .error .key

end Dict

/-- `d[k].extend(vs)` on a `defaultdict(list)`. -/
def dictExtend {K V : Type} [DecidableEq K] (d : Dict K (List V)) (k : K) (vs : List V) :
    Dict K (List V) :=
  d.set k ((d.get? k).getD [] ++ vs)

end Cfd

import Verif.Model.Commands

/-!
# Model of the information printed: `Mesh.printinfo` and the statistics of the IC3 readers (C89)

A line is given by the values put in it, before they are formatted (`{:.3f}`, `%+.5e`, `{:12}`). Averages are exact
(`np.average` and `np.mean` round). Not represented: the line `params`, the option `detailed` (never used).
-/

namespace Cfd.Report
open Cfd.Commands

/-- What `str(index)` puts in its text (_connectivity.py:104-109): `range a to b`, or `list min:max:size = a:b:n`. -/
inductive IndexText where
  | range (first last : Int)
  | list (min max : Int) (size : Nat)
  deriving DecidableEq, Repr

/-- A line of `printinfo` (_mesh.py:371-393, _connectivity.py:226-233). -/
inductive Line (R : Type) where
  | nnode (n : Nat)
  | coord (axis : Char) (min avg max : R)
  | ncell (n : Nat)
  | elems (etype : String) (shape : List Nat) (index : IndexText)
  | noCells
  | nface (n : Nat)
  | faces (kind : String) (etypes : List String)
  | noFaces
  | bocos (names : List String)
  | mark (name : String) (geodim : GeoDim) (index : IndexText)
  deriving DecidableEq, Repr

/-- `str(index)` (_connectivity.py:104-109): `min` of an empty array raises ValueError; an unset index gives `None`, which is
not a text (TypeError). -/
def indexText : IndexList → Py IndexText
  | .unset => .error .type
  | .range a b => .ok (.range a b)
  | .list l => match l.min?, l.max? with
    | some a, some b => .ok (.list a b l.length)
    | _, _ => .error .value

/-- `shape` of a table of nodes: that of an array without rows and columns is `(0,)`. -/
def shape (a : Arr2) : List Nat := match a.ncol with
  | some k => [a.rows.length, k]
  | none => [a.rows.length]

/-- `elem_connectivity.print` (_connectivity.py:226-233), not detailed. -/
def connLines {R : Type} (c : ElemConn) : Py (List (Line R)) := c.tbl.mapM fun p => do
  let t ← indexText p.2.index
  return .elems p.1 (shape p.2.e2n) t

section
variable {R : Type} [Min R] [Max R] [Add R] [Zero R] [Div R] [NatCast R]

/-- `minavgmax(l)` (utils/maths.py:4-5): ValueError without values. -/
def minavgmax (l : List R) : Py (R × R × R) := match l.min?, l.max? with
  | some a, some b => .ok (a, l.sum / (l.length : R), b)
  | _, _ => .error .value

/-- The line of a coordinate (_mesh.py:373-376). -/
def coordLine (axis : Char) (l : List R) : Py (Line R) := do
  let s ← minavgmax l
  return .coord axis s.1 s.2.1 s.2.2

/-- The lines of the cells (_mesh.py:379-382). -/
def cellLines : Option ElemConn → Py (List (Line R))
  | some c => connLines c
  | none => .ok [.noCells]

/-- The lines of one set of faces (_mesh.py:386-387). -/
def faceLines (p : String × FaceSet) : Py (List (Line R)) := do
  let l ← connLines p.2.f2n
  return .faces p.1 p.2.f2n.tbl.keys :: l

/-- The lines of the faces (_mesh.py:384-389). -/
def facesLines (d : Dict String FaceSet) : Py (List (Line R)) :=
  if d.isEmpty then .ok [.noFaces] else do
    let l ← d.mapM faceLines
    return l.flatten

/-- The line of a mark (_mesh.py:84-85, 391-392). -/
def markLine (p : String × Mark) : Py (Line R) := do
  let t ← indexText p.2.index
  return .mark p.2.name p.2.geodim t

/-- `Mesh.printinfo()` (_mesh.py:371-393): the lines. -/
def lines (m : Mesh R) : Py (List (Line R)) :=
  match m.coords with
  | none => .error .key
  | some (x, y, z) => do
      let lx ← coordLine 'x' x
      let ly ← coordLine 'y' y
      let lz ← coordLine 'z' z
      let cells ← cellLines m.cell2node
      let faces ← facesLines m.faces
      let marks ← m.bocos.mapM markLine
      return [.nnode m.nnode, lx, ly, lz, .ncell m.ncell] ++ cells ++ [.nface m.nface] ++ faces ++
        .bocos m.bocos.keys :: marks

/-! ## Statistics of the variables -/

/-- A line of statistics: name, component if any, minimum, mean, maximum. -/
structure Stat (R : Type) where
  name : String
  component : Option Nat
  min : R
  mean : R
  max : R
  deriving DecidableEq, Repr

/-- `print_stats_scalar(name, dnp)` (reader_legacy.py:26-37, readerV4.py:309-314). -/
def scalarStats (name : String) (component : Option Nat) (l : List R) : Py (Stat R) := do
  let s ← minavgmax l
  return ⟨name, component, s.1, s.2.1, s.2.2⟩

/-- `print_stats_vector(name, dnp)` (reader_legacy.py:40-52): one line per column, each with the minimum, mean and maximum of
the whole array. -/
def vectorStats (name : String) (ncol : Nat) (rows : List (List R)) : Py (List (Stat R)) :=
  (List.range ncol).mapM fun i => scalarStats name (some i) rows.flatten

/-- Column of an array. -/
def column (rows : List (List R)) (i : Nat) : List R := rows.map fun r => r.getD i 0

/-- The statistics of a field with several columns in `readerV4` (readerV4.py:297-299). -/
def vectorStatsV4 (name : String) (ncol : Nat) (rows : List (List R)) : Py (List (Stat R)) :=
  (List.range ncol).mapM fun i => scalarStats name (some i) (column rows i)

end
end Cfd.Report

import Verif.Model.Connectivity
import Verif.Spec.Basic

/-! Specification view of an element connectivity: which elements it holds. -/

namespace Cfd.Spec

/-- Indices enumerated by an entry (nothing if unset). -/
def indicesOf (e : Entry) : List Int :=
  match e.index.toList with
  | .ok l => l
  | .error _ => []

/-- The elements of one type, in stored order: (index, nodes). -/
def elementsOf (c : ElemConn) (t : String) : List (Int × List Int) :=
  match c.tbl.get? t with
  | none => []
  | some e => (indicesOf e).zip e.e2n.rows

/-- All elements with their type, in stored order. -/
def elements (c : ElemConn) : List (String × Int × List Int) :=
  c.tbl.flatMap fun p => ((indicesOf p.2).zip p.2.e2n.rows).map fun q => (p.1, q)

/-- All indices in stored order. -/
def allIndices (c : ElemConn) : List Int := (elements c).map fun x => x.2.1

/-- One entry is consistent: as many indices as rows, rows of the announced width. -/
def EntryWF (e : Entry) : Prop :=
  (∃ l, e.index.toList = .ok l ∧ l.length = e.e2n.rows.length) ∧ e.e2n.WF

/-- A consistent connectivity: distinct types, consistent entries, right element count. -/
structure ConnWF (c : ElemConn) : Prop where
  keys : c.tbl.keys.Nodup
  entries : ∀ p ∈ c.tbl, EntryWF p.2
  nelem : c.nelem = (elements c).length

/-- Rows of successive calls numbered from 0 in the order they are given. -/
def numbered (calls : List (String × List (List Int))) : List (String × Int × List Int) :=
  (calls.flatMap fun p => p.2.map fun r => (p.1, r)).zipIdx.map fun x => (x.1.1, (x.2 : Int), x.1.2)

end Cfd.Spec

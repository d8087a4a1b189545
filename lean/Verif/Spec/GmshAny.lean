import Verif.Spec.Gmsh

/-! Specification of what is read in Gmsh files of any origin. -/

namespace Cfd.Spec.Gmsh
open Cfd.Gmsh

namespace Elt

/-- Its group: the first number after the number of tags. -/
def group (e : Elt) : Option Int := (e.tags ++ e.nodes)[0]?

/-- Its entity: the second number after the number of tags. -/
def entity (e : Elt) : Option Int := (e.tags ++ e.nodes)[1]?

end Elt

/-- Group given to the entity of an element: that of the last boundary element of this entity. -/
def lastGroup (borders : List Elt) (e : Elt) : Option Int :=
  (borders.reverse.find? fun x => x.entity = e.entity).bind Elt.group

/-- Name given to a group: the last one with this number, whatever its dimension. -/
def lastName (names : List PhysName) (g : Int) : Option String :=
  (names.reverse.find? fun p => p.tag = g).map (·.name)

/-- Boundary of an element. -/
def readBoundary (names : Option (List PhysName)) (elts : List Elt) (e : Elt) : Option String :=
  match names with
  | none => some "fluid"
  | some l => ((lastGroup (bordersOf elts) e).bind (lastName l)).filter fun f => f ≠ "fluid" ∧ f ≠ "int_fluid"

/-- What is needed to read elements: known types; some of dimension 2 or 3; as many nodes in all cells of a type, and in all
boundary elements of a type and of an entity; two numbers at least after the number of tags in boundary elements; and, if
there are names, a name for the group given to each entity. -/
structure Readable (names : Option (List PhysName)) (elts : List Elt) : Prop where
  types : ∀ e ∈ elts, e.Known
  top : 2 ≤ topDim elts
  cells : ∀ e ∈ cellsOf elts, ∀ e' ∈ cellsOf elts, e.type = e'.type → e.nodes.length = e'.nodes.length
  tags : ∀ e ∈ bordersOf elts, 2 ≤ (e.tags ++ e.nodes).length
  patches : ∀ e ∈ bordersOf elts, ∀ e' ∈ bordersOf elts, e.entity = e'.entity → e.type = e'.type →
    e.nodes.length = e'.nodes.length
  named : ∀ l, names = some l → ∀ e ∈ bordersOf elts, ∃ g, lastGroup (bordersOf elts) e = some g ∧ ∃ p ∈ l, p.tag = g

/-! ### Format 4.1 -/

/-- Group read for an entity number: the last curve is looked at first, then the surfaces, and the first one of this number
gives its first group, or the number of its bounds if it has no group; 0 if there is none. -/
def groupFound (curves surfaces : List Entity) (ent : Int) : Int :=
  match ((curves.getLast?).toList ++ surfaces).find? fun e => e.tag = ent with
  | some e => e.phys[0]?.getD (e.bounds.length : Int)
  | none => 0

/-- The elements of the blocks, with this group. -/
def eltsFound (curves surfaces : List Entity) (blocks : List EltBlock) : List Elt :=
  blocks.flatMap fun b => b.elts.map fun p => ⟨p.1, b.type, [groupFound curves surfaces b.ent, b.ent], p.2⟩

end Cfd.Spec.Gmsh

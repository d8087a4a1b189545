import Verif.Model.CgnsTree
import Verif.Spec.Cgns

/-!
# What the tree of a CGNS file tells (C88)

CGNS files are HDF5 files: bases, zones, sections of elements and conditions are groups with a label; the values of a
group are in its dataset called ` data`.
-/

namespace Cfd.Spec.Cgns
open Cfd.Cgns

variable {R : Type}

/-- Members of a group. -/
def members : Tree R → List (String × Tree R)
  | .group _ l => l
  | .dataset _ _ => []

/-- The member of that name. -/
def member (t : Tree R) (name : String) : Option (Tree R) :=
  ((members t).find? fun p => decide (p.1 = name)).map (·.2)

/-- The object with that path. -/
def follow (t : Tree R) : List String → Option (Tree R)
  | [] => some t
  | n :: rest => match member t n with
    | some u => follow u rest
    | none => none

/-- Is it a group? -/
def IsGroup (t : Tree R) : Prop := ∃ label l, t = .group label l

/-- The members with that label. -/
def labelled (t : Tree R) (label : String) : List (String × Tree R) :=
  (members t).filter fun p => decide (p.2.label = some label)

/-- The dataset with that path has these values. -/
def HasData (t : Tree R) (path : List String) (d : Data R) : Prop := ∃ label, follow t path = some (.dataset label d)

/-- The text with that path: codes of characters, in one dimension. -/
def HasText (t : Tree R) (path : List String) (s : String) : Prop :=
  ∃ n, HasData t path (.ints [n] (s.toList.map fun c => (c.toNat : Int))) ∧ ∀ c ∈ s.toList, c.toNat < 256

/-- The list of integers with that path, of any shape (a scalar apart). -/
def HasInts (t : Tree R) (path : List String) (l : List Int) : Prop := ∃ n s, HasData t path (.ints (n :: s) l)

/-- The list of reals with that path. -/
def HasReals (t : Tree R) (path : List String) (l : List R) : Prop := ∃ n, HasData t path (.reals [n] l)

/-- The first integer of the list with that path. -/
def HasFirst (t : Tree R) (path : List String) (a : Int) : Prop := ∃ n l, HasData t path (.ints [n] (a :: l))

/-- The range of elements of a section. -/
def HasRange (t : Tree R) (path : List String) (a b : Int) : Prop := ∃ n, HasData t path (.ints [n] [a, b])

/-- A table of integers whose rows begin with these counts (nodes, cells). -/
def HasCounts (t : Tree R) (path : List String) (nnode ncell : Nat) : Prop :=
  ∃ a b l, HasData t path (.ints [a, b] l) ∧ 2 ≤ a ∧ 1 ≤ b ∧ l[0]? = some (nnode : Int) ∧ l[b]? = some (ncell : Int)

/-- An optional item: there is no such member and no value, or the member has this value. -/
def Opt {α : Type} (t : Tree R) (name : String) (has : α → Prop) (v : Option α) : Prop :=
  (member t name = none ∧ v = none) ∨ ((member t name).isSome ∧ ∃ a, v = some a ∧ has a)

/-- A condition and its tree: the text in ` data`, the family if any, a list of points with a location, otherwise a
list of elements. -/
structure TellsBc (t : Tree R) (b : Bc) : Prop where
  type : ∃ s, HasText t [" data"] s
  family : Opt t "FamilyName" (HasText t ["FamilyName", " data"]) b.family
  points : Opt t "PointList" (HasInts t ["PointList", " data"]) b.points
  location : b.points.isSome → Opt t "GridLocation" (HasText t ["GridLocation", " data"]) b.location
  elems : b.points = none → Opt t "ElementList" (HasInts t ["ElementList", " data"]) b.elems

/-- A section and its tree. The range and the nodes count if the elements are needed. -/
structure TellsSection (needed : Int → Prop) (t : Tree R) (s : Section) : Prop where
  code : HasFirst t [" data"] s.cgtype
  range : needed s.cgtype → HasRange t ["ElementRange", " data"] s.first s.last
  conn : needed s.cgtype → HasInts t ["ElementConnectivity", " data"] s.conn

/-- Each name once, where it is first. -/
def firstNames : List String → List String
  | [] => []
  | n :: t => n :: (firstNames t).filter fun k => decide (k ≠ n)

/-- Pairs with distinct names: the place of the first of each name, the value of the last. -/
def lastOfEach {α : Type} (l : List (String × α)) : List (String × α) :=
  (firstNames (l.map (·.1))).filterMap fun n => (l.reverse.find? fun p => decide (p.1 = n))

/-- The groups of conditions of a zone. -/
def conditionGroups (t : Tree R) : List (String × Tree R) := labelled t "ZoneBC_t" ++ labelled t "ZoneGridConnectivity_t"

/-- The conditions of a zone. -/
def conditions (t : Tree R) : List (String × Tree R) :=
  lastOfEach ((conditionGroups t).flatMap fun g => labelled g.2 "BC_t" ++ labelled g.2 "GridConnectivity_t")

/-- The elements of this code are needed: they are cells, or faces and some condition lists faces. -/
def Needed (z : Zone R) (dim : Int) (code : Int) : Prop :=
  ∃ k ∈ kinds, k.code = code ∧ ((k.dim : Int) = dim ∨ ((k.dim : Int) = dim - 1 ∧ ∃ p ∈ z.bcs, OnFaces z p.2))

/-- A zone and its tree. -/
structure TellsZone (t : Tree R) (dim : Int) (z : Zone R) : Prop where
  type : HasText t ["ZoneType", " data"] "Unstructured"
  counts : HasCounts t [" data"] z.nnode z.ncell
  cx : HasReals t ["GridCoordinates", "CoordinateX", " data"] z.x
  cy : HasReals t ["GridCoordinates", "CoordinateY", " data"] z.y
  cz : HasReals t ["GridCoordinates", "CoordinateZ", " data"] z.z
  sections : List.Forall₂ (fun q p => p.1 = q.1 ∧ TellsSection (Needed z dim) q.2 p.2) (labelled t "Elements_t") z.sections
  groups : ∀ g ∈ conditionGroups t, IsGroup g.2
  bcs : List.Forall₂ (fun q p => p.1 = q.1 ∧ TellsBc q.2 p.2) (conditions t) z.bcs

/-- The sections of a zone have as many nodes as their ranges ask for. -/
def Complete (t : Tree R) : Prop :=
  ∀ q ∈ labelled t "Elements_t", ∀ k ∈ kinds, ∀ a b l, HasFirst q.2 [" data"] k.code →
    HasRange q.2 ["ElementRange", " data"] a b → HasInts q.2 ["ElementConnectivity", " data"] l →
    (l.length : Int) = (b - a + 1) * k.nodes

/-- The zone that is read: it has the name given, or is the only one, in the last base; the dimension is that of the
first base. -/
structure Selected (root : Tree R) (zone : Option String) (dim : Int) (t : Tree R) : Prop where
  version : ∃ d, HasData root ["CGNSLibraryVersion", " data"] d ∧ ∃ n s, d.shape = n :: s ∧ 0 < n
  groups : ∀ b ∈ labelled root "CGNSBase_t", IsGroup b.2
  first : ∃ b, (labelled root "CGNSBase_t").head? = some b ∧ HasFirst b.2 [" data"] dim
  last : ∃ b, (labelled root "CGNSBase_t").getLast? = some b ∧
    match zone with
    | some n => (labelled b.2 "Zone_t").find? (fun p => decide (p.1 = n)) = some (n, t)
    | none => ∃ n, labelled b.2 "Zone_t" = [(n, t)]

/-- The file with that tree has one zone to read, without a name given: `z`. -/
def TellsFile (root : Tree R) (dim : Int) (z : Zone R) : Prop := ∃ t, Selected root none dim t ∧ TellsZone t dim z

/-! ## The tree of a standard file (CGNS standard, SIDS/HDF5 mapping) -/

/-- Codes of the characters. -/
def textData (s : String) : Data R := .ints [s.toList.length] (s.toList.map fun c => (c.toNat : Int))

/-- A node: label, values, children. -/
def node (label : String) (d : Data R) (children : List (String × Tree R)) : Tree R :=
  .group (some label) ((" data", .dataset none d) :: children)

/-- A child if there is a value. -/
def child {α : Type} (name label : String) (value : α → Data R) : Option α → List (String × Tree R)
  | none => []
  | some a => [(name, node label (value a) [])]

/-- A list of indices. -/
def indexData (l : List Int) : Data R := .ints [l.length, 1] l

/-- A boundary condition. -/
def bcTree (b : Bc) : Tree R :=
  node "BC_t" (textData "BCWall")
    (child "FamilyName" "FamilyName_t" textData b.family ++ child "GridLocation" "GridLocation_t" textData b.location ++
     child "PointList" "IndexArray_t" indexData b.points ++ child "ElementList" "IndexArray_t" indexData b.elems)

/-- A section of elements. -/
def sectionTree (s : Section) : Tree R :=
  node "Elements_t" (.ints [2] [s.cgtype, 0])
    [("ElementRange", node "IndexRange_t" (.ints [2] [s.first, s.last]) []),
     ("ElementConnectivity", node "DataArray_t" (.ints [s.conn.length] s.conn) [])]

/-- Coordinates. -/
def coordTree (l : List R) : Tree R := node "DataArray_t" (.reals [l.length] l) []

/-- A zone. -/
def zoneTree (z : Zone R) : Tree R :=
  node "Zone_t" (.ints [3, 1] [(z.nnode : Int), (z.ncell : Int), 0])
    ([("ZoneType", node "ZoneType_t" (textData (if z.unstructured then "Unstructured" else "Structured")) []),
      ("GridCoordinates", .group (some "GridCoordinates_t")
        [("CoordinateX", coordTree z.x), ("CoordinateY", coordTree z.y), ("CoordinateZ", coordTree z.z)])] ++
     z.sections.map (fun p => (p.1, sectionTree p.2)) ++
     [("ZoneBC", .group (some "ZoneBC_t") (z.bcs.map fun p => (p.1, bcTree p.2)))])

/-- A base. -/
def baseTree (b : Base R) : Tree R :=
  node "CGNSBase_t" (.ints [2] [b.dim, 3]) (b.zones.map fun p => (p.1, zoneTree p.2))

/-- A file with these bases. -/
def fileTree (version : R) (bases : List (String × Base R)) : Tree R :=
  .group none (("CGNSLibraryVersion", node "CGNSLibraryVersion_t" (.reals [1] [version]) []) ::
    bases.map fun p => (p.1, baseTree p.2))

/-- The texts of a zone are made of characters of one byte. -/
def OneByte (z : Zone R) : Prop :=
  ∀ p ∈ z.bcs, (∀ s, p.2.family = some s → ∀ c ∈ s.toList, c.toNat < 256) ∧
    ∀ s, p.2.location = some s → ∀ c ∈ s.toList, c.toNat < 256

end Cfd.Spec.Cgns

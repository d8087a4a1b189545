import Verif.Model.Gmsh
import Verif.Spec.Mesh

/-!
Specification vocabulary for Gmsh files, following the documentation of the MSH ASCII formats 2.2 and 4.1:
what the lines of each section are, and which mesh the content describes.
-/

namespace Cfd.Spec.Gmsh
open Cfd Cfd.Gmsh

/-! ## Content of a file -/

/-- Element types of the documentation which have a counterpart: number, name here, dimension, number of nodes. -/
def documented : Dict Int (String × Nat × Nat) :=
  [(1, "bar2", 1, 2), (2, "tri3", 2, 3), (3, "quad4", 2, 4), (4, "tetra4", 3, 4), (5, "hexa8", 3, 8),
   (6, "prism6", 3, 6), (7, "pyra5", 3, 5), (15, "node1", 0, 1)]

/-- An element: its number, its type, its tags (physical group, then entity) and its nodes. -/
structure Elt where
  num : Int
  type : Int
  tags : List Int
  nodes : List Int
  deriving DecidableEq, Repr

namespace Elt

/-- Name of its type. -/
def name (e : Elt) : String := ((documented.get? e.type).getD ("", 0, 0)).1

/-- Its dimension. -/
def dim (e : Elt) : Nat := ((documented.get? e.type).getD ("", 0, 0)).2.1

/-- Its type is known and it has the right number of nodes. -/
def Supported (e : Elt) : Prop := ∃ t d, documented.get? e.type = some (t, d, e.nodes.length)

/-- Its type is known, whatever its number of nodes. -/
def Known (e : Elt) : Prop := (documented.get? e.type).isSome

instance (e : Elt) : Decidable e.Known := inferInstanceAs (Decidable (_ = true))

/-- Line of numbers of the format 2.2. -/
def line (e : Elt) : List Int := e.num :: e.type :: (e.tags.length : Int) :: (e.tags ++ e.nodes)

end Elt

/-- A physical group: dimension, number, name. -/
structure PhysName where
  dim : Int
  tag : Int
  name : String
  deriving DecidableEq, Repr

/-! ## The mesh described by a content -/

/-- Highest dimension among the elements. -/
def topDim (elts : List Elt) : Nat := elts.foldr (fun e d => max e.dim d) 0

/-- The cells: elements of highest dimension. -/
def cellsOf (elts : List Elt) : List Elt := elts.filter fun e => e.dim = topDim elts

/-- The boundary elements: one dimension less. -/
def bordersOf (elts : List Elt) : List Elt := elts.filter fun e => e.dim + 1 = topDim elts

/-- Name of the physical group of an element: the group of its dimension having its first tag as number. -/
def familyOf (names : List PhysName) (e : Elt) : Option String :=
  (names.find? fun p => p.dim = (e.dim : Int) ∧ e.tags[0]? = some p.tag).map (·.name)

/-- Boundary to which an element belongs: the name of its physical group, `fluid` and `int_fluid` being internal;
a file without names has a single boundary, called `fluid`. -/
def boundaryOf (names : Option (List PhysName)) (e : Elt) : Option String :=
  match names with
  | none => some "fluid"
  | some l => (familyOf l e).filter fun f => f ≠ "fluid" ∧ f ≠ "int_fluid"

/-- The cells of a mesh are the given elements: types in order of first use, elements of each type in the given
order with node numbers from 0, indices from 0 on. -/
structure IsCells (cells : List Elt) (c : ElemConn) : Prop where
  wf : ConnWF c
  count : c.nelem = cells.length
  types : c.tbl.keys = firstUse (cells.map Elt.name)
  rows : ∀ t, (elementsOf c t).map (·.2) =
    (cells.filter fun e => e.name = t).map fun e => e.nodes.map (· - 1)
  indices : allIndices c = pyRange 0 cells.length

/-- The marks of a mesh are the boundaries of the given elements. -/
structure IsMarks (boundary : Elt → Option String) (borders : List Elt) (bocos : Dict String Mark) : Prop where
  distinct : bocos.keys.Nodup
  names : ∀ name, name ∈ bocos.keys ↔ ∃ e ∈ borders, boundary e = some name
  marks : ∀ name b, bocos.get? name = some b → b.name = name ∧ b.geodim = .bdnode ∧ b.type = "boundary" ∧
    ∀ n, n ∈ markItems b ↔ ∃ e ∈ borders, boundary e = some name ∧ n + 1 ∈ e.nodes

/-- `m` is the mesh of these points and elements, `boundary` giving the boundary of an element. -/
structure IsMeshWith {R : Type} (pts : List (Option (R × R × R))) (boundary : Elt → Option String) (elts : List Elt)
    (m : Mesh (Option R)) : Prop where
  nnode : m.nnode = pts.length
  coords : m.coords = some (pts.map (Option.map fun q => q.1), pts.map (Option.map fun q => q.2.1),
    pts.map (Option.map fun q => q.2.2))
  ncell : m.ncell = (cellsOf elts).length
  cells : ∃ c, m.cell2node = some c ∧ IsCells (cellsOf elts) c
  marks : IsMarks boundary (bordersOf elts) m.bocos

/-- `m` is the mesh of the content of a file: points, physical names, elements. -/
structure IsMeshOf {R : Type} (pts : List (Option (R × R × R))) (names : Option (List PhysName)) (elts : List Elt)
    (m : Mesh (Option R)) : Prop where
  nnode : m.nnode = pts.length
  coords : m.coords = some (pts.map (Option.map fun q => q.1), pts.map (Option.map fun q => q.2.1),
    pts.map (Option.map fun q => q.2.2))
  ncell : m.ncell = (cellsOf elts).length
  cells : ∃ c, m.cell2node = some c ∧ IsCells (cellsOf elts) c
  marks : IsMarks (boundaryOf names) (bordersOf elts) m.bocos

/-- Conditions for the boundaries: their elements have a physical group and an entity, the elements of one
entity are in one group, all groups are named. -/
structure BordersOk (names : Option (List PhysName)) (elts : List Elt) : Prop where
  tags : ∀ e ∈ bordersOf elts, 2 ≤ e.tags.length
  entity : ∀ e ∈ bordersOf elts, ∀ e' ∈ bordersOf elts, e.tags[1]? = e'.tags[1]? → e.tags[0]? = e'.tags[0]?
  named : ∀ l, names = some l → ∀ e ∈ bordersOf elts, (familyOf l e).isSome

/-- No number is used for two physical groups (of different dimensions). -/
def DistinctGroups (names : Option (List PhysName)) : Prop := ∀ l, names = some l → (l.map (·.tag)).Nodup

/-! ## Lines of a file -/

/-- White space: the ASCII controls which are spaces (tabulations, line feeds and returns, separators), the space, and the spaces
and line breaks of Unicode. -/
def Blank (c : Char) : Prop :=
  c.toNat ∈ [0x09, 0x0A, 0x0B, 0x0C, 0x0D, 0x1C, 0x1D, 0x1E, 0x1F, 0x20, 0x85, 0xA0, 0x1680, 0x2000, 0x2001, 0x2002, 0x2003, 0x2004,
    0x2005, 0x2006, 0x2007, 0x2008, 0x2009, 0x200A, 0x2028, 0x2029, 0x202F, 0x205F, 0x3000]

/-- A text is made of these words separated by white space. -/
inductive Spells : List Char → List String → Prop
  | blank (s : List Char) (h : ∀ c ∈ s, Blank c) : Spells s []
  | word (s w rest : List Char) (ws : List String) (hs : ∀ c ∈ s, Blank c) (hw : w ≠ [])
      (hw' : ∀ c ∈ w, ¬ Blank c) (hr : ∀ c t, rest = c :: t → Blank c) (h : Spells rest ws) :
      Spells (s ++ w ++ rest) (String.ofList w :: ws)

variable {R : Type} (num : PyNum R)

/-- The words of a line are the integers `ns`. -/
def IntLine (l : List String) (ns : List Int) : Prop := List.Forall₂ (fun w n => num.int w = .ok n) l ns

/-- The words of a line are the numbers `xs`. -/
def FloatLine (l : List String) (xs : List R) : Prop := List.Forall₂ (fun w x => num.float w = .ok x) l xs

/-- The first section of this name of the file has the lines `body`. -/
def HasSection (msh : Lines) (name : String) (body : Lines) : Prop :=
  ∃ pre post, msh = pre ++ [["$" ++ name]] ++ body ++ [["$End" ++ name]] ++ post ∧
    ["$" ++ name] ∉ pre ∧ ["$End" ++ name] ∉ pre ∧ ["$End" ++ name] ∉ body

/-- ASCII file with 64 bits numbers, of a version with this integer part. -/
def IsFormat (msh : Lines) (v : Int) : Prop :=
  ∃ w a s x rest more, HasSection msh "MeshFormat" ((w :: a :: s :: rest) :: more) ∧
    num.float w = .ok x ∧ num.trunc x = .ok v ∧ num.int a = .ok 0 ∧ num.int s = .ok 8

/-- A line of physical names: dimension, number in decimal, name between quotes. -/
def NameLine (l : List String) (p : PhysName) : Prop :=
  ∃ w, num.int w = .ok p.dim ∧ l = [w, toString p.tag, "\"" ++ p.name ++ "\""]

/-- The physical names of a file. -/
def HasNames (msh : Lines) : Option (List PhysName) → Prop
  | none => ["$PhysicalNames"] ∉ msh
  | some names => ∃ head lines, HasSection msh "PhysicalNames" (head :: lines) ∧
      IntLine num head [(names.length : Int)] ∧ List.Forall₂ (NameLine num) lines names

/-! ### Format 2.2 -/

/-- A line of node: number, coordinates. -/
def NodeLine2 (l : List String) (p : Int × R × R × R) : Prop :=
  ∃ w xs, l = w :: xs ∧ num.int w = .ok p.1 ∧ FloatLine num xs [p.2.1, p.2.2.1, p.2.2.2]

/-- A file in the format 2.2: names, numbered nodes, elements. -/
structure IsMsh2 (msh : Lines) (names : Option (List PhysName)) (nodes : List (Int × R × R × R))
    (elts : List Elt) : Prop where
  format : ∃ v, v ≤ 2 ∧ IsFormat num msh v
  names : HasNames num msh names
  nodes : ∃ head lines, HasSection msh "Nodes" (head :: lines) ∧ IntLine num head [(nodes.length : Int)] ∧
    List.Forall₂ (NodeLine2 num) lines nodes
  elts : ∃ head lines, HasSection msh "Elements" (head :: lines) ∧ IntLine num head [(elts.length : Int)] ∧
    List.Forall₂ (fun l e => IntLine num l (Elt.line e)) lines elts

/-! ### Format 4.1 -/

/-- A block of nodes: dimension and number of the entity, parametric flag, numbered nodes. -/
structure NodeBlock (R : Type) where
  dim : Int
  ent : Int
  par : Int
  nodes : List (Int × R × R × R)

/-- Its lines: header, node numbers, then coordinates (followed by parameters for parametric nodes). -/
def IsNodeBlock (lines : Lines) (b : NodeBlock R) : Prop :=
  ∃ head tags coords, lines = head :: (tags ++ coords) ∧ IntLine num head [b.dim, b.ent, b.par, (b.nodes.length : Int)] ∧
    List.Forall₂ (fun l (p : Int × R × R × R) => IntLine num l [p.1]) tags b.nodes ∧
    List.Forall₂ (fun (l : List String) (p : Int × R × R × R) => FloatLine num (l.take 3) [p.2.1, p.2.2.1, p.2.2.2])
      coords b.nodes

/-- The nodes of a file: number of blocks, of nodes, smallest and largest number, then the blocks. -/
def HasNodes4 (msh : Lines) (blocks : List (NodeBlock R)) (lo hi : Int) : Prop :=
  ∃ head parts, HasSection msh "Nodes" (head :: parts.flatten) ∧
    IntLine num head [(blocks.length : Int), ((blocks.flatMap (·.nodes)).length : Int), lo, hi] ∧
    List.Forall₂ (IsNodeBlock num) parts blocks

/-- A curve, surface or volume: number, physical groups, numbers of the bounding entities. -/
structure Entity where
  tag : Int
  phys : List Int
  bounds : List Int

/-- Its line: number, six words for the box, groups and bounds, each with their number. -/
def EntityLine (l : List String) (e : Entity) : Prop :=
  ∃ w box rest, l = w :: (box ++ rest) ∧ box.length = 6 ∧ num.int w = .ok e.tag ∧
    IntLine num rest ((e.phys.length : Int) :: (e.phys ++ (e.bounds.length : Int) :: e.bounds))

/-- The entities of a file: points (their lines are not described), curves, surfaces, volumes. -/
def HasEntities (msh : Lines) (npoint : Nat) (curves surfaces volumes : List Entity) : Prop :=
  ∃ head lp lc ls lv, HasSection msh "Entities" (head :: (lp ++ lc ++ ls ++ lv)) ∧
    IntLine num head [(npoint : Int), (curves.length : Int), (surfaces.length : Int), (volumes.length : Int)] ∧
    lp.length = npoint ∧ List.Forall₂ (EntityLine num) lc curves ∧ List.Forall₂ (EntityLine num) ls surfaces ∧
    List.Forall₂ (EntityLine num) lv volumes

/-- A block of elements: dimension and number of the entity, type, numbered elements. -/
structure EltBlock where
  dim : Int
  ent : Int
  type : Int
  elts : List (Int × List Int)

/-- Its lines: header, then one line by element. -/
def IsEltBlock (lines : Lines) (b : EltBlock) : Prop :=
  ∃ head rows, lines = head :: rows ∧ IntLine num head [b.dim, b.ent, b.type, (b.elts.length : Int)] ∧
    List.Forall₂ (fun l (p : Int × List Int) => IntLine num l (p.1 :: p.2)) rows b.elts

/-- The elements of a file: number of blocks, of elements, smallest and largest number, then the blocks. -/
def HasElts4 (msh : Lines) (blocks : List EltBlock) : Prop :=
  ∃ head parts lo hi, HasSection msh "Elements" (head :: parts.flatten) ∧
    IntLine num head [(blocks.length : Int), ((blocks.flatMap (·.elts)).length : Int), lo, hi] ∧
    List.Forall₂ (IsEltBlock num) parts blocks

/-- First physical group of the entity of this dimension and number (points left out). -/
def groupOf (curves surfaces volumes : List Entity) (dim ent : Int) : Option Int :=
  ((if dim = 1 then curves else if dim = 2 then surfaces else if dim = 3 then volumes else []).find?
    fun s => s.tag = ent).bind fun s => s.phys[0]?

/-- The elements of the blocks, with the first physical group of their entity (0 if it has none) and their entity. -/
def eltsOf (curves surfaces volumes : List Entity) (blocks : List EltBlock) : List Elt :=
  blocks.flatMap fun b => b.elts.map fun p =>
    ⟨p.1, b.type, [(groupOf curves surfaces volumes b.dim b.ent).getD 0, b.ent], p.2⟩

end Cfd.Spec.Gmsh

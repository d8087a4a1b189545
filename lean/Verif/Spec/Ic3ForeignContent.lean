import Verif.Spec.Ic3Foreign
import Verif.Spec.Ic3Round

/-!
# What the sections of an IC3 file tell (C84)
-/

namespace Cfd.Spec.Ic3
open Cfd.Ic3

/-- The faces of the file: numbers of nodes then nodes in the first section of kind 21, cells in the first section of
kind 22, both of which announce the number of faces. -/
structure Tables (o : Order) (l : List Sec) (faces : List Face) : Prop where
  counts : (first 10 l).isSome = true
  number : (faces.length : Int) = (countsOf l).fa
  nodes : ∃ s, first 21 l = some s ∧ s.h.int 0 = (countsOf l).fa ∧ s.h.int 1 = (countsOf l).noofa ∧
    s.payload = intsBytes o 4 (faces.map fun a => (a.1.length : Int)) ++ intsBytes o 4 (faces.flatMap fun a => a.1)
  cells : ∃ s, first 22 l = some s ∧ s.h.int 0 = (countsOf l).fa ∧ s.h.int 1 = 2 ∧
    s.payload = intsBytes o 4 (faces.flatMap fun a => [a.2.1, a.2.2])
  fits : ∀ a ∈ faces, (∀ n ∈ a.1, FitsInt 4 n) ∧ FitsInt 4 a.2.1 ∧ FitsInt 4 a.2.2

/-- The points of the file: the first section of kind 31. -/
structure Points (o : Order) (l : List Sec) (points : List (F64 × F64 × F64)) : Prop where
  number : (points.length : Int) = (countsOf l).no
  data : ∃ s, first 31 l = some s ∧ s.h.int 0 = (countsOf l).no ∧ s.h.int 1 = 3 ∧
    s.payload = f64sBytes o (points.flatMap fun p => [p.1, p.2.1, p.2.2])

/-- The partition: the first section of kind 41. -/
structure Partition (o : Order) (l : List Sec) (npart : Int) (icv : List Int) : Prop where
  number : (icv.length : Int) = (countsOf l).cv
  data : ∃ s, first 41 l = some s ∧ s.h.int 1 = npart ∧ s.payload = intsBytes o 4 icv
  fits : ∀ n ∈ icv, FitsInt 4 n

/-- Sections up to the first zone of internal faces (6). -/
def upTo6 : List Sec → List Sec
  | [] => []
  | s :: t => if s.h.int 0 = 6 then [s] else s :: upTo6 t

/-- The zones: those after the table of cells, up to the first zone of internal faces. -/
def zonesIn (l : List Sec) : List Sec := upTo6 (only [23] (after 22 l))

/-- Types of zones. -/
def zoneType : Int → Option String
  | 1 => some "boundary"
  | 2 => some "perio_cart"
  | 3 => some "perio_cylx"
  | 4 => some "perio_cyly"
  | 5 => some "perio_cylz"
  | 6 => some "internal"
  | _ => none

/-- The mark that a zone tells. -/
def markOf (s : Sec) : Mark :=
  ⟨s.h.name, if s.h.int 0 = 6 then .intface else .bdface, (zoneType (s.h.int 0)).getD "",
    .range (s.h.int 1) (s.h.int 2), some s.h.rdata⟩

/-- The last section of that name. -/
def lastNamed (name : String) (l : List Sec) : Option Sec := l.reverse.find? fun s => decide (s.h.name = name)

/-- Scalars on nodes. -/
def nodeData (l : List Sec) : List Sec :=
  (only [32, 34, 24, 42, 45] l).filter fun s => decide (s.h.int 0 = (countsOf l).no)

/-- A number of values that is the number of cells, not of nodes or faces. -/
def onCells (c : Counts) (s : Sec) : Bool :=
  decide (s.h.int 0 ≠ c.no) && decide (s.h.int 0 ≠ c.fa) && decide (s.h.int 0 = c.cv)

/-- Scalars, vectors and tensors on cells. -/
def cellData (l : List Sec) : List Sec :=
  (only [32, 34, 24, 42, 45] l).filter (onCells (countsOf l)) ++
    ((only [33, 25, 43] l).filter (onCells (countsOf l)) ++ only [44] l)

/-- Shape of the value at each place. -/
def componentShape (s : Sec) : List Nat :=
  if s.h.id = 44 then [3, 3] else if s.h.id ∈ [33, 25, 43] then [3] else []

/-- The array is what the data of the section tell: 8-byte integers for the kinds 34 and 45, otherwise doubles; one value
for each of `n` places. -/
structure ArrayOf (o : Order) (s : Sec) (n : Int) (a : NpArr) : Prop where
  shape : a.shape = n.toNat :: componentShape s
  data : (s.h.id ∈ [34, 45] ∧ ∃ l, a.data = .i64 l ∧ s.payload = intsBytes o 8 l ∧ ∀ x ∈ l, FitsInt 8 x) ∨
    (s.h.id ∉ [34, 45] ∧ ∃ l, a.data = .f64 l ∧ s.payload = f64sBytes o l)

/-- What is found under a name is told by the section, nothing when there is none. -/
def Told {α : Type} (P : Sec → α → Prop) (s : Option Sec) (x : Option α) : Prop :=
  match s with
  | none => x = none
  | some s => ∃ a, x = some a ∧ P s a

/-- The last section for a parameter: names in lower case. -/
def lastParam (key : String) (l : List Sec) : Option Sec :=
  (only [11, 12] l).reverse.find? fun s => decide (s.h.name.toLower = key)

/-- The value of a parameter: an integer for kind 11, a double for kind 12. -/
def paramValue (s : Sec) : SimVal := if s.h.id = 11 then .int (s.h.int 0) else .f64 (s.h.rdata.getD 0 0)

/-- Parameters that no section gives. -/
def otherParams (l : List Sec) (faces : List Face) : Dict String SimVal :=
  [("step", .int 0), ("dt", .int 0), ("time", .int 0), ("wgt", .wgts []), ("no_count", .int (countsOf l).no),
   ("fa_count", .int (countsOf l).fa), ("cv_count", .int (countsOf l).cv), ("noofa_count", .int (countsOf l).noofa),
   ("nboco", .int (zonesIn l).length), ("nfa_b", .int (faces.filter fun a => decide (a.2.2 = -1)).length),
   ("nfa_bp", .int (faces.filter fun a => decide (a.2.2 < -1)).length)]

/-- Several degrees of freedom are announced by the last cell data that have several. -/
def announced (version : Int) (l : List Sec) : Int :=
  (((cellData l).filter fun s => decide (1 < dofs version s.h)).getLast?.map fun s => dofs version s.h).getD 1

/-- A mesh with its data is what the sections tell. -/
structure Tells (o : Order) (version : Int) (l : List Sec) (faces : List Face) (points : List (F64 × F64 × F64)) (f : FullMesh) :
    Prop where
  nnode : (f.mesh.nnode : Int) = (countsOf l).no
  ncell : (f.mesh.ncell : Int) = (countsOf l).cv
  nface : f.mesh.nface = faces.length
  tables : Tables o l faces
  faceSet : ∃ fs, f.mesh.faces = [("mixed", fs)] ∧ IsFaces fs faces
  pointData : Points o l points
  coords : f.mesh.coords = some (points.map (·.1), points.map (·.2.1), points.map (·.2.2))
  part : ∃ n icv, f.partition = some (some ⟨some n, .arr icv⟩) ∧ Partition o l n icv
  marks : ∀ name, f.mesh.bocos.get? name = (lastNamed name (zonesIn l)).map markOf
  nodes : ∀ name, Told (fun s a => ArrayOf o s (countsOf l).no a) (lastNamed name (nodeData l)) (f.nodes.get? name)
  cells : ∀ name, Told (fun s a => ArrayOf o s (dofs version s.h * (countsOf l).cv) a) (lastNamed name (cellData l))
    (f.cells.data.get? name)
  attrs : f.cells.attrs = some ⟨.dataSet, if 1 < announced version l then "spectralcell" else "cellaverage",
    announced version l, "instant"⟩
  params : ∀ key, f.params.get? key =
    ((lastParam key l).map paramValue).or ((otherParams l faces).get? key)

/-- Data that can be read: there are some, on nodes, faces or (for a version that is not negative) cells. -/
def Placed (version : Int) (c : Counts) (s : Sec) : Prop :=
  s.payload ≠ [] ∧ (s.h.int 0 = c.no ∨ s.h.int 0 = c.fa ∨ (s.h.int 0 = c.cv ∧ 0 ≤ version))

/-- The files that are accepted: tables of faces of one to four nodes, with the number of the last cell and none above;
points and partition; zones of known types, which begin at one of the faces or just after the last one, or that many
before the end; data that can be read. -/
structure Acceptable (o : Order) (version : Int) (l : List Sec) : Prop where
  faces : ∃ faces, Tables o l faces ∧ (∀ a ∈ faces, 1 ≤ a.1.length ∧ a.1.length ≤ 4) ∧
    (∀ a ∈ faces, a.2.1 < (countsOf l).cv ∧ a.2.2 < (countsOf l).cv) ∧
    ∃ a ∈ faces, a.2.1 = (countsOf l).cv - 1 ∨ a.2.2 = (countsOf l).cv - 1
  points : ∃ s, first 31 l = some s ∧ s.h.int 0 = (countsOf l).no ∧ s.h.int 1 = 3
  part : (first 41 l).isSome = true
  zones : ∀ s ∈ zonesIn l, (zoneType (s.h.int 0)).isSome = true ∧
    - (countsOf l).fa - 1 ≤ s.h.int 1 ∧ s.h.int 1 ≤ (countsOf l).fa
  data : ∀ s ∈ only [32, 34, 24, 42, 45, 33, 25, 43] l, Placed version (countsOf l) s
  tensors : ∀ s ∈ only [44] l, s.payload ≠ [] ∧ s.h.int 0 = (countsOf l).cv ∧ 0 ≤ version

/-- The numbers are 0, 1, 2, ... up to one part in 100 000 (so exactly for the first 100 000). -/
def Consecutive (l : List Int) : Prop := ∀ (i : Nat) (x : Int), l[i]? = some x → (x - i).natAbs * 100000 ≤ i

/-- The first section of a kind lists consecutive numbers. -/
def Lists (o : Order) (l : List Sec) (code : Int) : Prop :=
  ∃ s numbers, first code l = some s ∧ s.payload = intsBytes o 4 numbers ∧ (∀ n ∈ numbers, FitsInt 4 n) ∧ Consecutive numbers

/-- The numberings that are verified on demand: nothing when nodes are not numbered (30), otherwise the nodes, the faces
(20) and the cells (40); those of nodes and cells repeat their numbers. -/
def Numbered (o : Order) (l : List Sec) : Prop :=
  first 30 l = none ∨
    (Lists o l 30 ∧ Lists o l 20 ∧ Lists o l 40 ∧ (first 30 l).map (·.h.int 0) = some (countsOf l).no ∧
      (first 40 l).map (·.h.int 0) = some (countsOf l).cv)

end Cfd.Spec.Ic3

import Verif.Spec.Ic3ForeignContent
import Verif.Spec.Ic3V4
import Verif.Model.Ic3H5

/-!
# What the items of a V4 (HDF5) file tell (C85)
-/

namespace Cfd.Spec.Ic3
open Cfd.Ic3

/-- The dataset of that name in the group of that path. -/
def item (c : H5File) (path name : String) : Option H5Data := (c.groups.get? path).bind fun g => g.data.get? name

/-- The attribute of that name of the group of that path. -/
def attr (c : H5File) (path name : String) : Option SimVal := (c.groups.get? path).bind fun g => g.attrs.get? name

/-- A group has one attribute of each name. -/
def Named (c : H5File) : Prop := ∀ p ∈ c.groups, (p.2.attrs.map (·.1)).Nodup

/-- The dataset is a list of integers. -/
def IsInts (d : Option H5Data) (l : List Int) : Prop := ∃ n, d = some (.ints [n] l)

/-- The counts. -/
structure CountsH5 (c : H5File) (no fa cv : Nat) : Prop where
  nodes : attr c "/" "no_count" = some (.int no)
  faces : attr c "/" "fa_count" = some (.int fa)
  cells : attr c "/" "cv_count" = some (.int cv)

/-- The tables of faces: nodes of each face, cells of each face. -/
structure FacesH5 (c : H5File) (nodes : List (List Int)) (cells : List (Int × Int)) : Prop where
  sizes : IsInts (item c "/Connectivities/Face" "noofa_i") (nodes.map fun f => (f.length : Int))
  values : IsInts (item c "/Connectivities/Face" "noofa_v") nodes.flatten
  cells : ∃ shape, item c "/Connectivities/Face" "cvofa" = some (.ints shape (cells.flatMap fun r => [r.1, r.2]))

/-- The points. -/
def PointsH5 (c : H5File) (points : List (F64 × F64 × F64)) : Prop :=
  ∃ shape, item c "/" "coordinates" = some (.reals shape (points.flatMap fun p => [p.1, p.2.1, p.2.2]))

/-- A zone of faces: label, kind, first face and face after the last one. -/
structure ZoneH5 where
  label : String
  kind : Int
  start : Int
  stop : Int
  deriving DecidableEq, Repr

/-- Zones one after the other, as many as there are labels, kinds and pairs of successive offsets. -/
def zoneList : List String → List Int → List Int → List ZoneH5
  | l :: ls, k :: ks, a :: b :: t => ⟨l, k, a, b⟩ :: zoneList ls ks (b :: t)
  | _, _, _ => []

/-- The zones of the file: none when there is neither group nor dataset called `Boundaries`. -/
def ZonesH5 (c : H5File) (zones : List ZoneH5) : Prop :=
  (c.groups.get? "/Boundaries" = none ∧ item c "/" "Boundaries" = none ∧ zones = []) ∨
  (∃ g labels kinds offsets, c.groups.get? "/Boundaries" = some g ∧ item c "/Boundaries" "labels" = some (.texts labels) ∧
    IsInts (item c "/Boundaries" "kinds") kinds ∧ IsInts (item c "/Boundaries" "offsets") offsets ∧
    (∀ l ∈ labels, ∀ d, item c ("/Boundaries/" ++ l) "periodic_transform" = some d → ∃ s v, d = .reals s v) ∧
    zones = zoneList labels kinds offsets)

/-- The periodic transformation that goes with a label. -/
def transformH5 (c : H5File) (label : String) : Option (List F64) :=
  match item c ("/Boundaries/" ++ label) "periodic_transform" with
  | some (.reals _ v) => some v
  | _ => none

/-- The mark that a zone tells. -/
def markH5 (c : H5File) (z : ZoneH5) : Mark :=
  ⟨z.label, if z.kind = 6 then .intface else .bdface, (zoneType z.kind).getD "", .range z.start (z.stop - 1),
    transformH5 c z.label⟩

/-- The values of `n` cells that can be read: some, and a multiple of the number of whole values per cell if it is at
least two. -/
def GoodField (n : Nat) (v : List F64) : Prop := v ≠ [] ∧ (2 ≤ v.length / n → v.length % (v.length / n) = 0)

/-- The array read: with at least two values per cell, that many per row; otherwise the shape of the dataset. -/
def arrayH5 (n : Nat) (shape : List Nat) (v : List F64) : NpArr :=
  ⟨if 2 ≤ v.length / n then [v.length / (v.length / n), v.length / n] else shape, .f64 v⟩

/-- The datasets of a group, in the order of their names. -/
def inOrder (c : H5File) (path : String) : List String :=
  match c.groups.get? path with
  | none => []
  | some g => (g.data.map (·.1)).mergeSort

/-- The fields of a solution, in the order in which they are read: path and name. -/
def fieldsH5 (c : H5File) : List (String × String) :=
  [("/", "rho"), ("/", "rhou"), ("/", "rhoe")] ++ (inOrder c "/VolumeStats").map fun n => ("/VolumeStats", n)

/-- The last field whose name in upper case is that one. -/
def lastField (c : H5File) (name : String) : Option (String × String) :=
  (fieldsH5 c).reverse.find? fun q => decide (q.2.toUpper = name)

/-- The array of a field. -/
def fieldArray (c : H5File) (n : Nat) (q : String × String) : Option NpArr :=
  match item c q.1 q.2 with
  | some (.reals s v) => some (arrayH5 n s v)
  | _ => none

/-- The parameters that come from the mesh. -/
def meshParams (no fa cv : Nat) (nodes : List (List Int)) (cells : List (Int × Int)) (zones : List ZoneH5) : Dict String SimVal :=
  [("no_count", .int no), ("fa_count", .int fa), ("cv_count", .int cv), ("noofa_count", .int nodes.flatten.length),
   ("nboco", .int zones.length), ("nfa_b", .int (cells.filter fun r => decide (r.2 = -1)).length),
   ("nfa_bp", .int (cells.filter fun r => decide (r.2 < -1)).length)]

/-- The state of a solution: attributes of the statistics, otherwise of the file. -/
def stateH5 (s : Option H5File) (key : String) : Option SimVal :=
  s.bind fun s => (attr s "/VolumeStats" key).or (attr s "/" key)

/-- Iteration and time of a mesh without solution. -/
def noState : Dict String SimVal := [("step", .int 0), ("time", .int 0)]

/-- A mesh with its data is what the items tell. -/
structure TellsH5 (c : H5File) (s : Option H5File) (f : FullMesh) (no cv : Nat) (nodes : List (List Int))
    (cells : List (Int × Int)) (points : List (F64 × F64 × F64)) (zones : List ZoneH5) : Prop where
  counts : CountsH5 c no cells.length cv
  faceTables : FacesH5 c nodes cells
  pointData : PointsH5 c points
  zoneData : ZonesH5 c zones
  nnode : f.mesh.nnode = no
  ncell : f.mesh.ncell = cv
  nface : f.mesh.nface = nodes.length
  faceSet : ∃ fs, f.mesh.faces = [("mixed", fs)] ∧ ConnWF fs.f2n ∧
    ((elements fs.f2n).map (·.2)).Perm (nodes.zipIdx.map fun x => ((x.2 : Int), x.1)) ∧ fs.f2c = some (some cells)
  coords : f.mesh.coords = some (points.map (·.1), points.map (·.2.1), points.map (·.2.2))
  marks : ∀ name, f.mesh.bocos.get? name = (zones.reverse.find? fun z => decide (z.label = name)).map (markH5 c)
  cellData : ∀ name, f.cells.data.get? name = s.bind fun s => (lastField s name).bind (fieldArray s cv)
  nodeData : f.nodes = []
  attrs : f.cells.attrs = some ⟨.dataSet, "cellaverage", 1, "instant"⟩
  part : f.partition = some none
  params : ∀ key, f.params.get? key =
    ((stateH5 s key).or (noState.get? key)).or ((meshParams no cells.length cv nodes cells zones).get? key)

/-- A solution that can be read for `n` cells: three fields, and statistics in a group without groups. -/
structure GoodSolution (n : Nat) (s : H5File) : Prop where
  fields : ∀ q ∈ fieldsH5 s, ∃ shape v, item s q.1 q.2 = some (.reals shape v) ∧ GoodField n v
  stats : s.groups.get? "/VolumeStats" = none → item s "/" "VolumeStats" = none
  flat : (s.groups.get? "/VolumeStats").isSome = true → ∀ p ∈ s.groups.map (·.1), ¬ "/VolumeStats/".toList <+: p.toList

/-- The files that are accepted. -/
structure AcceptableH5 (c : H5File) (s : Option H5File) : Prop where
  mesh : ∃ no cv nodes cells points zones, CountsH5 c no cells.length cv ∧ FacesH5 c nodes cells ∧ PointsH5 c points ∧
    ZonesH5 c zones ∧ points.length = no ∧ nodes ≠ [] ∧ (∀ f ∈ nodes, 1 ≤ f.length ∧ f.length ≤ 4) ∧
    (∀ r ∈ cells, r.1 < (cv : Int) ∧ r.2 < (cv : Int)) ∧ (∃ r ∈ cells, r.1 = (cv : Int) - 1 ∨ r.2 = (cv : Int) - 1) ∧
    (∀ z ∈ zones, (zoneType z.kind).isSome = true ∧ - (nodes.length : Int) - 1 ≤ z.start ∧ z.start ≤ nodes.length) ∧
    ∀ s', s = some s' → GoodSolution cv s'

/-- Two mesh files that tell the same. -/
structure SameH5 (c c' : H5File) : Prop where
  counts : ∀ n ∈ ["no_count", "fa_count", "cv_count"], attr c "/" n = attr c' "/" n
  faces : ∀ n ∈ ["noofa_i", "noofa_v", "cvofa"], item c "/Connectivities/Face" n = item c' "/Connectivities/Face" n
  root : ∀ n ∈ ["coordinates", "Boundaries"], item c "/" n = item c' "/" n
  group : (c.groups.get? "/Boundaries").isSome = (c'.groups.get? "/Boundaries").isSome
  zones : ∀ n ∈ ["offsets", "labels", "kinds"], item c "/Boundaries" n = item c' "/Boundaries" n
  perio : ∀ l, item c ("/Boundaries/" ++ l) "periodic_transform" = item c' ("/Boundaries/" ++ l) "periodic_transform"

/-- Two solution files that tell the same. -/
structure SameSolH5 (s s' : H5File) : Prop where
  fields : ∀ n ∈ ["rho", "rhou", "rhoe", "VolumeStats"], item s "/" n = item s' "/" n
  attrs : (s.groups.get? "/").map (·.attrs) = (s'.groups.get? "/").map (·.attrs)
  stats : s.groups.get? "/VolumeStats" = s'.groups.get? "/VolumeStats"
  nested : (∃ p ∈ s.groups.map (·.1), "/VolumeStats/".toList <+: p.toList) ↔
    ∃ p ∈ s'.groups.map (·.1), "/VolumeStats/".toList <+: p.toList

end Cfd.Spec.Ic3

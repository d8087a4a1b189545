import Verif.Model.Ic3V4

/-!
# Model of the V4 reader on any HDF5 file (cfdtools/ic3/readerV4.py)

The content of an HDF5 file is modelled by its groups, each with its attributes and datasets, under their paths.
`Verif.Model.Ic3V4` models the files by the arrays which the writer puts in them; here a file is what any program can
have made: each item may be missing.

Simplifications
* all items are fetched before the tests: when a file has several defects, the exception can be that of another one;
* datasets are of integers, doubles or texts; an item of another type than the one the code expects is refused (in
  the code, numpy may convert it or fail later); `noofa_i`, `noofa_v`, `offsets`, `labels`, `kinds` have one dimension;
* counts are not negative (numpy gives a special meaning to the size -1);
* the attributes of a solution are numbers; labels do not begin with `/`.
-/

namespace Cfd.Ic3

/-- Value of a dataset, in the order of the memory. -/
inductive H5Data where
  | ints (shape : List Nat) (l : List Int)
  | reals (shape : List Nat) (l : List F64)
  | texts (l : List String)
  deriving DecidableEq, Repr

/-- A group: attributes and datasets. -/
structure H5Group where
  attrs : Dict String SimVal
  data : Dict String H5Data
  deriving DecidableEq, Repr

/-- An HDF5 file: groups by path. -/
structure H5File where
  groups : Dict String H5Group
  deriving DecidableEq, Repr

/-- `fid[path + '/' + name]`: KeyError if there is none. -/
def H5File.dataset (c : H5File) (path name : String) : Py H5Data := do
  let g ← c.groups.getE path
  g.data.getE name

/-- A one-dimensional dataset of integers. -/
def H5File.ints (c : H5File) (path name : String) : Py (List Int) := do
  match ← c.dataset path name with
  | .ints [_] l => return l
  | _ => .error .type

/-- A dataset of integers of any shape. -/
def H5File.intsFlat (c : H5File) (path name : String) : Py (List Int) := do
  match ← c.dataset path name with
  | .ints _ l => return l
  | _ => .error .type

/-- A dataset of doubles. -/
def H5File.reals (c : H5File) (path name : String) : Py (List Nat × List F64) := do
  match ← c.dataset path name with
  | .reals s l => return (s, l)
  | _ => .error .type

/-- A dataset of texts. -/
def H5File.texts (c : H5File) (path name : String) : Py (List String) := do
  match ← c.dataset path name with
  | .texts l => return l
  | _ => .error .type

/-- `fid.attrs[name]` for a count (readerV4.py:149-153). -/
def H5File.count (c : H5File) (name : String) : Py Nat := do
  let g ← c.groups.getE "/"
  match ← g.attrs.getE name with
  | .int n => if 0 ≤ n then return n.toNat else .error .value
  | _ => .error .type

/-- There is a dataset of that name at the root. -/
def H5File.rootData (c : H5File) (name : String) : Bool :=
  match c.dataset "/" name with
  | .ok _ => true
  | .error _ => false

/-- `fid['Boundaries'][label]['periodic_transform'][()]` when there is one (readerV4.py:235-240). -/
def H5File.periodic (c : H5File) (label : String) : Py (Option (List F64)) :=
  match c.groups.get? ("/Boundaries/" ++ label) with
  | none => .ok none
  | some g =>
      match g.data.get? "periodic_transform" with
      | none => .ok none
      | some (.reals _ l) => .ok (some l)
      | some _ => .error .type

/-- One periodic transformation, if there is one, with its label. -/
def H5File.periodicOf (c : H5File) (label : String) : Py (String × Option (List F64)) := do
  let p ← c.periodic label
  return (label, p)

/-- What a file says of the boundaries: labels, kinds, offsets and periodic transformations. -/
structure H5Zones where
  labels : List String
  kinds : List Int
  offsets : List Int
  perio : Dict String (List F64)
  deriving DecidableEq, Repr

/-- The group `Boundaries` (readerV4.py:219-240): nothing when there is none. A dataset of that name has no member
(ValueError). -/
def H5File.zones (c : H5File) : Py H5Zones :=
  match c.groups.get? "/Boundaries" with
  | none => if c.rootData "Boundaries" then .error .value else .ok ⟨[], [], [], []⟩
  | some _ => do
      let offsets ← c.ints "/Boundaries" "offsets"
      let labels ← c.texts "/Boundaries" "labels"
      let kinds ← c.ints "/Boundaries" "kinds"
      let perio ← labels.mapM c.periodicOf
      return ⟨labels, kinds, offsets, perio.filterMap fun p => p.2.map fun l => (p.1, l)⟩

/-- The items of a mesh file (readerV4.py:144-266). The cell connectivity is not read. -/
def H5File.mesh (c : H5File) : Py MeshFile := do
  let no ← c.count "no_count"
  let fa ← c.count "fa_count"
  let cv ← c.count "cv_count"
  let noofaI ← c.ints "/Connectivities/Face" "noofa_i"
  let noofaV ← c.ints "/Connectivities/Face" "noofa_v"
  let cvofa ← c.intsFlat "/Connectivities/Face" "cvofa"
  let z ← c.zones
  let xyz ← c.reals "/" "coordinates"
  return { no := no, fa := fa, cv := cv, coordinates := xyz.2, cells := [], cvofa := cvofa, noofaI := noofaI
           noofaV := noofaV, labels := z.labels, offsets := z.offsets, kinds := z.kinds, perio := z.perio }

/-- The array made of a dataset (readerV4.py:292-301): with several values per cell there is one row per cell, otherwise
the shape is kept; the statistics raise on an empty array. In numpy `size // 0` is 0. -/
def fieldH5 (cv : Nat) (shape : List Nat) (l : List F64) : Py NpArr :=
  let nb := l.length / cv
  if 1 < nb then
    if l.length % nb = 0 then .ok ⟨[l.length / nb, nb], .f64 l⟩ else .error .value
  else if l.isEmpty then .error .value
  else .ok ⟨shape, .f64 l⟩

/-- One iteration of `read_vars` (readerV4.py:290-301). -/
def H5File.readVar (cv : Nat) (c : H5File) (path : String) (cells : Dict String NpArr) (var : String) :
    Py (Dict String NpArr) := do
  let a ← c.reals path var
  let a ← fieldH5 cv a.1 a.2
  return cells.set var.toUpper a

/-- There are groups in the group `VolumeStats`. -/
def H5File.nestedStats (c : H5File) : Bool :=
  c.groups.keys.any fun p => decide ("/VolumeStats/".toList <+: p.toList)

/-- `_read_variables` (readerV4.py:282-306); a group among the statistics is not an array (TypeError), a dataset
`VolumeStats` has no keys (AttributeError). -/
def H5File.readVars (cv : Nat) (c : H5File) : Py (Dict String NpArr) := do
  let cells ← ["rho", "rhou", "rhoe"].foldlM (c.readVar cv "/") []
  match c.groups.get? "/VolumeStats" with
  | none => if c.rootData "VolumeStats" then .error .attribute else return cells
  | some g =>
      if c.nestedStats then .error .type
      else (g.data.keys.insertionSort (· ≤ ·)).foldlM (c.readVar cv "/VolumeStats") cells

/-- Attributes of a group, in the order of their names. -/
def H5File.attributes (c : H5File) (path : String) : Dict String SimVal :=
  match c.groups.get? path with
  | none => []
  | some g => g.attrs.insertionSort fun a b => a.1 ≤ b.1

/-- `_read_informative_values` (readerV4.py:268-280): the attributes of the file, then those of `VolumeStats`. -/
def H5File.readInfo (c : H5File) : Dict String SimVal :=
  (c.attributes "/" ++ c.attributes "/VolumeStats").foldl (fun d p => d.set p.1 p.2) [("step", .int 0), ("time", .int 0)]

/-- `reader(mesh_filename, solution_filename)`, `read_data()`, `export_mesh()` on any files. -/
def readH5 (c : H5File) (s : Option H5File) : Py FullMesh := do
  let x ← c.mesh
  let r ← readMeshV4 x
  match s with
  | none => exportV4 r [] [("step", .int 0), ("time", .int 0)]
  | some s => do
      let cells ← s.readVars x.cv
      exportV4 r cells s.readInfo

/-! ## The files written -/

/-- The groups of the periodic transformations (writerV4.py:154-162). -/
def perioGroups (x : MeshFile) : Dict String H5Group :=
  x.perio.map fun p => ("/Boundaries/" ++ p.1, ⟨[], [("periodic_transform", .reals [p.2.length] p.2)]⟩)

/-- The groups of the file which the writer makes of a mesh (writerV4.py:81-180). The numbers of the nodes of cells are a
table; texts among attributes are not represented. -/
def meshH5 (x : MeshFile) : H5File :=
  ⟨[("/", ⟨[("no_count", .int x.no), ("fa_count", .int x.fa), ("cv_count", .int x.cv)],
      [("coordinates", .reals [x.coordinates.length] x.coordinates)]⟩),
    ("/Connectivities", ⟨[], []⟩),
    ("/Connectivities/Cell", ⟨[], x.cells.map fun p => (p.1, .ints [p.2.length, (p.2.headD []).length] p.2.flatten)⟩),
    ("/Connectivities/Face", ⟨[], [("cvofa", .ints [x.cvofa.length] x.cvofa), ("noofa_i", .ints [x.noofaI.length] x.noofaI),
      ("noofa_v", .ints [x.noofaV.length] x.noofaV)]⟩),
    ("/Boundaries", ⟨[], [("labels", .texts x.labels), ("offsets", .ints [x.offsets.length] x.offsets),
      ("kinds", .ints [x.kinds.length] x.kinds)]⟩)] ++ perioGroups x⟩

/-- One-dimensional datasets. -/
def h5Reals (d : Dict String (List F64)) : Dict String H5Data := d.map fun p => (p.1, .reals [p.2.length] p.2)

/-- The groups of the file which the writer makes of a solution (writerV4.py:205-255). -/
def solH5 (s : SolFile) : H5File :=
  ⟨("/", ⟨[("step", s.step), ("time", s.time)], h5Reals s.data⟩) ::
    (match s.stats with
     | none => []
     | some g => [("/VolumeStats", ⟨g.wgts, h5Reals g.data⟩)])⟩

end Cfd.Ic3

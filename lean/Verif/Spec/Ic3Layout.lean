import Verif.Spec.Ic3Round

/-!
# Bytes of the IC3 restart files (C81)

The format, written out with its numbers: two 4-byte integers, then sections. A section is a name of 52 bytes, its code
(4 bytes), the distance to the next section (8 bytes), 8 integers of 8 bytes, 16 doubles, and its content.
-/

namespace Cfd.Spec.Ic3
open Cfd.Ic3

/-- A number below `256 ^ k` in base 256. -/
def word (o : Order) (k n : Nat) : Bytes :=
  (List.range k).map fun i => UInt8.ofNat (n / 256 ^ (match o with | .little => i | .big => k - 1 - i) % 256)

/-- Integers on `k` bytes, modulo `256 ^ k` (two's complement). -/
def intBytes (o : Order) (k : Nat) (l : List Int) : Bytes :=
  l.flatMap fun n => word o k (n % 256 ^ k).toNat

/-- Doubles (as they are in memory). -/
def realBits (o : Order) (l : List F64) : Bytes := l.flatMap fun x => word o 8 x.toNat

/-- A section. Unused integers and doubles are zeros. -/
def sectionBytes (o : Order) (name : String) (code : Int) (ints : List Int) (reals : List F64) (content : Bytes) : Bytes :=
  nameBytes name ++ intBytes o 4 [code] ++ intBytes o 8 [256 + (content.length : Int)] ++
    intBytes o 8 (ints ++ List.replicate (8 - ints.length) 0) ++ realBits o (reals ++ List.replicate (16 - reals.length) 0) ++
    content

/-- Kind of a zone. -/
def zoneKind (type : String) : Int :=
  if type = "boundary" then 1 else if type = "perio_cart" then 2 else if type = "perio_cylx" then 3
  else if type = "perio_cyly" then 4 else if type = "perio_cylz" then 5 else 0

/-- First and last face of a mark. -/
def faceRange (b : Mark) : Int × Int :=
  match b.index with
  | .range first last => (first, last)
  | _ => (0, -1)

/-- The marks that are zones of the boundary. -/
def zoneMarks (m : Mesh F64) : List (String × Mark) := m.bocos.filter fun p => decide (p.2.type ≠ "internal")

/-- Zone of a mark: its kind, its first and its last face, and its periodicity. -/
def zoneBytes (o : Order) (p : String × Mark) : Bytes :=
  sectionBytes o p.1 23 [zoneKind p.2.type, (faceRange p.2).1, (faceRange p.2).2]
    (match p.2.perio with | some r => r | none => []) []

/-- Last face of the zones of the boundary (0 if there is none). -/
def lastZoneFace (m : Mesh F64) : Int := ((zoneMarks m).map fun p => (faceRange p.2).2).foldl max 0

/-- Number of partitions and partition of each cell: one if nothing is given. -/
def partition (f : FullMesh) (ncell : Nat) : Int × List Int :=
  match f.partition with
  | some (some p) =>
    (match p.npart with | some n => n | none => 1, match p.icvpart with | .arr l => l | _ => List.replicate ncell 0)
  | _ => (1, List.replicate ncell 0)

/-- An integer parameter, 0 by default. -/
def intParam (cv : Conv) (f : FullMesh) (name : String) : Int :=
  match f.params.get? name with
  | some (.int n) => n
  | some (.f64 x) => match cv.toInt x with | .ok n => n | .error _ => 0
  | _ => 0

/-- A real parameter, 0 by default. -/
def realParam (cv : Conv) (f : FullMesh) (name : String) : F64 :=
  match f.params.get? name with
  | some (.int n) => cv.ofInt n
  | some (.f64 x) => x
  | _ => cv.ofInt 0

/-- Averaging weights. -/
def weights (f : FullMesh) : List (String × F64) :=
  match f.params.get? "wgt" with
  | some (.wgts d) => d
  | _ => []

/-- Values of an array as doubles. -/
def realValues (cv : Conv) (a : NpArr) : List F64 :=
  match a.data with
  | .f64 l => l
  | .i64 l => l.map cv.ofInt
  | .other l => l

/-- One value per row. -/
def isScalar (a : NpArr) : Bool :=
  match a.shape with
  | n :: _ => decide ((match a.data with | .f64 l => l.length | .i64 l => l.length | .other l => l.length) = n)
  | [] => false

/-- A scalar array of version 3: code `i` and 8-byte integers, or code `d` and doubles. -/
def scalarBytes (o : Order) (d i : Int) (ints : List Int) (p : String × NpArr) : Bytes :=
  match p.2.data with
  | .f64 l => sectionBytes o p.1 d ints [] (realBits o l)
  | .i64 l => sectionBytes o p.1 i ints [] (intBytes o 8 l)
  | .other _ => sectionBytes o p.1 d ints [] []

/-- Arrays of doubles. -/
def realBytes (o : Order) (cv : Conv) (code : Int) (ints : List Int) (p : String × NpArr) : Bytes :=
  sectionBytes o p.1 code ints [] (realBits o (realValues cv p.2))

/-- Data at nodes and in cells: scalars, then vectors, then tensors. -/
def dataBytes (o : Order) (v : Ver) (cv : Conv) (f : FullMesh) (nnode ncell : Int) : Bytes :=
  let rank (n : Nat) (d : Dict String NpArr) := d.filter fun p => decide (p.2.shape.length = n)
  let scalars (d : Dict String NpArr) := d.filter fun p => isScalar p.2
  match v with
  | .v2 =>
    (scalars f.nodes).flatMap (realBytes o cv 32 [nnode]) ++ (rank 2 f.nodes).flatMap (realBytes o cv 33 [nnode, 3]) ++
    (scalars f.cells.data).flatMap (realBytes o cv 42 [ncell]) ++
    (rank 2 f.cells.data).flatMap (realBytes o cv 43 [ncell, 3]) ++
    (rank 3 f.cells.data).flatMap (realBytes o cv 44 [ncell, 3, 3])
  | .v3 =>
    let dof : Int := match f.cells.attrs with | some a => a.ndof | none => 1
    (scalars f.nodes).flatMap (scalarBytes o 32 34 [nnode]) ++ (rank 2 f.nodes).flatMap (realBytes o cv 33 [nnode, 3]) ++
    (scalars f.cells.data).flatMap (scalarBytes o 42 45 [ncell, dof]) ++
    (rank 2 f.cells.data).flatMap (realBytes o cv 43 [ncell, dof]) ++
    (rank 3 f.cells.data).flatMap (realBytes o cv 44 [ncell, dof, 3])

/-- Numbers 0, 1, ..., n-1 as a section. -/
def countBytes (o : Order) (name : String) (code : Int) (n : Nat) : Bytes :=
  sectionBytes o name code [n] [] (intBytes o 4 ((List.range n).map fun (i : Nat) => (i : Int)))

/-- The three lists of version 2 that number nodes, faces and cells. -/
def checkBytes (o : Order) (v : Ver) (nnode nface ncell : Nat) : Bytes :=
  match v with
  | .v2 => countBytes o "NO_CHECK" 30 nnode ++ countBytes o "FA_CHECK" 20 nface ++ countBytes o "CV_CHECK" 40 ncell
  | .v3 => []

/-- The file of the mesh `m` with the faces `l` and the data of `f`. -/
def layout (o : Order) (v : Ver) (cv : Conv) (f : FullMesh) (m : Mesh F64) (l : List Face) (xyz : List F64 × List F64 × List F64) :
    Bytes :=
  intBytes o 4 [123581321, match v with | .v2 => 2 | .v3 => 3] ++
  sectionBytes o "NO_FA_CV_NOOFA_COUNTS" 10 [m.nnode, l.length, m.ncell, (l.flatMap fun x => x.1).length] [] [] ++
  checkBytes o v m.nnode l.length m.ncell ++
  sectionBytes o "NOOFA_I_AND_V" 21 [l.length, (l.flatMap fun x => x.1).length] []
    (intBytes o 4 (l.map fun x => (x.1.length : Int)) ++ intBytes o 4 (l.flatMap fun x => x.1)) ++
  sectionBytes o "CVOFA" 22 [l.length, 2] [] (intBytes o 4 (l.flatMap fun x => [x.2.1, x.2.2])) ++
  (zoneMarks m).flatMap (zoneBytes o) ++
  sectionBytes o "internal-domain" 23 [6, lastZoneFace m + 1, (l.length : Int) - 1] [] [] ++
  sectionBytes o "CV_PART" 41 [m.ncell, (partition f m.ncell).1] [] (intBytes o 4 (partition f m.ncell).2) ++
  sectionBytes o "X_NO" 31 [m.nnode, 3] []
    (realBits o ((xyz.1.zip (xyz.2.1.zip xyz.2.2)).flatMap fun p => [p.1, p.2.1, p.2.2])) ++
  sectionBytes o "DATA" 50 [] [] [] ++
  sectionBytes o "STEP" 11 [intParam cv f "step"] [] [] ++
  sectionBytes o "DT" 12 [] [realParam cv f "dt"] [] ++
  sectionBytes o "TIME" 12 [] [realParam cv f "time"] [] ++
  (weights f).flatMap (fun p => sectionBytes o (p.1.toUpper ++ "_WGT") 12 [] [p.2] []) ++
  dataBytes o v cv f m.nnode m.ncell ++
  sectionBytes o "EOF" 51 [] [] []

end Cfd.Spec.Ic3

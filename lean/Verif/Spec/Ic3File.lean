import Verif.Spec.Ic3
import Verif.Model.Ic3Reader

/-!
Specification of the content of an IC3 restart file: the list of its sections.
-/

namespace Cfd.Spec.Ic3
open Cfd.Ic3

/-- A section with its skip. -/
def sec (name : String) (id : Int) (idata : List Int) (rdata : List F64) (payload : Bytes) : Sec :=
  ⟨mkHeader name id (256 + (payload.length : Int)) idata rdata, payload⟩

/-- Consecutive numbers, written by V2 only. -/
def checkSecs (o : Order) (v : Ver) (w : WState) : List Sec :=
  match v with
  | .v2 => [sec "NO_CHECK" cNoCheck [w.nno] [] (intsBytes o 4 (pyRange 0 w.nno)),
            sec "FA_CHECK" cFaCheck [w.nfa] [] (intsBytes o 4 (pyRange 0 w.nfa)),
            sec "CV_CHECK" cCvCheck [w.ncv] [] (intsBytes o 4 (pyRange 0 w.ncv))]
  | .v3 => []

/-- First and last face of a mark. -/
def markRange (b : Mark) : Int × Int :=
  match b.index with
  | .range a b => (a, b)
  | _ => (0, -1)

/-- Face zone of a mark: kind, first and last face, periodic data. -/
def zoneSec (p : String × Mark) : Sec :=
  sec p.1 cFaZone [(type2zonekind.get? p.2.type).getD 0, (markRange p.2).1, (markRange p.2).2]
    (p.2.perio.getD []) []

/-- Zone of the internal faces: after the last marked face, up to the last face. -/
def internalSec (w : WState) : Sec :=
  sec "internal-domain" cFaZone [6, lastBoco w.bocos + 1, (w.nfa : Int) - 1] [] []

/-- Cells on both sides of the faces. -/
def WState.rows (w : WState) : List (Int × Int) := w.f2e.getD []

/-- Number of partitions. -/
def WState.npart (w : WState) : Int := (w.part.bind (·.npart)).getD 1

/-- Partition of the cells (zeros by default). -/
def WState.icv (w : WState) : List Int :=
  match w.part with
  | some ⟨_, .arr l⟩ => l
  | _ => List.replicate w.ncv 0

/-- Mesh sections. -/
def connSecs (o : Order) (v : Ver) (w : WState) : List Sec :=
  [sec "NO_FA_CV_NOOFA_COUNTS" cCounts [w.nno, w.nfa, w.ncv, w.noofaV.length] [] []] ++
  checkSecs o v w ++
  [sec "NOOFA_I_AND_V" cNoofa [w.nfa, w.noofaV.length] [] (intsBytes o 4 w.noofa ++ intsBytes o 4 w.noofaV),
   sec "CVOFA" cCvofa [w.nfa, 2] [] (intsBytes o 4 ((WState.rows w).flatMap fun r => [r.1, r.2]))] ++
  w.bocos.map zoneSec ++
  [internalSec w,
   sec "CV_PART" cCvPart [w.ncv, WState.npart w] [] (intsBytes o 4 (WState.icv w)),
   sec "X_NO" cXno [w.nno, 3] [] (f64sBytes o (w.coords.flatMap fun p => [p.1, p.2.1, p.2.2]))]

/-- Value of an integer parameter. -/
def simIntD (cv : Conv) (s : SimVal) : Int :=
  match simInt cv s with
  | .ok n => n
  | .error _ => 0

/-- Value of a real parameter. -/
def simF64D (cv : Conv) (s : SimVal) : F64 :=
  match simF64 cv s with
  | .ok x => x
  | .error _ => 0

/-- Averaging weights. -/
def wgtsOf : SimVal → Dict String F64
  | .wgts d => d
  | _ => []

/-- Simulation parameters. -/
def infoSecs (cv : Conv) (s : SimState) : List Sec :=
  [sec "DATA" cData [] [] [],
   sec "STEP" cI0 [simIntD cv s.step] [] [],
   sec "DT" cD0 [] [simF64D cv s.dt] [],
   sec "TIME" cD0 [] [simF64D cv s.time] []] ++
  (wgtsOf s.wgt).map fun p => sec (p.1.toUpper ++ "_WGT") cD0 [] [p.2] []

/-- Scalar arrays: as many values as rows. -/
def Scalar (a : NpArr) : Bool :=
  match a.shape with
  | [] => false
  | n :: _ => decide (a.size = n)

/-- Values of a scalar array in V3: integers are kept. -/
def scalarPayload (o : Order) : NpArr → Bytes
  | ⟨_, .f64 l⟩ => f64sBytes o l
  | ⟨_, .i64 l⟩ => intsBytes o 8 l
  | ⟨_, .other _⟩ => []

/-- Is it an array of integers? -/
def isI64 : NpArr → Bool
  | ⟨_, .i64 _⟩ => true
  | _ => false

/-- Data sections of V2. -/
def varSecsV2 (o : Order) (cv : Conv) (w : WState) : List Sec :=
  ((w.nodes.filter fun p => Scalar p.2).map fun p =>
    sec p.1 cNoD1 [w.nno] [] (f64sBytes o (p.2.doubles cv))) ++
  ((w.nodes.filter fun p => p.2.shape.length = 2).map fun p =>
    sec p.1 cNoD3 [w.nno, 3] [] (f64sBytes o (p.2.doubles cv))) ++
  ((w.cells.data.filter fun p => Scalar p.2).map fun p =>
    sec p.1 cCvD1 [w.ncv] [] (f64sBytes o (p.2.doubles cv))) ++
  ((w.cells.data.filter fun p => p.2.shape.length = 2).map fun p =>
    sec p.1 cCvD3 [w.ncv, 3] [] (f64sBytes o (p.2.doubles cv))) ++
  ((w.cells.data.filter fun p => p.2.shape.length = 3).map fun p =>
    sec p.1 cCvD33 [w.ncv, 3, 3] [] (f64sBytes o (p.2.doubles cv)))

/-- `ndof` of the cell data. -/
def CellSet.ndof (c : CellSet) : Int := (c.attrs.map (·.ndof)).getD 1

/-- Data sections of V3. -/
def varSecsV3 (o : Order) (cv : Conv) (w : WState) : List Sec :=
  ((w.nodes.filter fun p => Scalar p.2).map fun p =>
    sec p.1 (if isI64 p.2 then cNoII1 else cNoD1) [w.nno] [] (scalarPayload o p.2)) ++
  ((w.nodes.filter fun p => p.2.shape.length = 2).map fun p =>
    sec p.1 cNoD3 [w.nno, 3] [] (f64sBytes o (p.2.doubles cv))) ++
  ((w.cells.data.filter fun p => Scalar p.2).map fun p =>
    sec p.1 (if isI64 p.2 then cCvII1 else cCvD1) [w.ncv, CellSet.ndof w.cells] [] (scalarPayload o p.2)) ++
  ((w.cells.data.filter fun p => p.2.shape.length = 2).map fun p =>
    sec p.1 cCvD3 [w.ncv, CellSet.ndof w.cells] [] (f64sBytes o (p.2.doubles cv))) ++
  ((w.cells.data.filter fun p => p.2.shape.length = 3).map fun p =>
    sec p.1 cCvD33 [w.ncv, CellSet.ndof w.cells, 3] [] (f64sBytes o (p.2.doubles cv)))

/-- Data sections. -/
def varSecs (o : Order) (v : Ver) (cv : Conv) (w : WState) : List Sec :=
  match v with
  | .v2 => varSecsV2 o cv w
  | .v3 => varSecsV3 o cv w

/-- All sections before the end of file. -/
def bodySecs (o : Order) (v : Ver) (cv : Conv) (w : WState) : List Sec :=
  connSecs o v w ++ infoSecs cv w.sim ++ varSecs o v cv w

/-- The end-of-file section. -/
def eofSec : Sec := sec "EOF" cEof [] [] []

/-- The whole file. -/
def fileBytes (o : Order) (v : Ver) (cv : Conv) (w : WState) : Bytes :=
  intsBytes o 4 [magic, v.num] ++ (secsBytes o (bodySecs o v cv w) ++ eofSec.bytes o)

/-- A user name which the format can hold and which does not stop the readers. -/
def UserName (name : String) : Prop := GoodName name ∧ endName name = false

instance (name : String) : Decidable (UserName name) := inferInstanceAs (Decidable (_ ∧ _))

/-- All names written in the file fit the format. -/
structure NamesOK (w : WState) : Prop where
  marks : ∀ p ∈ w.bocos, UserName p.1
  weights : ∀ p ∈ wgtsOf w.sim.wgt, UserName (p.1.toUpper ++ "_WGT")
  nodes : ∀ p ∈ w.nodes, UserName p.1
  cells : ∀ p ∈ w.cells.data, UserName p.1

/-- Number of degrees of freedom per cell as written: V2 has one. -/
def WState.dof (v : Ver) (w : WState) : Int :=
  match v with
  | .v2 => 1
  | .v3 => CellSet.ndof w.cells

/-- An array of `n` scalars, vectors or tensors. -/
def GoodArr (n : Nat) (a : NpArr) : Prop :=
  (a.shape = [n] ∨ a.shape = [n, 3] ∨ a.shape = [n, 3, 3]) ∧ a.size = a.shape.prod

instance (n : Nat) (a : NpArr) : Decidable (GoodArr n a) := inferInstanceAs (Decidable (_ ∧ _))

/-- What the file keeps of an array: V3 keeps integer scalars, everything else becomes doubles. -/
def stored (v : Ver) (cv : Conv) (a : NpArr) : NpArr :=
  if v = .v3 ∧ isI64 a = true ∧ a.shape.length = 1 then a else ⟨a.shape, .f64 (a.doubles cv)⟩

/-- Conditions under which the data written can be told apart by the reader. -/
structure DataOK (v : Ver) (w : WState) : Prop where
  nodeKeys : w.nodes.keys.Nodup
  cellKeys : w.cells.data.keys.Nodup
  nodes : ∀ p ∈ w.nodes, GoodArr w.nno p.2
  cells : ∀ p ∈ w.cells.data, GoodArr ((WState.dof v w) * w.ncv).toNat p.2
  someNode : w.nodes ≠ [] → 0 < w.nno
  someCell : w.cells.data ≠ [] → 0 < w.ncv ∧ 1 ≤ WState.dof v w ∧ w.ncv ≠ w.nno ∧ w.ncv ≠ w.nfa

/-- Conditions under which the mesh written is accepted by the reader: at least one face, faces of one to
four nodes, cell numbers up to the last cell, marks which are ranges of faces with distinct names. -/
structure MeshOK (w : WState) : Prop where
  faces : 0 < w.nfa
  nodesPerFace : ∀ n ∈ w.noofa, 1 ≤ n ∧ n ≤ 4
  nodesTotal : w.noofa.sum = w.noofaV.length
  cellMax : ∀ r ∈ WState.rows w, r.1 < w.ncv ∧ r.2 < w.ncv
  lastCell : ∃ r ∈ WState.rows w, r.1 = (w.ncv : Int) - 1 ∨ r.2 = (w.ncv : Int) - 1
  markKeys : w.bocos.keys.Nodup
  markNames : "internal-domain" ∉ w.bocos.keys
  markTypes : ∀ p ∈ w.bocos, p.2.type ≠ "internal"
  markRanges : ∀ p ∈ w.bocos, 0 ≤ (markRange p.2).1 ∧ (markRange p.2).1 ≤ w.nfa ∧ (markRange p.2).2 < w.nfa

/-- A mark as it is read: on boundary faces, 16 periodic values. -/
def readMark (p : String × Mark) : Mark :=
  ⟨p.1, .bdface, p.2.type, p.2.index,
    some (p.2.perio.getD [] ++ List.replicate (16 - (p.2.perio.getD []).length) 0)⟩

/-- The mark of the internal faces as it is read. -/
def internalMark (w : WState) : Mark :=
  ⟨"internal-domain", .intface, "internal", .range (lastBoco w.bocos + 1) ((w.nfa : Int) - 1),
    some (List.replicate 16 0)⟩

/-- The content of a file, as the reader keeps it. -/
def meshRead (w : WState) : RMesh where
  no := w.nno
  fa := w.nfa
  cv := w.ncv
  noofa := w.noofaV.length
  csr := ⟨ElemConn.offsets 0 w.noofa, w.noofaV⟩
  cvofa := WState.rows w
  bocos := w.bocos.map readMark ++ [internalMark w]
  npart := WState.npart w
  icvpart := .arr (WState.icv w)
  coords := w.coords

/-- All names of a mesh (marks, averaging weights, data) fit the format. -/
structure NamesFit (f : FullMesh) : Prop where
  marks : ∀ p ∈ f.mesh.bocos, UserName p.1
  weights : ∀ d, f.params.get? "wgt" = some (.wgts d) → ∀ p ∈ d, UserName (p.1.toUpper ++ "_WGT")
  nodes : ∀ p ∈ f.nodes, UserName p.1
  cells : ∀ p ∈ f.cells.data, UserName p.1

end Cfd.Spec.Ic3

import Verif.Model.Ic3V4
import Verif.Model.Extrude

/-!
# One mesh object given to several IC3 writers (C79)

The writers complete the mesh they are given in place (writerV2.py:55-67, also used by V3 and V4). When the construction of a writer
raises, the mesh may be left partly completed (`Model/Ic3Retry`): `afterWriter` is only meant for writers that were constructed.
-/

namespace Cfd.Ic3

/-- What is written: a V2 or V3 file in some byte order, or V4 files with or without the solution. -/
inductive Job where
  | legacy (e : Endian) (v : Ver)
  | v4 (sol : Bool)
  deriving DecidableEq, Repr

/-- The result of a job: content of the file and outcome, or the two files. -/
inductive Output where
  | legacy (r : Option Bytes × Py Unit)
  | v4 (r : Py (MeshFile × Option SolFile))
  deriving DecidableEq

section
variable (tbl : FaceTable) (host : Order) (h5 : H5) (cv : Conv)

/-- Construct a writer and write (writerV2.py:30-192, writerV4.py:34-79). -/
def runJob (so : List Int → List Int) (f : FullMesh) : Job → Output
  | .legacy e v => .legacy (writeIc3 tbl so host e v cv f)
  | .v4 sol => .v4 (writeV4 tbl so h5 cv f sol)

/-- The mesh object after the construction of a writer (writerV2.py:55-67). -/
def afterWriter (so : List Int → List Int) (f : FullMesh) : FullMesh :=
  match completeMesh tbl so f.mesh with
  | .ok m => { f with mesh := m }
  | .error _ => f

/-- Jobs one after the other on the same mesh object; each with its own order of Python sets. -/
def runJobs (f : FullMesh) : List ((List Int → List Int) × Job) → List Output
  | [] => []
  | (so, j) :: t => runJob tbl host h5 cv so f j :: runJobs (afterWriter tbl so f) t

end

end Cfd.Ic3

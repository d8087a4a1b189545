import Verif.Model.SeriesDump
import Verif.Spec.Files
import Verif.Spec.Xdmf

/-!
# Specification of dumped series on disk (C90)
-/

namespace Cfd.Spec.SeriesDump
open Cfd.Vtk Cfd.Xdmf Cfd.Spec.Xdmf

variable {R V T Loc : Type}

/-- The document describes the series: a grid for each step, which refers to the arrays of the HDF5 file `h` called `file`. -/
def Describes (shape : V → List Nat) (g : Grid (R × R × R)) (d : DataSetList V T) (h : H5 R V T) (file : String)
    (grids : List Xml) : Prop :=
  grids.length = d.steps.length ∧
  ∀ i s, d.steps[i]? = some s → ∃ x, grids[i]? = some x ∧
    IsStepGrid h file g shape (s.1.filter fun p => p.1 ≠ "time") i x

/-- The text of a document, one line after the other. -/
def documentText (grids : List Xml) : String := String.intercalate "\n" (xdmfDocument grids).lines

/-- What is on disk after the dump: `bytes` in the file `h5`, `text` in the file `xmf`, the rest as before. -/
structure Dumped (s s' : Fs Loc) (h5 xmf : Name) (bytes text : List UInt8) : Prop where
  names : s'.resolve = s.resolve
  description : s'.content (s.resolve xmf) = some text
  arrays : s.resolve xmf ≠ s.resolve h5 → s'.content (s.resolve h5) = some bytes
  others : ∀ l, l ≠ s.resolve h5 → l ≠ s.resolve xmf → s'.content l = s.content l

end Cfd.Spec.SeriesDump

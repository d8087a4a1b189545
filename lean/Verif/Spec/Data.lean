import Verif.Model.Data

/-! # Names of the representations (C53) -/

namespace Cfd.Spec
open Cfd

/-- Representations in space of a class of data sets. -/
def spaceReps : DataClass → List String
  | .base => ["nodal", "cellaverage"]
  | .dataSet | .dataSetList => ["nodal", "cellaverage", "spectralcell"]

/-- Representations in time of a class of data sets. -/
def timeReps : DataClass → List String
  | .base => ["instant"]
  | .dataSet => ["instant", "timeevol", "spectrum", "spectrogram"]
  | .dataSetList => ["instant", "timeevol", "pod"]

end Cfd.Spec

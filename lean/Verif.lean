import Verif.Py
import Verif.Model.IndexList
import Verif.Model.Elements
import Verif.Model.Connectivity
import Verif.Model.Faces
import Verif.Model.Extrude
import Verif.Model.Cube
import Verif.Props.IndexList
import Verif.Props.Connectivity
import Verif.Props.Faces
import Verif.Props.Elements
import Verif.Model.Mesh
import Verif.Props.Mesh
import Verif.Props.Extrude
import Verif.Props.Cube
import Verif.Model.Data
import Verif.Props.Data
import Verif.Props.DataGeo
import Verif.Model.Bytes
import Verif.Model.Ic3Format
import Verif.Model.Ic3Writer
import Verif.Model.Ic3Reader
import Verif.Props.Ic3Format
import Verif.Props.Ic3Trunc
import Verif.Props.Ic3Round
import Verif.Props.Ic3Cells
import Verif.Props.Ic3Writes
import Verif.Props.Ic3Cube
import Verif.Props.Ic3Numbers
import Verif.Props.Ic3Accept
import Verif.Props.Ic3Copy
import Verif.Props.Ic3Brief
import Verif.Props.Ic3V4
import Verif.Props.Ic3V4Cells
import Verif.Props.Ic3V4Import
import Verif.Props.Files
import Verif.Props.Registry
import Verif.Props.Timer
import Verif.Props.Memo
import Verif.Props.Gmsh
import Verif.Props.GmshAny
import Verif.Props.Vtk
import Verif.Props.VtkMesh
import Verif.Props.VtkList
import Verif.Props.VtkAccepted
import Verif.Props.VtkPackAccepted
import Verif.Props.VtkPlanesAccepted
import Verif.Props.VtkPlanes
import Verif.Props.VtkConv
import Verif.Props.Probes
import Verif.Props.PolyBase
import Verif.Props.Xdmf
import Verif.Props.Cgns
import Verif.Props.Convert
import Verif.Props.H5File
import Verif.Props.Commands
import Verif.Props.VtkConvert
import Verif.Props.Exact
import Verif.Props.Check
import Verif.Props.Ic3Extrude
import Verif.Props.Ic3Layers
import Verif.Props.CgnsConvert
import Verif.Props.Ic3Options
import Verif.Props.InfoOption
import Verif.Props.VtkPack
import Verif.Props.Plotline
import Verif.Props.ProbeArrays
import Verif.Props.VtkObject
import Verif.Props.Shared
import Verif.Props.Ic3Object
import Verif.Props.RepoTests
import Verif.Props.Morph
import Verif.Props.Ic3Layout
import Verif.Props.Ic3Retry
import Verif.Props.Closure
import Verif.Props.ClosureLayer
import Verif.Props.ClosureGmsh
import Verif.Props.ClosureCgns
import Verif.Props.Ic3Foreign
import Verif.Props.Ic3H5
import Verif.Props.CgnsTree
import Verif.Props.Report
import Verif.Props.SeriesDump
import Verif.Props.Spectrum
import Verif.Props.Spectrogram
import Verif.Props.PlaneExtrude
import Verif.Props.PlaneValues
import Verif.Props.Gas
import Verif.Props.Gauss

import Verif.Base
import Verif.Props.Index
import Verif.Props.CellConn
import Verif.Props.Mesh
import Verif.Model.Apply
import Verif.Spec.Incidence
import Verif.Proofs.Apply
import Verif.Props.Apply
import Verif.Model.Connections
import Verif.Proofs.Connections
import Verif.Props.Connections
import Verif.Model.Coloring
import Verif.Proofs.Coloring
import Verif.Props.Coloring
import Verif.Model.Meta
import Verif.Model.DataContainer
import Verif.Props.Meta
import Verif.Props.DataContainer
import Verif.Model.Serializer
import Verif.Spec.Serializer
import Verif.Proofs.Serializer
import Verif.Props.Serializer
import Verif.Model.EdgeTable
import Verif.Model.Fpma
import Verif.Spec.Polygon
import Verif.Proofs.EdgeTable
import Verif.Proofs.Chains
import Verif.Spec.Fpma
import Verif.Proofs.Fpma
import Verif.Proofs.Trace
import Verif.Props.Fpma
import Verif.Model.Vtk
import Verif.Proofs.ConnOps
import Verif.Spec.Vtk
import Verif.Proofs.Vtk2
import Verif.Proofs.Vtk2b
import Verif.Props.Vtk2
import Verif.Proofs.Vtk2w
import Verif.Model.Vtk3
import Verif.Spec.Vtk3
import Verif.Proofs.Facets
import Verif.Proofs.Vtk3
import Verif.Proofs.Vtk3b
import Verif.Props.Vtk3
import Verif.Model.Vtk3w
import Verif.Spec.Vtk3w
import Verif.Proofs.Vtk3w
import Verif.Props.Vtk3w
import Verif.Model.Cache
import Verif.Props.Cache
import Verif.Props.CacheThrow
import Verif.Props.CacheThrow3
import Verif.Props.CacheThrowEx
import Verif.Model.CacheThrow
import Verif.Model.Vector
import Verif.Proofs.Vector
import Verif.Props.Vector
import Verif.Model.Geometry
import Verif.Spec.Geometry
import Verif.Proofs.Geometry
import Verif.Proofs.Gs
import Verif.Props.Centers
import Verif.Proofs.Measures
import Verif.Props.Measures
import Verif.Props.Measures2
import Verif.Props.Convex
import Verif.Props.Normals
import Verif.Props.Distances
import Verif.Model.VtkData
import Verif.Spec.VtkData
import Verif.Proofs.VtkData
import Verif.Props.VtkData
import Verif.Model.FileFormat
import Verif.Props.FileFormat
import Verif.Model.TraitsAlgorithm
import Verif.Spec.TraitsAlgorithm
import Verif.Props.TraitsAlgorithm
import Verif.Model.JsonLog
import Verif.Spec.Json
import Verif.Spec.JsonLog
import Verif.Proofs.JsonLog
import Verif.Proofs.JsonLog2
import Verif.Props.JsonLog
import Verif.Proofs.Solid
import Verif.Proofs.Solid2
import Verif.Proofs.Solid3
import Verif.Proofs.Solid4
import Verif.Proofs.Solid5
import Verif.Props.Vtk3rt
import Verif.Props.Vtk3base
import Verif.Props.VtkRefuse
import Verif.Proofs.Solid6
import Verif.Props.Vtk3valid
import Verif.Spec.Convert
import Verif.Props.Convert
import Verif.Props.Boundary
import Verif.Spec.Flux
import Verif.Props.Flux
import Verif.Props.Flux2
import Verif.Props.Balance
import Verif.Props.FpmaSides
import Verif.Spec.Orientation
import Verif.Proofs.Orient
import Verif.Props.Orientation
import Verif.Spec.MeasuresHigh
import Verif.Spec.Simplex
import Verif.Proofs.Simplex
import Verif.Props.MeasuresHigh
import Verif.Props.Simplex
import Verif.Props.FpmaCut
import Verif.Props.VtkCut
import Verif.Props.VtkDataCut
import Verif.Model.HtmlLog
import Verif.Spec.HtmlLog
import Verif.Proofs.HtmlLog
import Verif.Props.HtmlLog
import Verif.Model.ToString
import Verif.Proofs.ToString
import Verif.Props.VtkCenters
import Verif.Model.Print
import Verif.Spec.Numeral
import Verif.Spec.Print
import Verif.Proofs.Print
import Verif.Proofs.PrintLoad
import Verif.Props.Print
import Verif.Props.PrintMesh
import Verif.Model.ConsoleLog
import Verif.Spec.ConsoleLog
import Verif.Spec.ConsoleCalls
import Verif.Proofs.ConsoleLog
import Verif.Props.ConsoleLog
import Verif.Model.MacroForEach
import Verif.Model.Traits
import Verif.Model.DebugMacros
import Verif.Spec.Traits
import Verif.Proofs.Traits
import Verif.Props.Traits
import Verif.Props.DebugMacros
import Verif.Model.HtmlScript
import Verif.Spec.HtmlScript
import Verif.Proofs.HtmlScript
import Verif.Props.HtmlScript
import Verif.Model.Export
import Verif.Spec.Export
import Verif.Proofs.Export
import Verif.Props.Export
import Verif.Model.BoundSerializer
import Verif.Spec.BoundSerializer
import Verif.Proofs.BoundSerializer
import Verif.Props.BoundSerializer
import Verif.Model.Singleton
import Verif.Model.ConsoleThreads
import Verif.Spec.Singleton
import Verif.Props.Singleton
import Verif.Props.ConsoleThreads
import Verif.Props.HtmlColors
import Verif.Props.HtmlOpen
import Verif.Model.AbsOverload
import Verif.Spec.AbsOverload
import Verif.Props.AbsOverload
import Verif.Model.DebugSwitch
import Verif.Spec.DebugSwitch
import Verif.Proofs.DebugSwitch
import Verif.Props.DebugSwitch
import Verif.Proofs.SameMesh
import Verif.Props.SameMesh
import Verif.Props.SameExport
import Verif.Spec.Loaded
import Verif.Props.Loaded
import Verif.Spec.LoadedGeometry
import Verif.Props.ConvexMesh
import Verif.Props.LoadedGeometry
import Verif.Props.LoadedTets
import Verif.Props.LoadedFlux
import Verif.Model.Rounding
import Verif.Spec.Rounding
import Verif.Proofs.Rounding
import Verif.Props.Rounding
import Verif.Props.Rounding3
import Verif.Props.RoundingNormals
import Verif.Props.RoundingEx
import Verif.Spec.Renumber
import Verif.Proofs.Renumber
import Verif.Props.Renumber
import Verif.Props.RenumberGeo
import Verif.Props.RenumberGeo3
import Verif.Props.RenumberEx
import Verif.Spec.Divergence
import Verif.Props.Divergence
import Verif.Props.Divergence3
import Verif.Props.Divergence4
import Verif.Props.Divergence5
import Verif.Spec.SavedGeometry
import Verif.Props.FlatGeometry
import Verif.Props.SavedGeometry
import Verif.Props.SavedGeometry3
import Verif.Props.SavedGeometryEx
import Verif.Model.DataAlias
import Verif.Props.DataAlias
import Verif.Model.VtkArrays
import Verif.Props.VtkArrays
import Verif.Proofs.Similar
import Verif.Props.Similar
import Verif.Props.SimilarPipe
import Verif.Model.ColorLoop
import Verif.Proofs.ColorLoop
import Verif.Props.ColorLoop
import Verif.Model.LogCrash
import Verif.Proofs.LogCrash
import Verif.Props.LogCrash
import Verif.Model.FpmaText
import Verif.Proofs.FpmaText
import Verif.Proofs.FpmaShort
import Verif.Props.FpmaText
import Verif.Proofs.FpmaRefuse
import Verif.Props.FpmaRefuse
import Verif.Proofs.VtkAny
import Verif.Props.VtkAny
import Verif.Model.FailedLoad
import Verif.Proofs.FailedLoad
import Verif.Props.FailedLoad
import Verif.Model.VtkText
import Verif.Spec.VtkText
import Verif.Proofs.VtkText
import Verif.Props.VtkText
import Verif.Model.Signed
import Verif.Props.Signed
import Verif.Model.Uninit
import Verif.Props.Uninit
import Verif.Model.SubInterface
import Verif.Props.SubInterface
import Verif.Model.MeshVertex
import Verif.Props.MeshVertex
import Verif.Model.SignedRaw
import Verif.Props.SignedRaw
import Verif.Model.CutFile
import Verif.Props.CutFile
import Verif.Model.ContBinary
import Verif.Props.ContBinary
import Verif.Model.CopySerializer
import Verif.Props.CopySerializer

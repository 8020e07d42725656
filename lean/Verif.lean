import Verif.Model.RealArith
import Verif.Model.Cli
import Verif.Validation
import Verif.Lemmas.Closed
import Verif.Lemmas.HullBuild
import Verif.Lemmas.HullGeom
import Verif.Lemmas.HullPoly
import Verif.Lemmas.RealKernel
import Verif.Lemmas.Motion
import Verif.Lemmas.Equivariance
import Verif.Lemmas.FaceSum
import Verif.Lemmas.Poison
import Verif.Spec.Suffix
import Verif.Spec.Newton
import Verif.Lemmas.LineInt
import Verif.Spec.Tetra
import Verif.Props.Hull
import Verif.Props.Gravity
import Verif.Lemmas.SolidAngle
import Verif.Lemmas.ChangeVar
import Verif.Lemmas.FaceInt
import Verif.Lemmas.Omega
import Verif.Lemmas.Decompose
import Verif.Props.Edge
import Verif.Props.SolidAngle
import Verif.Props.Failure
import Verif.Props.History
import Verif.Props.Flags
import Verif.Props.Station
import Verif.Props.Longitude
import Verif.Props.Frames
import Verif.Props.Config
import Verif.Props.Cli
import Verif.Props.Cross
import Verif.Lemmas.NewtonInt
import Verif.Lemmas.HullSurface
import Verif.Spec.Examples
import Verif.Props.Newton
import Verif.Lemmas.TensorInt
import Verif.Lemmas.TensorDeriv
import Verif.Lemmas.TensorFace
import Verif.Lemmas.BallAngle
import Verif.Props.Tensor
import Verif.Props.Trace
import Verif.Lemmas.TensorPlane
import Verif.Props.TensorNewton
import Verif.Props.TensorLaws
import Verif.Props.ThinTube
import Verif.Model.Shipped
import Verif.Props.Shipped
import Verif.Props.EndToEnd
import Verif.Props.Twin
import Verif.Model.Methods
import Verif.Props.Methods
import Verif.Props.Accuracy
import Verif.Props.FarField
import Verif.Props.Precision
import Verif.Props.EdgeLine
import Verif.Props.Limit
import Verif.Props.Rate
import Verif.Props.EdgeHull
import Verif.Model.Heap
import Verif.Lemmas.Heap
import Verif.Props.Objects
import Verif.Model.InHull
import Verif.Props.InHull
import Verif.Model.Main
import Verif.Model.Start
import Verif.Props.Main
import Verif.Lemmas.Potential
import Verif.Props.Potential
import Verif.Props.RunPrecision
import Verif.Props.RunRate
import Verif.Model.Earth
import Verif.Lemmas.Earth
import Verif.Lemmas.Rigid
import Verif.Props.Earth
import Verif.Props.Misplaced
import Verif.Lemmas.HullStable
import Verif.Props.Stability
import Verif.Props.FarField2
import Verif.Model.Access
import Verif.Props.Access
import Verif.Lemmas.Sphere
import Verif.Props.Sphere
import Verif.Props.Superposition
import Verif.Props.RunLaws
import Verif.Model.Record
import Verif.Props.Record
import Verif.Model.Timing
import Verif.Props.Timing
import Verif.Spec.Setting
import Verif.Props.Joint
import Verif.Props.RunJoint
import Verif.Spec.Binary
import Verif.Props.RunGrid
import Verif.Spec.General
import Verif.Lemmas.Facets
import Verif.Lemmas.Net
import Verif.Props.AnyHull
import Verif.Props.HullExists
import Verif.Lemmas.Limit
import Verif.Lemmas.Corners
import Verif.Lemmas.Reindex
import Verif.Props.AppliedCli
import Verif.Props.AppliedBodies
import Verif.Props.NotANumber
import Verif.Props.Defined
import Verif.Props.DefinedRun
import Verif.Model.Csv
import Verif.Lemmas.CsvText
import Verif.Props.CsvFiles
import Verif.Props.InputFiles
import Verif.Props.Start
import Verif.Lemmas.Analytic
import Verif.Lemmas.Unique
import Verif.Lemmas.UniqueBody
import Verif.Lemmas.UniqueLocal
import Verif.Props.Unique
import Verif.Lemmas.Plate
import Verif.Props.Plate
import Verif.Lemmas.Reaction
import Verif.Props.Reaction
import Verif.Lemmas.Measurable
import Verif.Lemmas.Flux
import Verif.Lemmas.AlmostAll
import Verif.Props.Flux
import Verif.Props.Exact
import Verif.Lemmas.Stale
import Verif.Props.Stale
import Verif.Props.ExactFrames
import Verif.Props.ExactShipped
import Verif.Lemmas.Prism
import Verif.Lemmas.PrismGradient
import Verif.Props.Prism
import Verif.Props.Columns
import Verif.Props.PrismFloat
import Verif.Props.ExactFiles
import Verif.Lemmas.TubeError
import Verif.Props.ExactTensor
import Verif.Props.ExactQuery
import Verif.Props.AnyHullTensor
import Verif.Props.PrismRun
import Verif.Model.Yaml
import Verif.Model.ShippedText
import Verif.Spec.Yaml
import Verif.Lemmas.Yaml
import Verif.Props.Yaml
import Verif.Model.CommandLine
import Verif.Spec.CommandLine
import Verif.Lemmas.CommandLine
import Verif.Props.CommandLine
import Verif.Props.WholeProgram
import Verif.Props.StationSum
import Verif.Props.WholeDensities
import Verif.Props.WholePrecision
import Verif.Props.WholeInputs
import Verif.Props.WholePrism
import Verif.Props.WholeGrid
import Verif.Props.GridExact
import Verif.Props.WholeGridErrors

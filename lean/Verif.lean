import Verif.Base.Py
import Verif.Base.Float
import Verif.Model.Fields
import Verif.Model.GridIO
import Verif.Spec.Format
import Verif.Lemmas.Lists
import Verif.Lemmas.GridIO
import Verif.Props.GridIO
import Verif.Model.Nearest
import Verif.Lemmas.Nearest
import Verif.Props.Nearest
import Verif.Model.Geometry
import Verif.Model.ComputeGrid
import Verif.Lemmas.ComputeGrid
import Verif.Lemmas.ToMitgrid
import Verif.Props.ComputeGrid
import Verif.Props.Conservation
import Verif.Props.Geometry
import Verif.Model.MkGrid
import Verif.Props.MkGrid
import Verif.Model.Regrid
import Verif.Lemmas.Regrid
import Verif.Props.Regrid
import Verif.Props.RegridSource
import Verif.Model.MatchEdges
import Verif.Model.AddFringe
import Verif.Model.Stitch
import Verif.Lemmas.MatchEdges
import Verif.Props.MatchEdges
import Verif.Lemmas.AddFringe
import Verif.Props.AddFringe
import Verif.Props.Stitch
import Verif.Model.GetObcs
import Verif.Props.Mds2Mitgrid
import Verif.Lemmas.GetObcs
import Verif.Props.GetObcs
import Verif.Props.ObcsOutput
import Verif.Model.MdsMeta
import Verif.Lemmas.MdsMeta
import Verif.Props.MdsMeta
import Verif.Base.NdArr
import Verif.Model.MdsData
import Verif.Lemmas.NdArr
import Verif.Lemmas.MdsData
import Verif.Lemmas.MdsRead
import Verif.Props.MdsTiles
import Verif.Props.MdsData
import Verif.Props.MdsIters
import Verif.Spec.Obcs
import Verif.Props.Cartesian
import Verif.Props.Pipeline
import Verif.Props.Sphere
import Verif.Props.GreatCircle
import Verif.Model.RunFiles
import Verif.Props.RunFiles
import Verif.Model.CommandLine
import Verif.Model.Commands
import Verif.Lemmas.CommandLine
import Verif.Lemmas.CommandArgs
import Verif.Props.CommandLine
import Verif.Props.Commands
import Verif.Props.CommandCalls
import Verif.Props.SphereGrid
import Verif.Lemmas.SphereArea
import Verif.Lemmas.SpherePatch
import Verif.Props.SphereArea
import Verif.Props.SphereTotal
import Verif.Lemmas.SphereMesh
import Verif.Props.SphereRegrid
import Verif.Props.SphereMkRegrid
import Verif.Model.MdsMore
import Verif.Lemmas.MdsMemmap
import Verif.Props.MdsMemmap
import Verif.Props.MdsReturn
import Verif.Props.MdsFormat
import Verif.Props.MdsWrite
import Verif.Props.AreaFormulas
import Verif.Props.CommandWords
import Verif.Props.Rounding
import Verif.Props.RoundedAreas
import Verif.Base.Ieee
import Verif.Lemmas.Ieee
import Verif.Lemmas.IeeeOps
import Verif.Lemmas.IeeeNearest
import Verif.Lemmas.IeeeSingle
import Verif.Props.Doubles
import Verif.Props.DoubleAreas
import Verif.Props.SinglePrecision
import Verif.Props.DoubleLongitudes
import Verif.Props.PoleAreas
import Verif.Model.MdsFloats
import Verif.Lemmas.IeeeDivision
import Verif.Lemmas.IeeeDecimal
import Verif.Props.DoubleTimes
import Verif.Props.WholeGrid
import Verif.Props.AnySide
import Verif.Props.Mirror
import Verif.Props.CommandsAnySide
import Verif.Props.PoleMkgrid
import Verif.Props.StitchWhole
import Verif.Props.RegridLayouts
import Verif.Model.Messages
import Verif.Props.Messages
import Verif.Props.Again
import Verif.Props.TileOrder
import Verif.Props.TwoSteps
import Verif.Props.TileSwap
import Verif.Props.TileBlock
import Verif.Props.Windows
import Verif.Props.Parts
import Verif.Props.CutJoin
import Verif.Props.ObcsAgain
import Verif.Props.MdsCompat
import Verif.Props.MdsSizes
import Verif.Props.MdsSizesMm
import Verif.Props.DoublePoints
import Verif.Props.MdsGlob
import Verif.Props.MdsType
import Verif.Props.MdsBracket
import Verif.Props.MdsFrame
import Verif.Props.ObcsFailed
import Verif.Props.ObcsBracket
import Verif.Props.ObcsUnused
import Verif.Props.ObcsSeparate
import Verif.Props.Thresholds
import Verif.Props.ObcsFiles

import Verif.Py.Str
import Verif.Py.Base
import Verif.Proofs.Str
import Verif.Spec.Common
import Verif.Model.NeutUtilities
import Verif.Proofs.Lines
import Verif.Proofs.NeutUtilities
import Verif.Props.NeutUtilities
import Verif.Model.OutputUtilities
import Verif.Proofs.OutputUtilities
import Verif.Props.OutputUtilities
import Verif.Proofs.Dict
import Verif.Model.Readers
import Verif.Proofs.Printlib
import Verif.Spec.Printlib
import Verif.Proofs.Readers
import Verif.Props.Readers
import Verif.Model.Constants
import Verif.Model.GroupTables
import Verif.Model.FluxesWriter
import Verif.Props.Constants
import Verif.Spec.Groups
import Verif.Proofs.FluxesWriter
import Verif.Props.FluxesWriter
import Verif.Py.Numpy
import Verif.Proofs.Numpy
import Verif.Model.McnpAnalysis
import Verif.Props.McnpAnalysis
import Verif.Model.FispactAnalysis
import Verif.Proofs.FispactAnalysis
import Verif.Props.FispactAnalysis
import Verif.Model.MeshtalAnalysis
import Verif.Proofs.MapM
import Verif.Proofs.Meshtal
import Verif.Props.MeshtalAnalysis
import Verif.Proofs.MeshtalReader
import Verif.Props.MeshtalReader
import Verif.Proofs.Except
import Verif.Model.FispactOutput
import Verif.Props.FispactOutput
import Verif.Props.FispactOutput2
import Verif.Props.FispactOutput3
import Verif.Model.McnpInput
import Verif.Spec.McnpInput
import Verif.Proofs.NatStr
import Verif.Proofs.McnpInput
import Verif.Props.McnpInput
import Verif.Props.McnpInput2
import Verif.Props.McnpInput3
import Verif.Props.McnpWrap
import Verif.Props.McnpCells
import Verif.Props.McnpSurfaces
import Verif.Props.XsdirThermal
import Verif.Model.McnpOutput
import Verif.Proofs.McnpOutput
import Verif.Props.McnpOutput
import Verif.Props.McnpOutput2
import Verif.Props.McnpOutput3
import Verif.Props.McnpOutput4
import Verif.Props.McnpOutput5
import Verif.Model.Geom
import Verif.Proofs.Geom
import Verif.Props.Geom1
import Verif.Props.Geom2
import Verif.Props.Geom3
import Verif.Model.R2sCell
import Verif.Proofs.PyM
import Verif.Props.R2sCell
import Verif.Props.R2sCell2
import Verif.Model.McnpPlots
import Verif.Props.McnpPlots
import Verif.Props.McnpPlots2
import Verif.Props.McnpPlots3
import Verif.Props.Constants2
import Verif.Model.FispactPlots
import Verif.Props.FispactPlots
import Verif.Props.McnpOutput6
import Verif.Model.McnpInputText
import Verif.Props.McnpInput4
import Verif.Model.MeshPlots
import Verif.Props.MeshPlots
import Verif.Model.Misc
import Verif.Props.Misc
import Verif.Model.Misc2
import Verif.Props.Misc2
import Verif.Spec.Elements
import Verif.Props.R2sCell3
import Verif.Props.Tighten
import Verif.Props.McnpOutput7
import Verif.Props.McnpOutput8
import Verif.Props.Tighten2
import Verif.Model.Oos
import Verif.Props.Oos
import Verif.Props.Xsdir2
import Verif.Props.MeshFloat
import Verif.Props.Detector
import Verif.Props.Table60
import Verif.Props.CellSyntax
import Verif.Props.CardSyntax
import Verif.Props.SliceErrors
import Verif.Props.General
import Verif.Props.Tighten3
import Verif.Props.Wave
import Verif.Props.PlotErrors
import Verif.Props.Legends
import Verif.Props.General2
import Verif.Model.SummaryTable
import Verif.Props.MeshBlank
import Verif.Props.SummaryTable
import Verif.Props.R2sCell4
import Verif.Model.NucChart
import Verif.Props.NucChart
import Verif.Model.FispactChain
import Verif.Props.FispactChain
import Verif.Model.TimeSpectra
import Verif.Props.TimeSpectra
import Verif.Props.OosChain
import Verif.Spec.Ptrac
import Verif.Props.PtracFormat
import Verif.Model.FispactObjects
import Verif.Props.StepFields
import Verif.Props.FispactObjects
import Verif.Props.MeshForms
import Verif.Model.MeshColumns
import Verif.Props.Sharper
import Verif.Spec.OosLevels
import Verif.Props.Tighten4
import Verif.Props.R2sRun
import Verif.Props.EtCharts
import Verif.Props.ReadersLocal
import Verif.Props.WritersLocal
import Verif.Model.TableEffects
import Verif.Props.TableEffects
import Verif.Spec.Html
import Verif.Props.Tighten5
import Verif.Model.PtracMean
import Verif.Props.PtracMean
import Verif.Props.SummaryCooling
import Verif.Props.Tighten6
import Verif.Model.MeshDowncast
import Verif.Props.MeshDowncast
import Verif.Props.Tighten7
import Verif.Props.MeshSum
import Verif.Props.LetterCase
import Verif.Props.Spacing
import Verif.Model.MatCard
import Verif.Props.MatCard
import Verif.Props.GeomShift
import Verif.Props.GeomTurn
import Verif.Props.Reduced
import Verif.Props.Tighten8
import Verif.Props.CardOrder
import Verif.Props.BlockOrder
import Verif.Props.NoComments
import Verif.Props.Scale
import Verif.Props.MeshUnits
import Verif.Props.InputEnds
import Verif.Props.TallyOrder
import Verif.Props.Vised
import Verif.Props.Tabs
import Verif.Props.NuclideOrder
import Verif.Props.PtracParts
import Verif.Props.InlineComments
import Verif.Props.VoxelOrder
import Verif.Props.MeshOrder
import Verif.Props.TallyFile
import Verif.Props.Faults
import Verif.Props.GeomForms
import Verif.Props.CutOff
import Verif.Props.Trailing
import Verif.Props.Again
import Verif.Props.EntryOrder
import Verif.Props.FileEnds
import Verif.Props.ChartOrder
import Verif.Props.GeomAgree
import Verif.Props.InvParts
import Verif.Props.Decay
import Verif.Props.FewestLines
import Verif.Model.Programs
import Verif.Props.Programs
import Verif.Props.TwoNumbers
import Verif.Props.MeshTotal
import Verif.Props.GeomMoved
import Verif.Props.WiderLines
import Verif.Props.LookupOrder
import Verif.Model.McnpOutputDebug
import Verif.Props.McnpOutputDebug
import Verif.Props.Repeats
import Verif.Props.StepsAlone
import Verif.Props.Behind
import Verif.Props.McnpZero
import Verif.Props.Front
import Verif.Props.HashOrder
import Verif.Props.MeshAgree
import Verif.Props.References
import Verif.Props.ConfigOrder
import Verif.Props.CellSearch
import Verif.Props.ReadBack
import Verif.Props.OutsideGroups
import Verif.Props.OutsideMesh
import Verif.Props.XsdirSections
import Verif.Props.XsdirCase
import Verif.Props.OutsideBins
import Verif.Props.ShortNumbers
import Verif.Props.SmallResults
import Verif.Props.NuclideTwice
import Verif.Props.LostSurfaces
import Verif.Props.LostCells
import Verif.Props.LargerSolids
import Verif.Props.Rewrap
import Verif.Props.FinerGroups
import Verif.Props.Searches
import Verif.Props.Underscores
import Verif.Tests.Base
import Verif.Tests.McnpInput
import Verif.Tests.Small

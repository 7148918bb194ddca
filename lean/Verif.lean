import Verif.Props.GridSearch
import Verif.Props.Optimizer
import Verif.Props.Adstock
import Verif.Props.AdstockJax
import Verif.Props.Transformers
import Verif.Props.Knots
import Verif.Props.TimeCoordinates
import Verif.Props.DateBuckets
import Verif.Props.BandSolve
import Verif.Props.Aks
import Verif.Props.Selection
import Verif.Props.Mmm
import Verif.Props.Labels
import Verif.Props.Metrics
import Verif.Props.Curves
import Verif.Props.Sampler
import Verif.Props.Batching
import Verif.Props.InputData
import Verif.Props.Options
import Verif.Props.Spend
import Verif.Props.GridReuse
import Verif.Props.Stabilize
import Verif.Props.Registry
import Verif.Props.SpecSerde
import Verif.Props.Builder
import Verif.Props.DataFrame
import Verif.Props.TensorProto
import Verif.Props.DistSerde
import Verif.Props.Equation
import Verif.Props.LogNormal
import Verif.Props.Priors
import Verif.Props.Identify
import Verif.Props.Multi
import Verif.Props.DistEq
import Verif.Props.Thin
import Verif.Props.SaveLoad
import Verif.Props.Interval
import Verif.Props.Accuracy
import Verif.Props.FitData
import Verif.Props.Rhat
import Verif.Props.Review
import Verif.Props.Health
import Verif.Props.DataSerde
import Verif.Props.Eda
import Verif.Props.EdaStd
import Verif.Props.EdaData
import Verif.Props.EdaMore
import Verif.Props.Weekly
import Verif.Props.Results
import Verif.Props.ResultCharts
import Verif.Props.Formatter
import Verif.Props.Summary
import Verif.Props.FreqReport
import Verif.Props.MediaCurves
import Verif.Props.Views
import Verif.Props.Contrib
import Verif.Props.SummaryTable
import Verif.Props.DatedSpec
import Verif.Props.Consumer
import Verif.Props.FitProto
import Verif.Props.MarketingProto
import Verif.Props.BudgetProto
import Verif.Props.FullBudget
import Verif.Props.ReachProto
import Verif.Props.NewData
import Verif.Props.Tables
import Verif.Props.UiSpecs
import Verif.Props.NdArray
import Verif.Props.Calibration
import Verif.Props.XrLoad
import Verif.Props.Lookup
import Verif.Props.Lifecycle
import Verif.Props.Page
import Verif.Props.ArrayOps
import Verif.Props.EdaReport
import Verif.Props.EdaCharts
import Verif.Props.DataObject
import Verif.Props.RunLog
import Verif.Props.Publish
import Verif.Props.LegacyKnots
import Verif.Props.Announce
import Verif.Props.Nested
import Verif.Props.ScenarioText
import Verif.Props.Archive
import Verif.Props.Engine
import Verif.Props.OldFiles
import Verif.Props.CurveTable
import Verif.Props.Currency
import Verif.Props.TensorFilter
import Verif.Props.HealthCard
import Verif.Props.AlphaPrior
import Verif.Props.EdaStack
import Verif.Props.EdaTables

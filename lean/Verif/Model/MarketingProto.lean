import Verif.Model.DatedSpec
import Verif.Model.FitProto
import Verif.Model.Interval

/-!
# The marketing analysis messages

`MarketingProcessor`, `meridian/schema/processors/marketing_processor.py`.  The analyzer's answers are
functions of the arguments of the call (`Analyzer`); a call that raises is not modelled.  Optional message
fields are options.  Fixed texts (`impressions`, `spend` as names of units) and warnings are left out.
-/

namespace Verif.MarketingProto

open Verif (Num)
open Verif.Calendar (CDate)
open Verif.FitProto (Estimate)

/-- Errors. -/
inductive Err where
  | dated (e : DatedSpec.Err)
  | level
  | neither
  | both
  | newTime
  | key
deriving DecidableEq

/-- The variables of the datasets. -/
inductive Var where
  | incremental
  | contribution
  | effectiveness
  | roi
  | mroi
  | cpik
  | spend
  | spendShare
  | baseline
deriving DecidableEq

/-- The coordinate `metric`. -/
inductive Stat where
  | mean
  | median
  | low
  | high
deriving DecidableEq

/-- The coordinate `distribution`. -/
inductive Dist where
  | prior
  | posterior
deriving DecidableEq

/-- What a dataset holds for one channel (and time): for each variable it has, the values by metric.  A
variable without the metric dimension holds the same value for each. -/
abbrev Cell := Var → Option (Stat → Num)

/-- A dataset with a channel coordinate and perhaps a time coordinate.  The baseline dataset has no
channels. -/
structure Dataset where
  channels : List String
  times : Option (List CDate)
  cell : String → Option CDate → Cell

/-- The response curves. -/
structure Curves where
  channels : List String
  multipliers : List ℚ
  spend : String → ℚ → Num
  incremental : String → ℚ → Stat → Num

/-- `DataTensors`: its time coordinate and the rest. -/
structure NewData (δ : Type) where
  time : Option (List CDate)
  rest : δ

/-- `MediaSummarySpec`, `meridian/schema/processors/marketing_processor.py:145-180`. -/
structure MediaSpec (δ : Type) where
  aggregate : Bool := true
  mroiByReach : Bool := true
  nonPaid : Bool := false
  newData : Option (NewData δ) := none
  mediaTimes : Option (List Bool) := none

/-- `IncrementalOutcomeSpec`, `meridian/schema/processors/marketing_processor.py:183-222`. -/
structure IncSpec (δ : Type) where
  aggregate : Bool := true
  newData : Option (NewData δ) := none
  mediaTimes : Option (List Bool) := none
  nonPaid : Bool := false

/-- `IncrementalOutcomeSpec.validate`, `meridian/schema/processors/marketing_processor.py:219-222`. -/
def IncSpec.validate {δ : Type} (s : IncSpec δ) : Except Err Unit :=
  match s.newData with
  | none => .ok ()
  | some n => if n.time.isNone then .error .newTime else .ok ()

/-- `MarketingAnalysisSpec`, `meridian/schema/processors/marketing_processor.py:241-267`, with
`ResponseCurveSpec` (225-238). -/
structure MSpec (δ : Type) where
  dated : DatedSpec.Spec
  media : Option (MediaSpec δ) := none
  inc : Option (IncSpec δ) := none
  byReach : Bool := true
  level : ℚ

/-- `MarketingAnalysisSpec.validate`, `meridian/schema/processors/marketing_processor.py:269-290`. -/
def MSpec.validate {δ : Type} (s : MSpec δ) : Except Err Unit :=
  match DatedSpec.validate s.dated with
  | .error e => .error (.dated e)
  | .ok () =>
    if s.level ≤ 0 ∨ 1 ≤ s.level then .error .level
    else if s.media.isNone && s.inc.isNone then .error .neither
    else if s.media.isSome && s.inc.isSome then .error .both
    else .ok ()

/-- The arguments of `summary_metrics`. -/
structure SummaryArgs (δ : Type) where
  mroiByReach : Bool
  selected : Option (List CDate)
  aggregateGeos : Bool
  aggregate : Bool
  newData : Option (NewData δ)
  level : ℚ
  useKpi : Bool
  nonPaid : Bool

/-- The arguments of `baseline_summary_metrics`. -/
structure BaselineArgs where
  level : ℚ
  aggregate : Bool
  selected : Option (List CDate)

/-- The arguments of `response_curves`. -/
structure CurveArgs where
  level : ℚ
  usePosterior : Bool
  selected : Option (List CDate)
  useKpi : Bool
  byReach : Bool

/-- The arguments of `compute_incremental_outcome_aggregate`. -/
structure IncArgs (δ : Type) where
  newData : Option (NewData δ)
  mediaTimes : Option (List Bool)
  usePosterior : Bool
  useKpi : Bool
  nonPaid : Bool
  selected : Option (List Bool)
  aggregateGeos : Bool
  aggregate : Bool

/-- The trained model and its analyzer.  `incremental` gives the draws (chain by chain) of a channel and,
unless times are aggregated, of a time, both by position. -/
structure Analyzer (δ : Type) where
  dates : List CDate
  paid : List String
  nonPaid : List String
  revenueKpi : Bool
  kpiOnly : Bool
  summary : SummaryArgs δ → Dist → Dataset
  baseline : BaselineArgs → Dist → Dataset
  curves : CurveArgs → Curves
  incremental : IncArgs δ → ℕ → ℕ → List (List Num)

/-- An `Outcome` message. -/
structure Outcome where
  revenue : Bool
  value : Estimate
  share : Option Estimate
  effectiveness : Option Estimate
  cpik : Option Estimate
  roi : Option Estimate
  mroi : Option Estimate
deriving DecidableEq

/-- A `MediaAnalysis` message; spend and its share, and the response points. -/
structure Media where
  name : String
  outcomes : List Outcome
  spend : Option (Num × Num)
  curve : Option (List (Num × Num))
deriving DecidableEq

/-- A `NonMediaAnalysis` message. -/
structure NonMedia where
  name : String
  outcomes : List Outcome
deriving DecidableEq

/-- A `MarketingAnalysis` message. -/
structure Analysis where
  interval : DatedSpec.Interval
  media : List Media
  nonMedia : List NonMedia
deriving DecidableEq

/-- `constants.ALL_CHANNELS`. -/
def allChannels : String := "All Channels"

/-- `constants.BASELINE`. -/
def baselineName : String := "baseline"

/-- All results or the first error. -/
def collect {α β : Type} (f : α → Except Err β) : List α → Except Err (List β)
  | [] => .ok []
  | a :: l => match f a with
    | .error e => .error e
    | .ok b => match collect f l with
      | .error e => .error e
      | .ok bs => .ok (b :: bs)

/-- `to_estimate`, `meridian/schema/processors/common.py:48-67`. -/
def toEstimate (v : Stat → Num) (level : ℚ) (m : Stat) : Estimate := ⟨v m, level, v .low, v .high⟩

/-- Division of an array by 100. -/
def percent (v : Stat → Num) : Stat → Num := fun s => (v s).map (· / 100)

/-- `_compute_outcome`, `meridian/schema/processors/marketing_processor.py:879-958`. -/
def outcome (c : Cell) (revenue all : Bool) (level : ℚ) : Except Err Outcome :=
  match c .incremental with
  | none => .error .key
  | some v => .ok
    { revenue := revenue
      value := toEstimate v level .mean
      share := (c .contribution).map fun v => toEstimate (percent v) level .mean
      effectiveness := if all then none else (c .effectiveness).map fun v => toEstimate v level .mean
      cpik := (c .cpik).map fun v => toEstimate v level .median
      roi := (c .roi).map fun v => toEstimate v level .mean
      mroi := if all then none else (c .mroi).map fun v => toEstimate v level .mean }

/-- `_compute_spend`, `meridian/schema/processors/marketing_processor.py:1120-1138`. -/
def spendInfo (c : Cell) : Except Err (Option (Num × Num)) :=
  match c .spend with
  | none => .ok none
  | some s => match c .spendShare with
    | none => .error .key
    | some p => .ok (some (s .mean, percent p .mean))

/-- `_compute_response_curve`, `meridian/schema/processors/marketing_processor.py:960-1000`.  The
multipliers are distinct. -/
def curve (r : Curves) (ch : String) : List (Num × Num) :=
  r.multipliers.map fun x => (r.spend ch x, r.incremental ch x .mean)

/-- `dataset.sel(...)` with the time only if `timed`,
`meridian/schema/processors/marketing_processor.py:715-729`. -/
def sel (ds : Dataset) (timed : Bool) (ch : String) (start : CDate) : Except Err Cell :=
  if ch ∉ ds.channels then .error .key
  else if timed then
    match ds.times with
    | none => .error .key
    | some ts => if start ∈ ts then .ok (ds.cell ch (some start)) else .error .key
  else .ok (ds.cell ch none)

/-- The outcomes of a channel, `meridian/schema/processors/marketing_processor.py:776-807`. -/
def outcomes (kpiOnly : Bool) (ch : String) (level : ℚ) (primary : Cell) (secondary : Option Cell) :
    Except Err (List Outcome) :=
  match outcome primary (!kpiOnly) (decide (ch = allChannels)) level with
  | .error e => .error e
  | .ok o => match secondary with
    | none => .ok [o]
    | some c => match outcome c false (decide (ch = allChannels)) level with
      | .error e => .error e
      | .ok o' => .ok [o, o']

/-- The secondary metrics at the same place, `meridian/schema/processors/marketing_processor.py:724-727`. -/
def selSecondary (ds : Option Dataset) (timed : Bool) (ch : String) (start : CDate) :
    Except Err (Option Cell) :=
  match ds with
  | none => .ok none
  | some d => match sel d timed ch start with
    | .error e => .error e
    | .ok c => .ok (some c)

/-- `_get_channel_metrics` and `_channel_metrics_to_proto`,
`meridian/schema/processors/marketing_processor.py:703-824`: the outcomes and the spend. -/
def channelMetrics (kpiOnly : Bool) (level : ℚ) (metrics : Dataset) (secondary : Option Dataset)
    (ch : String) (start : CDate) : Except Err (List Outcome × Option (Num × Num)) :=
  match sel metrics metrics.times.isSome ch start with
  | .error e => .error e
  | .ok c => match selSecondary secondary metrics.times.isSome ch start with
    | .error e => .error e
    | .ok c' => match spendInfo c with
      | .error e => .error e
      | .ok s => match outcomes kpiOnly ch level c c' with
        | .error e => .error e
        | .ok os => .ok (os, s)

/-- A channel of the media metrics. -/
def mediaAnalysis (kpiOnly : Bool) (level : ℚ) (metrics : Dataset) (secondary : Option Dataset)
    (curves : Option Curves) (start : CDate) (ch : String) : Except Err Media :=
  match channelMetrics kpiOnly level metrics secondary ch start with
  | .error e => .error e
  | .ok (os, s) => .ok
    ⟨ch, os, s, curves.bind fun r => if ch ∈ r.channels then some (curve r ch) else none⟩

/-- A channel of the other metrics; spend and response curve are dropped. -/
def nonMediaAnalysis (kpiOnly : Bool) (level : ℚ) (metrics : Dataset) (secondary : Option Dataset)
    (start : CDate) (ch : String) : Except Err NonMedia :=
  match channelMetrics kpiOnly level metrics secondary ch start with
  | .error e => .error e
  | .ok (os, _) => .ok ⟨ch, os⟩

/-- `_get_baseline_metrics`, `meridian/schema/processors/marketing_processor.py:826-877`. -/
def baselineAnalysis (kpiOnly : Bool) (level : ℚ) (ds : Dataset) (start : CDate) : Except Err NonMedia :=
  match sel { ds with channels := [baselineName] } ds.times.isSome baselineName start with
  | .error e => .error e
  | .ok c => match c .baseline, c .contribution with
    | some v, some p => .ok ⟨baselineName, [⟨!kpiOnly, toEstimate v level .mean,
        some (toEstimate (percent p) level .mean), none, none, none, none⟩]⟩
    | _, _ => .error .key

/-- The metrics of one spec. -/
structure Metrics where
  media : Dataset
  nonMedia : Option Dataset
  baseline : Option Dataset
  secondary : Option Dataset
  secondaryNonMedia : Option Dataset
  curves : Option Curves

/-- The channels of the other metrics that are not channels of the media metrics: a name in both counts as
a media channel (`is_media_channel`, `meridian/schema/processors/marketing_processor.py:665`). -/
def otherChannels (m : Metrics) : List String :=
  match m.nonMedia with
  | none => []
  | some d => d.channels.filter fun ch => decide (ch ∉ m.media.channels)

/-- The channels reported as media: those of the media metrics, then those of the other metrics which
carry the name of a media channel. -/
def mediaChannels (m : Metrics) : List String :=
  match m.nonMedia with
  | none => m.media.channels
  | some d => m.media.channels ++ d.channels.filter fun ch => decide (ch ∈ m.media.channels)

/-- The non-media analyses of one interval: channels, then the baseline. -/
def nonMediaAnalyses (kpiOnly : Bool) (level : ℚ) (m : Metrics) (start : CDate) :
    Except Err (List NonMedia) :=
  match m.nonMedia with
  | none => .ok []
  | some d => collect (nonMediaAnalysis kpiOnly level d m.secondaryNonMedia start) (otherChannels m)

/-- The baseline, if there is one. -/
def baselineAnalyses (kpiOnly : Bool) (level : ℚ) (m : Metrics) (start : CDate) :
    Except Err (List NonMedia) :=
  match m.baseline with
  | none => .ok []
  | some b => match baselineAnalysis kpiOnly level b start with
    | .error e => .error e
    | .ok n => .ok [n]

/-- One pass of the loop of `_marketing_metrics_to_protos`,
`meridian/schema/processors/marketing_processor.py:652-701`.  (When a pass raises, which of several errors
comes first is not modelled.) -/
def analysis (kpiOnly : Bool) (level : ℚ) (m : Metrics) (i : DatedSpec.Interval) : Except Err Analysis :=
  match collect (mediaAnalysis kpiOnly level m.media m.secondary m.curves i.start) (mediaChannels m) with
  | .error e => .error e
  | .ok ms => match nonMediaAnalyses kpiOnly level m i.start with
    | .error e => .error e
    | .ok ns => match baselineAnalyses kpiOnly level m i.start with
      | .error e => .error e
      | .ok bs => .ok ⟨i, ms, ns ++ bs⟩

/-- `Dataset.drop_sel`. -/
def dropSel (ds : Dataset) (names : List String) : Except Err Dataset :=
  if names.all fun n => decide (n ∈ ds.channels) then
    .ok { ds with channels := ds.channels.filter fun c => decide (c ∉ names) }
  else .error .key

/-- `_generate_media_and_non_media_summary_metrics`,
`meridian/schema/processors/marketing_processor.py:496-535`. -/
def summaryMetrics {δ : Type} (A : Analyzer δ) (s : MediaSpec δ) (selected : Option (List CDate))
    (level : ℚ) (useKpi : Bool) : Except Err (Dataset × Option Dataset) :=
  let args (np : Bool) : SummaryArgs δ :=
    ⟨s.mroiByReach, selected, true, s.aggregate, s.newData, level, useKpi, np⟩
  let media := A.summary (args false) .posterior
  if s.nonPaid then
    match dropSel media [allChannels] with
    | .error e => .error e
    | .ok m => match dropSel (A.summary (args true) .posterior) m.channels with
      | .error e => .error e
      | .ok n => .ok (m, some n)
  else .ok (media, none)

/-- The secondary metrics: only for a KPI that is not revenue but has a revenue per KPI,
`meridian/schema/processors/marketing_processor.py:440-454`. -/
def secondaryMetrics {δ : Type} (A : Analyzer δ) (s : MediaSpec δ) (selected : Option (List CDate))
    (level : ℚ) : Except Err (Option Dataset × Option Dataset) :=
  if !A.revenueKpi && !A.kpiOnly then
    match summaryMetrics A s selected level true with
    | .error e => .error e
    | .ok (m, n) => .ok (some m, n)
  else .ok (none, none)

/-- A step of the spec's resolver. -/
def lift {α : Type} (r : Except DatedSpec.Err α) : Except Err α :=
  match r with
  | .error e => .error (.dated e)
  | .ok a => .ok a

/-- `_build_time_intervals`, `meridian/schema/processors/marketing_processor.py:598-620`. -/
def intervals (axis : List CDate) (s : DatedSpec.Spec) (aggregate : Bool) :
    Except Err (List DatedSpec.Interval) :=
  if aggregate then
    match DatedSpec.collapse axis s with
    | .error e => .error (.dated e)
    | .ok i => .ok [i]
  else lift (DatedSpec.transform axis s)

/-- `_generate_marketing_analyses_for_media_summary_spec`,
`meridian/schema/processors/marketing_processor.py:404-494`. -/
def mediaAnalyses {δ : Type} (A : Analyzer δ) (axis : List CDate) (s : MSpec δ) (ms : MediaSpec δ) :
    Except Err (List Analysis) :=
  match lift (DatedSpec.selectedTimes axis s.dated) with
  | .error e => .error e
  | .ok selected => match summaryMetrics A ms selected s.level A.kpiOnly with
    | .error e => .error e
    | .ok (m, n) => match secondaryMetrics A ms selected s.level with
      | .error e => .error e
      | .ok (m', n') => match intervals axis s.dated ms.aggregate with
        | .error e => .error e
        | .ok is => collect (analysis A.kpiOnly s.level
            ⟨m, n, some (A.baseline ⟨s.level, ms.aggregate, selected⟩ .posterior), m', n',
              if ms.aggregate then some (A.curves ⟨s.level, true, selected, A.kpiOnly, s.byReach⟩)
              else none⟩) is

/-- The position of a metric in the output of `get_central_tendency_and_ci`. -/
def Stat.pos : Stat → ℕ
  | .mean => 0
  | .median => 1
  | .low => 2
  | .high => 3

/-- The values by metric of some draws (`get_central_tendency_and_ci` with the median). -/
def summarise (draws : List (List Num)) (level : ℚ) (m : Stat) : Num :=
  match Interval.central draws level true with
  | .error _ => none
  | .ok r => r.getD m.pos none

/-- `_incremental_outcome_dataset`, `meridian/schema/processors/marketing_processor.py:1004-1117`, as it
is called (geos aggregated, default batches). -/
def incDataset {δ : Type} (A : Analyzer δ) (axis : List CDate) (s : MSpec δ) (is : IncSpec δ)
    (useKpi : Bool) : Except Err Dataset :=
  match lift (DatedSpec.boolTimes axis s.dated), lift (DatedSpec.selectedTimes axis s.dated) with
  | .ok flags, .ok selected =>
    let args : IncArgs δ := ⟨is.newData, is.mediaTimes, true, useKpi, false, flags, true, is.aggregate⟩
    let channels := A.paid ++ [allChannels]
    let times := if is.aggregate then none else some (selected.getD axis)
    .ok ⟨channels, times, fun ch t v => match v with
      | .incremental => some (summarise (A.incremental args (channels.idxOf ch)
          ((times.getD []).idxOf (t.getD ⟨1, 1, 1⟩))) s.level)
      | _ => none⟩
  | .error e, _ => .error e
  | _, .error e => .error e

/-- `_generate_marketing_analyses_for_incremental_outcome_spec`,
`meridian/schema/processors/marketing_processor.py:537-596`.  (The secondary dataset is built here even
if it is not used; it raises exactly if the first one does.) -/
def incAnalyses {δ : Type} (A : Analyzer δ) (axis : List CDate) (s : MSpec δ) (is : IncSpec δ) :
    Except Err (List Analysis) :=
  match incDataset A axis s is A.kpiOnly with
  | .error e => .error e
  | .ok d => match incDataset A axis s is true with
    | .error e => .error e
    | .ok d' => match intervals axis s.dated is.aggregate with
      | .error e => .error e
      | .ok ints => collect (analysis A.kpiOnly s.level
          ⟨d, none, none, if !A.revenueKpi && !A.kpiOnly then some d' else none, none, none⟩) ints

/-- The new data of a spec, `meridian/schema/processors/marketing_processor.py:371-376`. -/
def newData {δ : Type} (s : MSpec δ) : Option (NewData δ) :=
  match s.inc with
  | some i => i.newData
  | none => match s.media with
    | some m => m.newData
    | none => none

/-- The time axis a spec is resolved on, `meridian/schema/processors/marketing_processor.py:378-384`. -/
def axis {δ : Type} (A : Analyzer δ) (s : MSpec δ) : Except Err (List CDate) :=
  match (newData s).bind fun n => n.time with
  | none => .ok A.dates
  | some ts => match TimeCoordinates.create ts with
    | .error e => .error (.dated (.time e))
    | .ok l => .ok l

/-- One pass of the loop of `execute`, `meridian/schema/processors/marketing_processor.py:370-399`. -/
def analyses {δ : Type} (A : Analyzer δ) (s : MSpec δ) : Except Err (List Analysis) :=
  match axis A s with
  | .error e => .error e
  | .ok ax =>
    match (match s.media with
      | none => Except.ok []
      | some m => mediaAnalyses A ax s m) with
    | .error e => .error e
    | .ok l => match (match s.inc with
        | none => Except.ok []
        | some i => incAnalyses A ax s i) with
      | .error e => .error e
      | .ok l' => .ok (l ++ l')

/-- `MarketingProcessor.execute`, `meridian/schema/processors/marketing_processor.py:340-402`.  The
constructor (306-323) already asks for the interval length of the model's dates. -/
def execute {δ : Type} (A : Analyzer δ) (specs : List (MSpec δ)) : Except Err (List Analysis) :=
  match lift (DatedSpec.interval A.dates) with
  | .error e => .error e
  | .ok _ => match collect (analyses A) specs with
    | .error e => .error e
    | .ok ls => .ok ls.flatten

end Verif.MarketingProto

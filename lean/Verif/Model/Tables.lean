import Verif.Model.Num
import Verif.Model.Calendar
import Mathlib.Data.List.Sort
import Mathlib.Data.String.Basic

/-!
# The tables of the dashboard

`scenarioplanner/converters/mmm.py` and `scenarioplanner/converters/dataframe`: from the message of an exported
model to named, flat tables.  Numbers are rational or NaN (`none`).  A message which is not set reads as its
default values.  Dates are printed as `YYYY-mm-dd` and read back; both are left out.  Warnings are not modelled.
-/

namespace Verif.Tables

open Verif Verif.Calendar

/-- Errors: `ValueError` for invalid dates, missing baseline, missing outcome, duplicate groups and tables,
unsupported metrics and constraints of frequencies; `KeyError`, `IndexError` and `ZeroDivisionError`. -/
inductive Err where
  | date
  | noBaseline
  | noOutcome
  | duplicateGroup
  | duplicateTable
  | metric
  | noConstraints
  | otherChannels
  | noMaximum
  | key
  | index
  | zeroDivision
deriving DecidableEq

/-- `KpiType`, `proto/mmm/v1/common/kpi_type.proto:24-33`. -/
inductive Kpi where
  | unspecified
  | revenue
  | nonRevenue
deriving DecidableEq

/-- `TargetMetric`, `proto/mmm/v1/common/target_metric.proto:24-41`. -/
inductive Metric where
  | unspecified
  | kpi
  | roi
  | mroi
  | cpik
deriving DecidableEq

/-- `Estimate`: its value and its intervals, `proto/mmm/v1/common/estimate.proto:24-43`. -/
structure Estimate where
  value : Num
  intervals : List (Num × Num)

/-- `Outcome`, `proto/mmm/v1/marketing/analysis/outcome.proto:27-77`. -/
structure Outcome where
  kpi : Kpi
  contribution : Num
  share : Num
  effectiveness : Num
  roi : Estimate
  mroi : Num
  cpc : Num

/-- `MediaAnalysis`, `proto/mmm/v1/marketing/analysis/media_analysis.proto:25-60`. -/
structure Media where
  name : String
  spend : Num
  spendShare : Num
  outcomes : List Outcome
  curve : List (Num × Num)

/-- `NonMediaAnalysis`, `proto/mmm/v1/marketing/analysis/non_media_analysis.proto:25-40`. -/
structure NonMedia where
  name : String
  outcomes : List Outcome

/-- `DateInterval`: year, month and day of its ends, and the tag,
`proto/mmm/v1/common/date_interval.proto:25-34`. -/
structure Interval where
  start : CDate
  stop : CDate
  tag : String

/-- `MarketingAnalysis`, `proto/mmm/v1/marketing/analysis/marketing_analysis.proto:26-35`. -/
structure Analysis where
  interval : Interval
  media : List Media
  nonMedia : List NonMedia

/-- `Prediction`, `proto/mmm/v1/fit/model_fit.proto:27-39`. -/
structure Prediction where
  start : CDate
  predicted : Estimate
  baseline : Num
  actual : Num

/-- `Result` of the model fit with its `Performance`, `proto/mmm/v1/fit/model_fit.proto:42-64`. -/
structure Fit where
  name : String
  predictions : List Prediction
  rSquared : Num
  mape : Num
  wmape : Num

/-- The scenario of a budget optimization; a flexible one has target metrics,
`proto/mmm/v1/marketing/optimization/budget_optimization.proto:31-43`. -/
inductive Scenario where
  | fixed (budget : ℚ)
  | flexible (maxBudget : ℚ) (targets : List (Metric × ℚ))
  | unset

/-- `ChannelConstraint` and `RfChannelConstraint`: a channel with two bounds,
`proto/mmm/v1/marketing/optimization/budget_optimization.proto:46-52` and
`proto/mmm/v1/marketing/optimization/reach_frequency_optimization.proto:39-48`. -/
structure Bound where
  name : String
  min : ℚ
  max : ℚ

/-- `BudgetOptimizationResult` with its spec, `proto/mmm/v1/marketing/optimization/budget_optimization.proto:55-193`. -/
structure Budget where
  group : String
  interval : Interval
  objective : Metric
  scenario : Scenario
  bounds : List Bound
  optimized : List Media
  gridName : List Char
  grid : List (String × List (Num × Num))

/-- `ReachFrequencyOptimizationResult` with its spec,
`proto/mmm/v1/marketing/optimization/reach_frequency_optimization.proto:50-151`. -/
structure Reach where
  group : String
  interval : Interval
  objective : Metric
  bounds : List Bound
  frequencies : List (String × Num)
  optimized : List Media
  gridName : List Char
  grid : List (String × List (Num × Num))

/-- `MarketingDataPoint`: spend of media and of reach and frequency channels,
`proto/mmm/v1/marketing/marketing_data.proto:104-183`. -/
structure Point where
  start : CDate
  stop : CDate
  media : List (String × ℚ)
  rf : List (String × ℚ)

/-- `Mmm`, `proto/mmm/v1/mmm.proto:29-42`, as far as it is used in `scenarioplanner/converters/mmm.py:697-756`. -/
structure Mmm where
  points : List Point
  fits : List Fit
  analyses : List Analysis
  budgets : List Budget
  reaches : List Reach

/-- A cell of a table. -/
inductive Cell where
  | str (s : String)
  | num (x : Num)
  | int (n : ℤ)
  | flag (b : Bool)
  | date (d : CDate)
  | none
deriving DecidableEq

/-- A data frame. -/
structure Frame where
  columns : List String
  rows : List (List Cell)
deriving DecidableEq

/-! ### Helpers -/

/-- A loop that ends with the first error. -/
def mapE {α β : Type} (f : α → Except Err β) : List α → Except Err (List β)
  | [] => .ok []
  | a :: l => match f a with
    | .error e => .error e
    | .ok b => match mapE f l with
      | .error e => .error e
      | .ok bs => .ok (b :: bs)

/-- `d[k] = v`: the entry keeps its place. -/
def put {β : Type} (d : List (String × β)) (k : String) (v : β) : List (String × β) :=
  if d.any (fun p => p.1 == k) then d.map fun p => if p.1 == k then (k, v) else p else d ++ [(k, v)]

/-- A dictionary from its entries. -/
def dictOf {β : Type} (l : List (String × β)) : List (String × β) := l.foldl (fun d p => put d p.1 p.2) []

/-- `d.get(k)`. -/
def get {β : Type} (d : List (String × β)) (k : String) : Option β := (d.find? fun p => p.1 == k).map Prod.snd

/-- `_to_datetime_date`, `scenarioplanner/converters/mmm.py:104-110`. -/
def toDate (d : CDate) : Except Err CDate := if d.Valid then .ok d else .error .date

/-- `_to_date_interval_dc`, `scenarioplanner/converters/mmm.py:113-120`, and `_SpecMixin.date_interval`,
365-380. -/
def toDates (start stop : CDate) : Except Err (CDate × CDate) :=
  match toDate start with
  | .error e => .error e
  | .ok a => match toDate stop with
    | .error e => .error e
    | .ok b => .ok (a, b)

/-- `maybe_revenue_outcome` and `maybe_non_revenue_outcome`, `scenarioplanner/converters/mmm.py:176-183,
195-202`. -/
def pick (revenue : Bool) (l : List Outcome) : Option Outcome :=
  l.find? fun o => decide (o.kpi = if revenue then .revenue else .nonRevenue)

/-- `BASELINE`, `meridian/constants.py:624`. -/
def baseline : String := "baseline"

/-- `ALL_CHANNELS`, `meridian/constants.py:728`. -/
def allChannels : String := "All Channels"

/-- `baseline_analysis`, `scenarioplanner/converters/mmm.py:309-323`. -/
def baselineOf (a : Analysis) : Except Err NonMedia :=
  match a.nonMedia.find? fun n => n.name == baseline with
  | none => .error .noBaseline
  | some n => .ok n

/-- `channel_mapped_media_analyses`, `scenarioplanner/converters/mmm.py:293-299`. -/
def mediaMap (l : List Media) : List (String × Media) := dictOf (l.map fun m => (m.name, m))

/-- `channel_mapped_media_analyses` without the pseudo-channel of all channels,
`scenarioplanner/converters/dataframe/marketing_analyses_converters.py:352-354`. -/
def channels (l : List Media) : List (String × Media) := (mediaMap l).filter fun p => p.1 != allChannels

/-! ### Model fit -/

/-- `ModelDiagnosticsConverter`, `scenarioplanner/converters/dataframe/marketing_analyses_converters.py:45-79`;
`model_fit_results`, `scenarioplanner/converters/mmm.py:713-715`. -/
def diagnostics (m : Mmm) : Except Err (List (String × Frame)) :=
  let d := dictOf (m.fits.map fun r => (r.name, r))
  if d.isEmpty then .ok []
  else .ok [("ModelDiagnostics", ⟨["Dataset", "R Squared", "MAPE", "wMAPE"],
    d.map fun p => [.str p.1, .num p.2.rSquared, .num p.2.mape, .num p.2.wmape]⟩)]

/-- One row of `ModelFitConverter`, `scenarioplanner/converters/dataframe/marketing_analyses_converters.py:104-128`. -/
def fitRow (p : Prediction) : Except Err (List Cell) :=
  match toDate p.start with
  | .error e => .error e
  | .ok d =>
    let ci := p.predicted.intervals.headD (none, none)
    .ok [.date d, .num ci.1, .num ci.2, .num p.predicted.value, .num p.baseline, .num p.actual]

/-- `_select_model_fit_result`,
`scenarioplanner/converters/dataframe/marketing_analyses_converters.py:147-161`. -/
def selectFit (m : Mmm) : Except Err Fit :=
  match get (dictOf (m.fits.map fun r => (r.name, r))) "All Data" with
  | some r => .ok r
  | none => match m.fits with
    | [] => .error .index
    | r :: _ => .ok r

/-- `ModelFitConverter`, `scenarioplanner/converters/dataframe/marketing_analyses_converters.py:82-145`. -/
def fit (m : Mmm) : Except Err (List (String × Frame)) :=
  if m.fits.isEmpty then .ok []
  else match selectFit m with
    | .error e => .error e
    | .ok r => match mapE fitRow r.predictions with
      | .error e => .error e
      | .ok rows => .ok [("ModelFit",
          ⟨["Time", "Expected CI Low", "Expected CI High", "Expected", "Baseline", "Actual"], rows⟩)]

/-! ### Marketing analyses -/

/-- `_is_revenue_kpi`, `scenarioplanner/converters/dataframe/marketing_analyses_converters.py:167-187`. -/
def isRevenue (m : Mmm) : Except Err Bool :=
  match get (dictOf (m.analyses.map fun a => (a.interval.tag, a))) "ALL" with
  | none => .error .key
  | some a => match baselineOf a with
    | .error e => .error e
    | .ok b => .ok (pick true b.outcomes).isSome

/-- A row of the outcomes, `scenarioplanner/converters/dataframe/marketing_analyses_converters.py:264-297`. -/
def outcomeRow (rev : Bool) (tag : String) (dates : CDate × CDate) (name : String) (l : List Outcome) :
    List Cell :=
  let o := pick rev l
  [.int (if name = allChannels then 1 else 2), .str name, .num (o.bind (·.contribution)), .num (o.bind (·.share)),
    .str tag, .date dates.1, .date dates.2]

/-- The rows of one analysis,
`scenarioplanner/converters/dataframe/marketing_analyses_converters.py:230-297`. -/
def outcomeRows (m : Mmm) (a : Analysis) : Except Err (List (List Cell)) :=
  match toDates a.interval.start a.interval.stop with
  | .error e => .error e
  | .ok dates => match isRevenue m with
    | .error e => .error e
    | .ok rev => match baselineOf a with
      | .error e => .error e
      | .ok b => match pick rev b.outcomes with
        | none => .error .noOutcome
        | some o =>
          let media := (mediaMap a.media).map fun p => (p.1, p.2.outcomes)
          let other := ((dictOf (a.nonMedia.map fun n => (n.name, n))).filter fun p => p.1 != baseline).map
            fun p => (p.1, p.2.outcomes)
          .ok ([.int 0, .str baseline, .num o.contribution, .num o.share, .str a.interval.tag, .date dates.1,
              .date dates.2] :: (media ++ other).map fun p => outcomeRow rev a.interval.tag dates p.1 p.2)

/-- `MediaOutcomeConverter`, `scenarioplanner/converters/dataframe/marketing_analyses_converters.py:189-309`. -/
def mediaOutcome (m : Mmm) : Except Err (List (String × Frame)) :=
  if m.analyses.isEmpty then .ok []
  else match mapE (outcomeRows m) m.analyses with
    | .error e => .error e
    | .ok rows => .ok [("MediaOutcome", ⟨["Channel Index", "Channel", "Incremental Outcome", "Contribution Share",
        "Analysis Period", "Analysis Date Start", "Analysis Date End"], rows.flatten⟩)]

/-- The shares of a channel: its spend, and its outcome if there is one, `scenarioplanner/converters/dataframe/marketing_analyses_converters.py:348-374`. -/
def shares (m : Mmm) (p : String × Media) : Except Err (String × Num × Option Num × Bool) :=
  match isRevenue m with
  | .error e => .error e
  | .ok rev => .ok (p.1, p.2.spendShare, (pick rev p.2.outcomes).map (·.share), rev)

/-- `outcome_share_norm_term += outcome_share` where there is an outcome, `scenarioplanner/converters/dataframe/marketing_analyses_converters.py:372-374`. -/
def addShare (acc : Num) (p : String × Num × Option Num × Bool) : Num :=
  match p.2.2.1 with
  | none => acc
  | some x => Num.add acc x

/-- `outcome_share_norm_term`, `scenarioplanner/converters/dataframe/marketing_analyses_converters.py:346-374`. -/
def norm (l : List (String × Num × Option Num × Bool)) : Num := l.foldl addShare (some 0)

/-- `x / y` of Python: division by zero raises, whatever is divided. -/
def pyDiv (x y : Num) : Except Err Num :=
  match y with
  | none => .ok none
  | some b => if b = 0 then .error .zeroDivision else .ok (x.map (· / b))

/-- The two rows of a channel: the share of the outcome is divided by the total, `scenarioplanner/converters/dataframe/marketing_analyses_converters.py:376-406`. -/
def spendRow (tag : String) (dates : CDate × CDate) (total : Num) (p : String × Num × Option Num × Bool) :
    Except Err (List (List Cell)) :=
  match pyDiv (p.2.2.1.getD none) total with
  | .error e => .error e
  | .ok v => .ok [[.str p.1, .num p.2.1, .str "Spend Share", .str tag, .date dates.1, .date dates.2],
      [.str p.1, .num v, .str (if p.2.2.2 then "Revenue Share" else "KPI Share"), .str tag, .date dates.1,
        .date dates.2]]

/-- The rows of one analysis,
`scenarioplanner/converters/dataframe/marketing_analyses_converters.py:343-408`. -/
def spendRows (m : Mmm) (a : Analysis) : Except Err (List (List Cell)) :=
  match toDates a.interval.start a.interval.stop with
  | .error e => .error e
  | .ok dates => match mapE (shares m) (channels a.media) with
    | .error e => .error e
    | .ok l => match mapE (spendRow a.interval.tag dates (norm l)) l with
      | .error e => .error e
      | .ok rows => .ok rows.flatten

/-- `MediaSpendConverter`, `scenarioplanner/converters/dataframe/marketing_analyses_converters.py:312-420`. -/
def mediaSpend (m : Mmm) : Except Err (List (String × Frame)) :=
  if m.analyses.isEmpty then .ok []
  else match mapE (spendRows m) m.analyses with
    | .error e => .error e
    | .ok rows => .ok [("MediaSpend", ⟨["Channel", "Share Value", "Label", "Analysis Period",
        "Analysis Date Start", "Analysis Date End"], rows.flatten⟩)]

/-- A row of returns, `scenarioplanner/converters/dataframe/marketing_analyses_converters.py:459-514`. -/
def roiRow (m : Mmm) (tag : String) (dates : CDate × CDate) (p : String × Media) : Except Err (List Cell) :=
  match isRevenue m with
  | .error e => .error e
  | .ok rev => match pick rev p.2.outcomes with
    | none => .error .noOutcome
    | some o =>
      let ci := o.roi.intervals.headD (none, none)
      .ok [.str p.1, .num p.2.spend, .num o.effectiveness, .num o.roi.value, .num ci.1, .num ci.2, .num o.mroi,
        .flag (decide (o.kpi = .revenue)), .str tag, .date dates.1, .date dates.2]

/-- The rows of one analysis, `scenarioplanner/converters/dataframe/marketing_analyses_converters.py:453-514`. -/
def roiRows (m : Mmm) (a : Analysis) : Except Err (List (List Cell)) :=
  match toDates a.interval.start a.interval.stop with
  | .error e => .error e
  | .ok dates => mapE (roiRow m a.interval.tag dates) (channels a.media)

/-- `MediaRoiConverter`, `scenarioplanner/converters/dataframe/marketing_analyses_converters.py:423-533`. -/
def mediaRoi (m : Mmm) : Except Err (List (String × Frame)) :=
  if m.analyses.isEmpty then .ok []
  else match mapE (roiRows m) m.analyses with
    | .error e => .error e
    | .ok rows => .ok [("MediaROI", ⟨["Channel", "Spend", "Effectiveness", "ROI", "ROI CI Low", "ROI CI High",
        "Marginal ROI", "Is Revenue KPI", "Analysis Period", "Analysis Date Start", "Analysis Date End"],
        rows.flatten⟩)]

/-! ### Historical spend -/

/-- `media_channels` and `rf_channels`, `scenarioplanner/converters/mmm.py:593-609`. -/
def channelNames (sel : Point → List (String × ℚ)) (m : Mmm) : List String :=
  ((m.points.flatMap fun p => (sel p).map Prod.fst).dedup).insertionSort (· ≤ ·)

/-- Add to an entry of a dictionary, `scenarioplanner/converters/mmm.py:642-645`. -/
def addTo (d : List (String × ℚ)) (p : String × ℚ) : List (String × ℚ) :=
  d.map fun q => if q.1 == p.1 then (q.1, q.2 + p.2) else q

/-- One data point, `scenarioplanner/converters/mmm.py:636-645`: the time coordinate is the start of its
interval, which has to lie in the given one. -/
def addPoint (sel : Point → List (String × ℚ)) (start stop : CDate) (d : List (String × ℚ)) (p : Point) :
    Except Err (List (String × ℚ)) :=
  match toDates p.start p.stop with
  | .error e => .error e
  | .ok i => if start.le i.1 && i.1.lt stop then .ok ((sel p).foldl addTo d) else .ok d

/-- All data points, `scenarioplanner/converters/mmm.py:636-645`. -/
def addPoints (sel : Point → List (String × ℚ)) (start stop : CDate) (d : List (String × ℚ)) :
    List Point → Except Err (List (String × ℚ))
  | [] => .ok d
  | p :: ps => match addPoint sel start stop d p with
    | .error e => .error e
    | .ok d' => addPoints sel start stop d' ps

/-- `media_channel_spends` and `rf_channel_spends`, `scenarioplanner/converters/mmm.py:619-675`. -/
def channelSpends (sel : Point → List (String × ℚ)) (m : Mmm) (start stop : CDate) :
    Except Err (List (String × ℚ)) :=
  addPoints sel start stop ((channelNames sel m).map fun ch => (ch, 0)) m.points

/-- `all_channel_spends`, `scenarioplanner/converters/mmm.py:677-695`. -/
def allSpends (m : Mmm) (start stop : CDate) : Except Err (List (String × ℚ)) :=
  match channelSpends Point.rf m start stop with
  | .error e => .error e
  | .ok r => match channelSpends Point.media m start stop with
    | .error e => .error e
    | .ok d => .ok (d.foldl (fun acc p => put acc p.1 p.2) r)

/-! ### Optimizations -/

/-- `map_target_metric_str`, `scenarioplanner/converters/dataframe/common.py:23-42`. -/
def metricStr : Metric → Except Err String
  | .kpi => .ok "KPI"
  | .roi => .ok "ROI"
  | .mroi => .ok "Marginal ROI"
  | .cpik => .ok "Cost per Incremental KPI"
  | .unspecified => .error .metric

/-- What `\s` matches: the white space of Unicode, as Python defines it; used in
`scenarioplanner/converters/dataframe/common.py:45-56`. -/
def isSpace (c : Char) : Bool :=
  let n := c.toNat
  (9 ≤ n && n ≤ 13) || (28 ≤ n && n ≤ 32) || n == 0x85 || n == 0xa0 || n == 0x1680 ||
    (0x2000 ≤ n && n ≤ 0x200a) || n == 0x2028 || n == 0x2029 || n == 0x202f || n == 0x205f || n == 0x3000

/-- `re.sub(r"\s+", "_", s)`; `after` says that the character before is white space,
`scenarioplanner/converters/dataframe/common.py:45-56`. -/
def underscores (after : Bool) : List Char → List Char
  | [] => []
  | c :: cs =>
    if isSpace c then (if after then underscores true cs else '_' :: underscores true cs)
    else c :: underscores false cs

/-- `create_grid_sheet_name`, `scenarioplanner/converters/dataframe/common.py:45-71`. -/
def gridTable (pre : String) (name : List Char) : String :=
  String.ofList (underscores false pre.toList ++ '_' :: underscores false name)

/-- Whether the groups which are given are distinct,
`scenarioplanner/converters/dataframe/budget_opt_converters.py:50-56`. -/
def checkGroups (l : List String) : Except Err Unit :=
  if (l.filter fun g => g != "").Nodup then .ok () else .error .duplicateGroup

/-- The rows of a grid, `scenarioplanner/converters/dataframe/budget_opt_converters.py:90-99`. -/
def gridRows (group : String) (grid : List (String × List (Num × Num))) : List (List Cell) :=
  (dictOf grid).flatMap fun p => p.2.map fun c => [.str group, .str p.1, .num c.1, .num c.2]

/-- `_BudgetOptimizationConverter.__call__`: the groups are checked before the tables are made,
`scenarioplanner/converters/dataframe/budget_opt_converters.py:45-58`. -/
def withGroups (l : List String) (r : Except Err (List (String × Frame))) : Except Err (List (String × Frame)) :=
  if l.isEmpty then .ok []
  else match checkGroups l with
    | .error e => .error e
    | .ok () => r

/-- `NamedOptimizationGridConverter`,
`scenarioplanner/converters/dataframe/budget_opt_converters.py:66-113`. -/
def budgetGrids (m : Mmm) : Except Err (List (String × Frame)) :=
  withGroups (m.budgets.map (·.group)) (.ok (m.budgets.map fun b =>
    (gridTable "budget_opt_grid" b.gridName,
      ⟨["Group ID", "Channel", "Spend", "Incremental Outcome"], gridRows b.group b.grid⟩)))

/-- `is_fixed_scenario`, `scenarioplanner/converters/mmm.py:402-406`. -/
def Scenario.isFixed : Scenario → Bool
  | .fixed _ => true
  | _ => false

/-- `max_budget`, `scenarioplanner/converters/mmm.py:408-422`. -/
def Scenario.maxBudget : Scenario → ℚ
  | .fixed b => b
  | .flexible b _ => b
  | .unset => 0

/-- The target metric and its value,
`scenarioplanner/converters/dataframe/budget_opt_converters.py:173-188`. -/
def Scenario.target : Scenario → Except Err (Cell × Cell)
  | .fixed _ => .ok (.none, .none)
  | .unset => .error .index
  | .flexible _ l => match l with
    | [] => .error .index
    | t :: _ => match metricStr t.1 with
      | .error e => .error e
      | .ok s => .ok (.str s, .num (some t.2))

/-- The constraints: without any, each channel gets the range from zero to the budget,
`scenarioplanner/converters/dataframe/budget_opt_converters.py:190-212`. -/
def budgetBounds (m : Mmm) (b : Budget) : List Bound :=
  if b.bounds.isEmpty then (channelNames Point.media m).map fun ch => ⟨ch, 0, b.scenario.maxBudget⟩ else b.bounds

/-- The rows of a spec, `scenarioplanner/converters/dataframe/budget_opt_converters.py:141-230`. -/
def budgetSpecRows (m : Mmm) (b : Budget) : Except Err (List (List Cell)) :=
  match metricStr b.objective with
  | .error e => .error e
  | .ok obj => match toDates b.interval.start b.interval.stop with
    | .error e => .error e
    | .ok dates => match allSpends m dates.1 dates.2 with
      | .error e => .error e
      | .ok spends => match b.scenario.target with
        | .error e => .error e
        | .ok t => .ok ((budgetBounds m b).map fun c =>
            [.str b.group, .date dates.1, .date dates.2, .str b.interval.tag, .str obj,
              .str (if b.scenario.isFixed then "Fixed" else "Flexible"), .num (some ((get spends c.name).getD 0)),
              t.1, t.2, .str c.name, .num (some c.min), .num (some c.max)])

/-- One table from the rows of all results, for instance `scenarioplanner/converters/dataframe/budget_opt_converters.py:227-242`. -/
def tableOf {α : Type} (name : String) (columns : List String) (f : α → Except Err (List (List Cell)))
    (l : List α) : Except Err (List (String × Frame)) :=
  match mapE f l with
  | .error e => .error e
  | .ok rows => .ok [(name, ⟨columns, rows.flatten⟩)]

/-- `BudgetOptimizationSpecsConverter`,
`scenarioplanner/converters/dataframe/budget_opt_converters.py:116-242`. -/
def budgetSpecs (m : Mmm) : Except Err (List (String × Frame)) :=
  withGroups (m.budgets.map (·.group)) (tableOf "budget_opt_specs"
    ["Group ID", "Date Interval Start", "Date Interval End", "Analysis Period", "Objective", "Scenario Type",
      "Initial Channel Spend", "Target Metric Constraint", "Target Metric Value", "Channel", "Channel Spend Min",
      "Channel Spend Max"] (budgetSpecRows m) m.budgets)

/-- The rows of a channel: one for the outcome of each kind,
`scenarioplanner/converters/dataframe/budget_opt_converters.py:281-309` and
`scenarioplanner/converters/dataframe/rf_opt_converters.py:259-288`. -/
def resultRows (group name : String) (a b : Cell) (l : List Outcome) : List (List Cell) :=
  [true, false].flatMap fun rev => match pick rev l with
    | none => []
    | some o => [[.str group, .str name, .flag rev, a, b, .num o.effectiveness, .num o.roi.value, .num o.mroi,
        .num o.cpc]]

/-- `BudgetOptimizationResultsConverter`,
`scenarioplanner/converters/dataframe/budget_opt_converters.py:245-329`. -/
def budgetResults (m : Mmm) : Except Err (List (String × Frame)) :=
  withGroups (m.budgets.map (·.group)) (.ok [("budget_opt_results",
    ⟨["Group ID", "Channel", "Is Revenue KPI", "Optimal Spend", "Optimal Spend Share",
      "Optimal Impression Effectiveness", "Optimal ROI", "Optimal mROI", "Optimal CPC"],
      m.budgets.flatMap fun b => (channels b.optimized).flatMap fun p =>
        resultRows b.group p.1 (.num p.2.spend) (.num p.2.spendShare) p.2.outcomes⟩)])

/-- `BudgetOptimizationResponseCurvesConverter`,
`scenarioplanner/converters/dataframe/budget_opt_converters.py:332-373`. -/
def budgetCurves (m : Mmm) : Except Err (List (String × Frame)) :=
  withGroups (m.budgets.map (·.group)) (.ok [("response_curves",
    ⟨["Group ID", "Channel", "Spend", "Incremental Outcome"],
      m.budgets.flatMap fun b => b.optimized.flatMap fun c =>
        c.curve.map fun q => [.str b.group, .str c.name, .num q.1, .num q.2]⟩)])

/-- `NamedRfOptimizationGridConverter`,
`scenarioplanner/converters/dataframe/rf_opt_converters.py:65-110`. -/
def reachGrids (m : Mmm) : Except Err (List (String × Frame)) :=
  withGroups (m.reaches.map (·.group)) (.ok (m.reaches.map fun b =>
    (gridTable "rf_opt_grid" b.gridName,
      ⟨["Group ID", "Channel", "Frequency", "ROI"], gridRows b.group b.grid⟩)))

/-- One row, `scenarioplanner/converters/dataframe/rf_opt_converters.py:169-188`. -/
def reachSpecRow (b : Reach) (obj : String) (dates : CDate × CDate) (spends : List (String × ℚ)) (c : Bound) :
    Except Err (List Cell) :=
  if c.max = 0 then .error .noMaximum
  else .ok [.str b.group, .date dates.1, .date dates.2, .str obj, .num (some ((get spends c.name).getD 0)),
    .str c.name, .num (some (if c.min = 0 then 1 else c.min)), .num (some c.max)]

/-- The rows of a spec, `scenarioplanner/converters/dataframe/rf_opt_converters.py:132-188`. -/
def reachSpecRows (m : Mmm) (b : Reach) : Except Err (List (List Cell)) :=
  match metricStr b.objective with
  | .error e => .error e
  | .ok obj => match toDates b.interval.start b.interval.stop with
    | .error e => .error e
    | .ok dates => match channelSpends Point.rf m dates.1 dates.2 with
      | .error e => .error e
      | .ok spends =>
        if b.bounds.isEmpty then .error .noConstraints
        else if (∀ c ∈ b.bounds, c.name ∈ b.frequencies.map Prod.fst) ∧
            ∀ n ∈ b.frequencies.map Prod.fst, n ∈ b.bounds.map (·.name) then
          mapE (reachSpecRow b obj dates spends) b.bounds
        else .error .otherChannels

/-- `RfOptimizationSpecsConverter`,
`scenarioplanner/converters/dataframe/rf_opt_converters.py:113-206`. -/
def reachSpecs (m : Mmm) : Except Err (List (String × Frame)) :=
  withGroups (m.reaches.map (·.group)) (tableOf "rf_opt_specs"
    ["Group ID", "Date Interval Start", "Date Interval End", "Objective", "Initial Channel Spend", "Channel",
      "Channel Frequency Min", "Channel Frequency Max"] (reachSpecRows m) m.reaches)

/-- The rows of a channel, `scenarioplanner/converters/dataframe/rf_opt_converters.py:246-291`; other channels
are skipped. -/
def reachResultRow (b : Reach) (spends : List (String × ℚ)) (p : String × Media) : Except Err (List (List Cell)) :=
  match get (dictOf b.frequencies) p.1 with
  | none => .ok []
  | some f => match get spends p.1 with
    | none => .error .key
    | some s => .ok (resultRows b.group p.1 (.num (some s)) (.num f) p.2.outcomes)

/-- The rows of a result, `scenarioplanner/converters/dataframe/rf_opt_converters.py:231-291`. -/
def reachResultRows (m : Mmm) (b : Reach) : Except Err (List (List Cell)) :=
  match toDates b.interval.start b.interval.stop with
  | .error e => .error e
  | .ok dates => match channelSpends Point.rf m dates.1 dates.2 with
    | .error e => .error e
    | .ok spends => match mapE (reachResultRow b spends) (channels b.optimized) with
      | .error e => .error e
      | .ok rows => .ok rows.flatten

/-- `RfOptimizationResultsConverter`,
`scenarioplanner/converters/dataframe/rf_opt_converters.py:209-307`. -/
def reachResults (m : Mmm) : Except Err (List (String × Frame)) :=
  withGroups (m.reaches.map (·.group)) (tableOf "rf_opt_results"
    ["Group ID", "Channel", "Is Revenue KPI", "Initial Spend", "Optimal Avg Frequency",
      "Optimal Impression Effectiveness", "Optimal ROI", "Optimal mROI", "Optimal CPC"] (reachResultRows m)
    m.reaches)

/-- `_converters`, `scenarioplanner/converters/dataframe/dataframe_model_converter.py:53-57`. -/
def converters : List (Mmm → Except Err (List (String × Frame))) :=
  [diagnostics, fit, mediaOutcome, mediaSpend, mediaRoi, budgetGrids, budgetSpecs, budgetResults, budgetCurves,
    reachGrids, reachSpecs, reachResults]

/-- `DataFrameModelConverter.__call__`,
`scenarioplanner/converters/dataframe/dataframe_model_converter.py:59-70`.  A duplicate name is detected after
all tables instead of when it appears, which only matters for which error is raised. -/
def convert (m : Mmm) : Except Err (List (String × Frame)) :=
  match mapE (fun f => f m) converters with
  | .error e => .error e
  | .ok l => if (l.flatten.map Prod.fst).Nodup then .ok l.flatten else .error .duplicateTable

end Verif.Tables

import Verif.Model.MarketingProto
import Verif.Model.Num

/-!
# The reach and frequency optimization messages

`ReachFrequencyOptimizationProcessor`,
`meridian/schema/processors/reach_frequency_optimization_processor.py`.  The analyzer's answers are functions
of all the arguments of the calls (`Analyzer`).  Numbers are exact.  Fixed texts, warnings and the objective
of a spec, which is always the ROI, are left out.
-/

namespace Verif.ReachProto

open Verif (Num npRound truncInt)
open Verif.Calendar (CDate)
open Verif.FitProto (Estimate)
open Verif.MarketingProto (Stat Outcome Media toEstimate)

/-- Errors. -/
inductive Err where
  | dated (e : DatedSpec.Err)
  | minNegative
  | maxBelowMin
  | noRf
  | group
  | emptyGrid
  | notFitted
  | key
  | unresolved
  | notFinite
deriving DecidableEq

/-- `ReachFrequencyOptimizationSpec`,
`meridian/schema/processors/reach_frequency_optimization_processor.py:112-144`, with the fields of
`OptimizationSpec`.  `rf_channels` is ignored in a spec that comes from the user. -/
structure RSpec where
  dated : DatedSpec.Spec
  name : List Char
  gridName : List Char
  group : Option String := none
  level : ℚ := 9 / 10
  min : ℚ := 1
  max : Option ℚ := none
  revenue : Bool := true

/-- `max_frequency is not None and max_frequency < min_frequency`. -/
def maxBelow (mn : ℚ) : Option ℚ → Bool
  | none => false
  | some mx => decide (mx < mn)

/-- `ReachFrequencyOptimizationSpec.validate`,
`meridian/schema/processors/reach_frequency_optimization_processor.py:164-172`. -/
def RSpec.validate (s : RSpec) : Except Err Unit :=
  match DatedSpec.validateOptimization s.dated s.name s.gridName s.level with
  | .error e => .error (.dated e)
  | .ok () =>
    if s.min < 0 then .error .minNegative
    else if maxBelow s.min s.max then .error .maxBelowMin
    else .ok ()

/-- The arguments of `optimal_freq` (those the processor does not pass have their defaults). -/
structure FreqArgs where
  selected : Option (List CDate)
  level : ℚ
  grid : List ℚ
  useKpi : Bool
  maxFrequency : Option ℚ

/-- The optimized quantities of `optimal_freq`. -/
inductive FVar where
  | incremental
  | effectiveness
  | roi
  | mroiByReach
  | mroiByFrequency
  | cpik
deriving DecidableEq

/-- The dataset of `optimal_freq`: the variables by channel name and frequency, and attributes. -/
structure FreqData where
  channels : List String
  frequencies : List ℚ
  optimal : String → ℚ
  roi : ℚ → String → Stat → Num
  optimized : String → FVar → Stat → Num
  revenue : Bool
  level : ℚ

/-- The arguments of `response_curves`. -/
structure CurveArgs where
  level : ℚ
  selected : Option (List CDate)
  byReach : Bool
  useKpi : Bool
  optimalFrequency : Bool

/-- The response curves at some multipliers. -/
structure Curves where
  channels : List String
  multipliers : List ℚ
  spend : String → ℚ → Num
  incremental : String → ℚ → Stat → Num

/-- The trained model and its analyzer.  Reach and frequency are by geo, media period and channel. -/
structure Analyzer where
  dates : List CDate
  rf : Option (List String)
  nGeos : ℕ
  nTimes : ℕ
  reach : ℕ → ℕ → ℕ → ℚ
  frequency : ℕ → ℕ → ℕ → ℚ
  maxFrequency : ℚ
  optimalFreq : FreqArgs → Except Err FreqData
  curves : CurveArgs → Except Err Curves
  spend : Option (List CDate) → List (String × ℚ)

/-! ### Messages -/

/-- A `RfChannelConstraint` message. -/
structure Bound where
  name : String
  min : ℚ
  max : ℚ
deriving DecidableEq

/-- A `ReachFrequencyOptimizationSpec` message. -/
structure SpecMsg where
  interval : DatedSpec.Interval
  bounds : List Bound
  revenue : Bool
deriving DecidableEq

/-- A cell of a `FrequencyOutcomeGrid` message. -/
structure Cell where
  outcome : Estimate
  reach : ℤ
  frequency : ℚ
deriving DecidableEq

/-- A `FrequencyOutcomeGrid` message. -/
structure GridMsg where
  name : List Char
  step : ℚ
  cells : List (String × List Cell)
deriving DecidableEq

/-- A `MarketingAnalysis` message with media analyses only. -/
structure Analysis where
  interval : DatedSpec.Interval
  media : List Media
deriving DecidableEq

/-- A `ReachFrequencyOptimizationResult` message. -/
structure ResultMsg where
  name : List Char
  spec : SpecMsg
  frequencies : List (String × ℚ)
  analysis : Analysis
  grid : GridMsg
  group : String
deriving DecidableEq

/-! ### The call -/

/-- All results or the first error. -/
def collect {α β : Type} (f : α → Except Err β) : List α → Except Err (List β)
  | [] => .ok []
  | a :: l => match f a with
    | .error e => .error e
    | .ok b => match collect f l with
      | .error e => .error e
      | .ok bs => .ok (b :: bs)

/-- `_to_target_precision`,
`meridian/schema/processors/reach_frequency_optimization_processor.py:233-234`. -/
def tenth (x : ℚ) : ℚ := npRound x 1

/-- `np.arange(start, stop, step)`. -/
def arange (start stop step : ℚ) : List ℚ :=
  (List.range ⌈(stop - start) / step⌉.toNat).map fun k : ℕ => start + k * step

/-- `spec.max_frequency or np.max(frequency)`: zero counts as not given. -/
def orMax (mx : Option ℚ) (model : ℚ) : ℚ :=
  match mx with
  | none => model
  | some x => if x = 0 then model else x

/-- The frequency grid, `meridian/schema/processors/reach_frequency_optimization_processor.py:262-265`. -/
def grid (lo hi : ℚ) : List ℚ := (arange lo (hi + 1 / 1000000) (1 / 10)).map tenth

/-- The call of `optimal_freq`,
`meridian/schema/processors/reach_frequency_optimization_processor.py:257-276`. -/
def freqArgs (A : Analyzer) (s : RSpec) (sel : Option (List CDate)) : FreqArgs :=
  { selected := sel, level := s.level,
    grid := grid (tenth s.min) (tenth (orMax s.max A.maxFrequency)),
    useKpi := !s.revenue, maxFrequency := s.max }

/-- The call of `response_curves`,
`meridian/schema/processors/reach_frequency_optimization_processor.py:277-283`. -/
def curveArgs (s : RSpec) (sel : Option (List CDate)) : CurveArgs :=
  { level := s.level, selected := sel, byReach := false, useKpi := !s.revenue, optimalFrequency := true }

/-- Total spend, `meridian/schema/processors/reach_frequency_optimization_processor.py:322`. -/
def totalSpend (sp : List (String × ℚ)) : ℚ := (sp.map Prod.snd).sum

/-- A quotient of arrays: NaN for a zero divisor. -/
def quot (a b : ℚ) : Num := if b = 0 then none else some (a / b)

/-- Spend of a channel and its share in percent,
`meridian/schema/processors/reach_frequency_optimization_processor.py:319-323`. -/
def spendOf (sp : List (String × ℚ)) (ch : String) : Except Err (String × Num × Num) :=
  match sp.find? fun p => decide (p.1 = ch) with
  | none => .error .key
  | some p => .ok (ch, some p.2, quot (100 * p.2) (totalSpend sp))

/-- `_compute_spend_data`, `meridian/schema/processors/reach_frequency_optimization_processor.py:313-340`. -/
def spendData (sp : List (String × ℚ)) (rf : List String) : Except Err (List (String × Num × Num)) :=
  collect (spendOf sp) rf

/-! ### The message -/

/-- `_create_optimized_channel_frequencies`,
`meridian/schema/processors/reach_frequency_optimization_processor.py:479-496`. -/
def optimized (d : FreqData) : List (String × ℚ) := d.channels.map fun ch => (ch, d.optimal ch)

/-- `_to_outcome`, `meridian/schema/processors/reach_frequency_optimization_processor.py:499-539`. -/
def outcome (d : FreqData) (ch : String) : Outcome :=
  { revenue := d.revenue
    value := toEstimate (d.optimized ch .incremental) d.level .mean
    share := none
    effectiveness := some (toEstimate (d.optimized ch .effectiveness) d.level .mean)
    cpik := some (toEstimate (d.optimized ch .cpik) d.level .mean)
    roi := some (toEstimate (d.optimized ch .roi) d.level .mean)
    mroi := some (toEstimate (d.optimized ch .mroiByFrequency) d.level .mean) }

/-- `_compute_response_curve`,
`meridian/schema/processors/reach_frequency_optimization_processor.py:542-584`.  The multipliers are
distinct. -/
def curve (r : Curves) (ch : String) : Except Err (List (Num × Num)) :=
  if ch ∈ r.channels then .ok (r.multipliers.map fun x => (r.spend ch x, r.incremental ch x .mean))
  else if r.multipliers = [] then .ok []
  else .error .key

/-- One channel of `_to_marketing_analysis`,
`meridian/schema/processors/reach_frequency_optimization_processor.py:391-418`. -/
def media (d : FreqData) (r : Curves) (sp : List (String × Num × Num)) (ch : String) : Except Err Media :=
  match sp.find? fun p => decide (p.1 = ch) with
  | none => .error .key
  | some p => match curve r ch with
    | .error e => .error e
    | .ok c => .ok ⟨ch, [outcome d ch], some p.2, some c⟩

/-- `_to_marketing_analysis`, `meridian/schema/processors/reach_frequency_optimization_processor.py:371-420`.
The interval has no tag. -/
def analysis (i : DatedSpec.Interval) (d : FreqData) (r : Curves) (sp : List (String × Num × Num)) :
    Except Err Analysis :=
  match collect (media d r sp) d.channels with
  | .error e => .error e
  | .ok l => .ok ⟨{ i with tag := "" }, l⟩

/-- The last position of a channel name. -/
def lastIdx (chs : List String) (ch : String) : ℕ := chs.length - 1 - chs.reverse.idxOf ch

/-- Reach in a cell, `meridian/schema/processors/reach_frequency_optimization_processor.py:437-450, 460`: the
sum over all geos and media periods of the impressions over the frequency.  `int` of what is not finite
raises. -/
def cellReach (A : Analyzer) (chs : List String) (ch : String) (f : ℚ) : Except Err ℤ :=
  if f = 0 then .error .notFinite
  else .ok (truncInt (((List.range A.nGeos).map fun g => ((List.range A.nTimes).map fun t =>
    A.frequency g t (lastIdx chs ch) * A.reach g t (lastIdx chs ch) / f).sum).sum))

/-- A cell, `meridian/schema/processors/reach_frequency_optimization_processor.py:436-464`. -/
def cell (A : Analyzer) (d : FreqData) (level : ℚ) (ch : String) (f : ℚ) : Except Err Cell :=
  match cellReach A d.channels ch f with
  | .error e => .error e
  | .ok n => .ok ⟨toEstimate (d.roi f ch) level .mean, n, f⟩

/-- The cells of a channel. -/
def channelCells (A : Analyzer) (d : FreqData) (level : ℚ) (ch : String) :
    Except Err (String × List Cell) :=
  match collect (cell A d level ch) d.frequencies with
  | .error e => .error e
  | .ok l => .ok (ch, l)

/-- `_create_frequency_outcome_grid`,
`meridian/schema/processors/reach_frequency_optimization_processor.py:422-476`. -/
def gridMsg (A : Analyzer) (d : FreqData) (level : ℚ) (name : List Char) : Except Err GridMsg :=
  match collect (channelCells A d level) d.channels with
  | .error e => .error e
  | .ok l => .ok ⟨name, 1 / 10, l⟩

/-- The resolved spec, `meridian/schema/processors/reach_frequency_optimization_processor.py:294-301`. -/
def resolved (A : Analyzer) (s : RSpec) (i : DatedSpec.Interval) : RSpec where
  dated := ⟨some i.start, some i.stop, s.dated.tag⟩
  name := s.name
  gridName := s.gridName
  group := s.group
  level := s.level
  min := tenth s.min
  max := some (tenth (orMax s.max A.maxFrequency))
  revenue := s.revenue

/-- The resolved spec; `dataclasses.replace` validates again,
`meridian/schema/processors/reach_frequency_optimization_processor.py:287-301`. -/
def resolve (A : Analyzer) (s : RSpec) : Except Err RSpec :=
  match DatedSpec.openEnd A.dates s.dated with
  | .error e => .error (.dated e)
  | .ok i => match (resolved A s i).validate with
    | .error e => .error e
    | .ok () => .ok (resolved A s i)

/-- `ReachFrequencyOptimizationSpec.to_proto`,
`meridian/schema/processors/reach_frequency_optimization_processor.py:174-202`.  A maximum which is not
given is a field which is not set. -/
def specMsg (s : RSpec) (rf : List String) : Except Err SpecMsg :=
  match s.dated.start, s.dated.stop with
  | some a, some b => .ok ⟨⟨a, b, s.dated.tag⟩, rf.map fun ch => ⟨ch, s.min, s.max.getD 0⟩, s.revenue⟩
  | _, _ => .error .unresolved

/-- `_to_reach_frequency_optimization_result`,
`meridian/schema/processors/reach_frequency_optimization_processor.py:342-369`.  An empty group is no
group. -/
def resultMsg (A : Analyzer) (rf : List String) (s : RSpec) (d : FreqData) (r : Curves)
    (sp : List (String × Num × Num)) : Except Err ResultMsg :=
  match specMsg s rf with
  | .error e => .error e
  | .ok m => match analysis m.interval d r sp with
    | .error e => .error e
    | .ok x => match gridMsg A d s.level s.gridName with
      | .error e => .error e
      | .ok g => .ok ⟨s.name, m, optimized d, x, g, s.group.getD ""⟩

/-- One pass of the loop of `execute`,
`meridian/schema/processors/reach_frequency_optimization_processor.py:252-310`. -/
def runSpec (A : Analyzer) (rf : List String) (s : RSpec) : Except Err ResultMsg :=
  match DatedSpec.selectedTimes A.dates s.dated with
  | .error e => .error (.dated e)
  | .ok sel => match A.optimalFreq (freqArgs A s sel) with
    | .error e => .error e
    | .ok d => match A.curves (curveArgs s sel) with
      | .error e => .error e
      | .ok r => match spendData (A.spend sel) rf with
        | .error e => .error e
        | .ok sp => match resolve A s with
          | .error e => .error e
          | .ok s' => resultMsg A rf s' d r sp

/-- The groups that are given. -/
def groups (specs : List RSpec) : List String :=
  specs.filterMap fun s => match s.group with
    | none => none
    | some g => if g = "" then none else some g

/-- The constructor (`meridian/schema/processors/reach_frequency_optimization_processor.py:212-223`) and
`execute` (241-311). -/
def execute (A : Analyzer) (specs : List RSpec) : Except Err (List ResultMsg) :=
  match A.rf with
  | none => .error .noRf
  | some rf => if (groups specs).Nodup then collect (runSpec A rf) specs else .error .group

end Verif.ReachProto

import Verif.Model.MarketingProto
import Verif.Model.Optimizer

/-!
# The budget optimization messages

`BudgetOptimizationProcessor`, `meridian/schema/processors/budget_optimization_processor.py`.  The
optimizer's answer is a function of all the arguments of the call (`Optim`).  Fixed texts and warnings are
left out, and so is the objective of a spec, which is always the KPI.
-/

namespace Verif.BudgetProto

open Verif (Num)
open Verif.Calendar (CDate)
open Verif.FitProto (Estimate)
open Verif.MarketingProto (Stat Var NewData Outcome Media toEstimate)

/-- Errors. -/
inductive Err where
  | lowerNegative
  | lowerAboveOne
  | upperNegative
  | totalNegative
  | metric
  | targetNegative
  | dated (e : DatedSpec.Err)
  | batch
  | newTime
  | maxFrequency
  | group
  | channels
  | absolute
  | unresolved
  | relative
  | bounds (e : Optimizer.Err)
  | optimizer (e : Optimizer.Err)
  | key
  | grid
deriving DecidableEq

/-- `ChannelConstraintAbs` and `ChannelConstraintRel`,
`meridian/schema/processors/budget_optimization_processor.py:153-210`. -/
inductive Constraint where
  | abs (name : String) (lower upper : ℚ)
  | rel (name : String) (lower upper : ℚ)
deriving DecidableEq

/-- The field `channel_name`. -/
def Constraint.name : Constraint → String
  | .abs n _ _ => n
  | .rel n _ _ => n

/-- `ChannelConstraintRel.__post_init__`,
`meridian/schema/processors/budget_optimization_processor.py:203-209`.  An absolute constraint is not
checked. -/
def Constraint.validate : Constraint → Except Err Unit
  | .abs _ _ _ => .ok ()
  | .rel _ l u =>
    if l < 0 then .error .lowerNegative
    else if 1 < l then .error .lowerAboveOne
    else if u < 0 then .error .upperNegative
    else .ok ()

/-- A target metric. -/
inductive Metric where
  | roi
  | mroi
  | other (name : String)
deriving DecidableEq

/-- `FixedBudgetScenario` and `FlexibleBudgetScenario`, `meridian/analysis/optimizer.py:58-94`. -/
inductive Scenario where
  | fixed (total : Option ℚ)
  | flexible (metric : Metric) (value : ℚ)
deriving DecidableEq

/-- The `__post_init__` of the two scenarios, `meridian/analysis/optimizer.py:69-71, 86-94`. -/
def Scenario.validate : Scenario → Except Err Unit
  | .fixed none => .ok ()
  | .fixed (some b) => if b < 0 then .error .totalNegative else .ok ()
  | .flexible (.other _) _ => .error .metric
  | .flexible _ v => if v < 0 then .error .targetNegative else .ok ()

/-- `isinstance(scenario, FixedBudgetScenario)`. -/
def Scenario.isFixed : Scenario → Bool
  | .fixed _ => true
  | .flexible _ _ => false

/-- `BudgetOptimizationSpec`, `meridian/schema/processors/budget_optimization_processor.py:215-262`, with
the fields of `OptimizationSpec`.  `γ` is the type of optimization grids a user may pass. -/
structure BSpec (δ γ : Type) where
  dated : DatedSpec.Spec
  name : List Char
  gridName : List Char
  group : Option String := none
  level : ℚ := 9 / 10
  scenario : Scenario := .fixed none
  constraints : List Constraint := []
  revenue : Bool := true
  grid : Option γ := none
  curves : Bool := true
  newData : Option (NewData δ) := none
  optimalFrequency : Bool := true
  maxFrequency : Option ℚ := none
  batch : ℤ := 100

/-- `new_data.time is None`. -/
def timeless {δ : Type} : Option (NewData δ) → Bool
  | none => false
  | some d => d.time.isNone

/-- `max_frequency is not None and max_frequency < 1`. -/
def belowOne : Option ℚ → Bool
  | none => false
  | some f => decide (f < 1)

/-- `BudgetOptimizationSpec.validate`,
`meridian/schema/processors/budget_optimization_processor.py:270-282`. -/
def BSpec.validate {δ γ : Type} (s : BSpec δ γ) : Except Err Unit :=
  match DatedSpec.validateOptimization s.dated s.name s.gridName s.level with
  | .error e => .error (.dated e)
  | .ok () =>
    if s.batch ≤ 0 then .error .batch
    else if timeless s.newData then .error .newTime
    else if s.optimalFrequency && belowOne s.maxFrequency then .error .maxFrequency
    else .ok ()

/-- The arguments of `BudgetOptimizer.optimize` (those the processor does not pass have their defaults). -/
structure Args (δ γ : Type) where
  start : Option CDate
  stop : Option CDate
  fixedBudget : Bool
  budget : Option ℚ
  targetRoi : Option ℚ
  targetMroi : Option ℚ
  lower : List ℚ
  upper : List ℚ
  level : ℚ
  useKpi : Bool
  grid : Option γ
  newData : Option (NewData δ)
  optimalFrequency : Bool
  maxFrequency : Option ℚ
  batch : ℤ

/-- `optimized_data` or `nonoptimized_data`: the variables by channel name, and attributes. -/
structure BudgetData where
  channels : List String
  spend : String → ℚ
  share : String → Num
  cell : String → Var → Stat → Num
  budget : ℚ
  revenue : Bool
  level : ℚ

/-- The dataset of an optimization grid, and its round factor. -/
structure GridData where
  channels : List String
  step : ℚ
  rows : ℕ
  spend : ℕ → String → Num
  outcome : ℕ → String → Num
  roundFactor : ℤ

/-- The response curves at some multipliers. -/
structure Curves where
  channels : List String
  multipliers : List ℚ
  spend : String → ℚ → ℚ
  incremental : String → ℚ → Stat → Num

/-- `OptimizationResults`. -/
structure Result where
  optimized : BudgetData
  nonoptimized : BudgetData
  grid : GridData
  curves : Curves

/-- The trained model and its optimizer. -/
structure Optim (δ γ : Type) where
  dates : List CDate
  paid : List String
  optimize : Args δ γ → Except Optimizer.Err Result

/-! ### Messages -/

/-- A `ChannelConstraint` message. -/
structure Bound where
  name : String
  min : ℚ
  max : ℚ
deriving DecidableEq

/-- The scenario of a `BudgetOptimizationSpec` message; `marginal` says which metric is the target. -/
inductive ScenarioMsg where
  | fixed (total : ℚ)
  | flexible (marginal : Bool) (value : ℚ)
deriving DecidableEq

/-- A `BudgetOptimizationSpec` message. -/
structure SpecMsg where
  interval : DatedSpec.Interval
  revenue : Bool
  batch : ℤ
  scenario : ScenarioMsg
  bounds : List Bound
  optimalFrequency : Bool
  maxFrequency : Option ℚ
deriving DecidableEq

/-- A `MarketingAnalysis` message with media analyses only. -/
structure Analysis where
  interval : DatedSpec.Interval
  media : List Media
deriving DecidableEq

/-- An `IncrementalOutcomeGrid` message. -/
structure GridMsg where
  name : List Char
  step : ℚ
  cells : List (String × List (ℚ × ℚ))
deriving DecidableEq

/-- A `BudgetOptimizationResult` message. -/
structure ResultMsg where
  name : List Char
  spec : SpecMsg
  optimized : Analysis
  nonoptimized : Analysis
  grid : GridMsg
  group : String
deriving DecidableEq

/-! ### The call -/

/-- All results or the first error. -/
def collect {α β : Type} (f : α → Except Err β) : List α → Except Err (List β)
  | [] => .ok []
  | a :: l => match f a with
    | .error e => .error e
    | .ok b => match collect f l with
      | .error e => .error e
      | .ok bs => .ok (b :: bs)

/-- `build_scenario_kwargs`, `meridian/schema/processors/budget_optimization_processor.py:605-641`: the
budget, the ROI target and the marginal ROI target. -/
def scenarioArgs : Scenario → Except Err (Option ℚ × Option ℚ × Option ℚ)
  | .fixed b => .ok (b, none, none)
  | .flexible .roi v => .ok (none, some v, none)
  | .flexible .mroi v => .ok (none, none, some v)
  | .flexible (.other _) _ => .error .metric

/-- `constraints_by_channel_name`, a dictionary: a later entry replaces an earlier one. -/
def lookup (cs : List Constraint) (ch : String) : Option Constraint :=
  cs.reverse.find? fun c => decide (c.name = ch)

/-- The pair of one channel, `meridian/schema/processors/budget_optimization_processor.py:671-685`. -/
def ratios (cs : List Constraint) (ch : String) : Except Err (ℚ × ℚ) :=
  match lookup cs ch with
  | none => .ok (1, 2)
  | some (.rel _ l u) => .ok (l, u)
  | some (.abs _ _ _) => .error .absolute

/-- `build_constraints_kwargs`, `meridian/schema/processors/budget_optimization_processor.py:644-692`. -/
def constraintArgs (cs : List Constraint) (paid : List String) : Except Err (List ℚ × List ℚ) :=
  if cs.all fun c => decide (c.name ∈ paid) then
    match collect (ratios cs) paid with
    | .error e => .error e
    | .ok l => .ok (l.map Prod.fst, l.map Prod.snd)
  else .error .channels

/-- The time coordinates of a spec, `meridian/schema/processors/budget_optimization_processor.py:395-400`. -/
def axis {δ γ : Type} (P : Optim δ γ) (s : BSpec δ γ) : Except Err (List CDate) :=
  match s.newData.bind fun n => n.time with
  | none => .ok P.dates
  | some ts => match TimeCoordinates.create ts with
    | .error e => .error (.dated (.time e))
    | .ok l => .ok l

/-- The arguments of the call, `meridian/schema/processors/budget_optimization_processor.py:389-417`. -/
def call {δ γ : Type} (P : Optim δ γ) (s : BSpec δ γ) (ax : List CDate) : Except Err (Args δ γ) :=
  match scenarioArgs s.scenario with
  | .error e => .error e
  | .ok (b, r, m) => match constraintArgs s.constraints P.paid with
    | .error e => .error e
    | .ok (l, u) => match DatedSpec.closedEnd ax s.dated.stop with
      | .error e => .error (.dated e)
      | .ok stop => .ok
        { start := s.dated.start, stop := stop, fixedBudget := s.scenario.isFixed,
          budget := b, targetRoi := r, targetMroi := m, lower := l, upper := u, level := s.level,
          useKpi := !s.revenue, grid := s.grid, newData := s.newData,
          optimalFrequency := s.optimalFrequency, maxFrequency := s.maxFrequency, batch := s.batch }

/-! ### The message -/

/-- Spend of the channel at a position. -/
def spendAt (d : BudgetData) (c : ℕ) : ℚ :=
  match d.channels[c]? with
  | none => 0
  | some ch => d.spend ch

/-- `_get_channel_constraints_abs`,
`meridian/schema/processors/budget_optimization_processor.py:565-602`. -/
def absolute (R : Result) (lower upper : List ℚ) : Except Err (List Constraint) :=
  match Optimizer.getOptimizationBounds R.optimized.channels.length (spendAt R.nonoptimized)
      R.grid.roundFactor lower upper with
  | .error e => .error (.bounds e)
  | .ok (lo, hi) => .ok (R.optimized.channels.mapIdx fun i ch => .abs ch (lo i) (hi i))

/-- The order of the rows of the pivoted response curves. -/
def before (r : Curves) (ch : String) (a b : ℚ) : Prop :=
  r.spend ch a < r.spend ch b ∨ (r.spend ch a = r.spend ch b ∧ a ≤ b)

instance (r : Curves) (ch : String) : DecidableRel (before r ch) := fun a b =>
  inferInstanceAs (Decidable (_ ∨ _))

/-- The points of a channel in `_to_channel_response_curve_protos`,
`meridian/schema/processors/budget_optimization_processor.py:695-735`.  The multipliers are distinct. -/
def points (r : Curves) (ch : String) : List (Num × Num) :=
  (r.multipliers.insertionSort (before r ch)).map fun x => (some (r.spend ch x), r.incremental ch x .mean)

/-- `_to_outcome` and `_to_estimate`,
`meridian/schema/processors/budget_optimization_processor.py:738-766, 816-828`. -/
def outcome (d : BudgetData) (ch : String) : Outcome :=
  { revenue := d.revenue
    value := toEstimate (d.cell ch .incremental) d.level .mean
    share := none
    effectiveness := some (toEstimate (d.cell ch .effectiveness) d.level .mean)
    cpik := some (toEstimate (d.cell ch .cpik) d.level .mean)
    roi := some (toEstimate (d.cell ch .roi) d.level .mean)
    mroi := some (toEstimate (d.cell ch .mroi) d.level .mean) }

/-- One channel of `to_marketing_analysis`,
`meridian/schema/processors/budget_optimization_processor.py:540-560`. -/
def media (d : BudgetData) (curves : Option Curves) (ch : String) : Except Err Media :=
  match curves with
  | none => .ok ⟨ch, [outcome d ch], some (some (d.spend ch), d.share ch), none⟩
  | some r =>
    if ch ∈ r.channels then
      .ok ⟨ch, [outcome d ch], some (some (d.spend ch), d.share ch), some (points r ch)⟩
    else .error .key

/-- `to_marketing_analysis`, `meridian/schema/processors/budget_optimization_processor.py:511-562`. -/
def analysis (i : DatedSpec.Interval) (d : BudgetData) (curves : Option Curves) : Except Err Analysis :=
  match collect (media d curves) d.channels with
  | .error e => .error e
  | .ok l => .ok ⟨i, l⟩

/-- `dropna`. -/
def present (g : GridData) (f : ℕ → String → Num) (ch : String) : List ℚ :=
  (List.range g.rows).filterMap fun r => f r ch

/-- One channel of `to_incremental_outcome_grid`,
`meridian/schema/processors/budget_optimization_processor.py:789-813`. -/
def cells (g : GridData) (ch : String) : Except Err (String × List (ℚ × ℚ)) :=
  if (present g g.spend ch).length ≠ (present g g.outcome ch).length then .error .grid
  else .ok (ch, (present g g.spend ch).zip (present g g.outcome ch))

/-- `to_incremental_outcome_grid`,
`meridian/schema/processors/budget_optimization_processor.py:769-813`. -/
def gridMsg (g : GridData) (name : List Char) : Except Err GridMsg :=
  match collect (cells g) g.channels with
  | .error e => .error e
  | .ok l => .ok ⟨name, g.step, l⟩

/-- The scenario of a spec message, `meridian/schema/processors/budget_optimization_processor.py:306-323`
and `_target_metric_to_proto` (831-841). -/
def scenarioMsg : Scenario → Except Err ScenarioMsg
  | .fixed none => .error .unresolved
  | .fixed (some b) => .ok (.fixed b)
  | .flexible .roi v => .ok (.flexible false v)
  | .flexible .mroi v => .ok (.flexible true v)
  | .flexible (.other _) _ => .error .metric

/-- A constraint of a spec message, `meridian/schema/processors/budget_optimization_processor.py:325-340`. -/
def boundMsg : Constraint → Except Err Bound
  | .abs n l u => .ok ⟨n, l, u⟩
  | .rel _ _ _ => .error .relative

/-- `BudgetOptimizationSpec.to_proto`,
`meridian/schema/processors/budget_optimization_processor.py:285-344`. -/
def specMsg {δ γ : Type} (s : BSpec δ γ) : Except Err SpecMsg :=
  match s.dated.start, s.dated.stop with
  | some a, some b => match scenarioMsg s.scenario with
    | .error e => .error e
    | .ok sc => match collect boundMsg s.constraints with
      | .error e => .error e
      | .ok bs => .ok ⟨⟨a, b, s.dated.tag⟩, s.revenue, s.batch, sc, bs, s.optimalFrequency, s.maxFrequency⟩
  | _, _ => .error .unresolved

/-- The scenario of the resolved spec,
`meridian/schema/processors/budget_optimization_processor.py:466-479`. -/
def resolvedScenario (sc : Scenario) (R : Result) : Scenario :=
  match sc with
  | .fixed none => .fixed (some R.optimized.budget)
  | x => x

/-- The resolved spec with absolute constraints; `dataclasses.replace` validates again,
`meridian/schema/processors/budget_optimization_processor.py:450-479`. -/
def resolve {δ γ : Type} (s : BSpec δ γ) (ax : List CDate) (R : Result) (lower upper : List ℚ) :
    Except Err (BSpec δ γ) :=
  match DatedSpec.openEnd ax s.dated with
  | .error e => .error (.dated e)
  | .ok i => match absolute R lower upper with
    | .error e => .error e
    | .ok cs =>
      let s' := { s with dated := ⟨some i.start, some i.stop, i.tag⟩, constraints := cs }
      match s'.validate with
      | .error e => .error e
      | .ok () => match (resolvedScenario s.scenario R).validate with
        | .error e => .error e
        | .ok () => .ok { s' with scenario := resolvedScenario s.scenario R }

/-- `_to_budget_optimization_result`,
`meridian/schema/processors/budget_optimization_processor.py:428-508`.  An empty group is no group. -/
def resultMsg {δ γ : Type} (s : BSpec δ γ) (ax : List CDate) (R : Result) (lower upper : List ℚ) :
    Except Err ResultMsg :=
  match resolve s ax R lower upper, DatedSpec.openEnd ax s.dated with
  | .ok s', .ok i =>
    let curves := if s.curves then some R.curves else none
    match analysis i R.optimized curves with
    | .error e => .error e
    | .ok o => match analysis i R.nonoptimized curves with
      | .error e => .error e
      | .ok n => match specMsg s' with
        | .error e => .error e
        | .ok m => match gridMsg R.grid s.gridName with
          | .error e => .error e
          | .ok g => .ok ⟨s.name, m, o, n, g, s.group.getD ""⟩
  | .error e, _ => .error e
  | _, .error e => .error (.dated e)

/-- One pass of the loop of `execute`,
`meridian/schema/processors/budget_optimization_processor.py:388-424`. -/
def runSpec {δ γ : Type} (P : Optim δ γ) (s : BSpec δ γ) : Except Err ResultMsg :=
  match axis P s with
  | .error e => .error e
  | .ok ax => match call P s ax with
    | .error e => .error e
    | .ok a => match P.optimize a with
      | .error e => .error (.optimizer e)
      | .ok R => resultMsg s ax R a.lower a.upper

/-- The groups that are given. -/
def groups {δ γ : Type} (specs : List (BSpec δ γ)) : List String :=
  specs.filterMap fun s => match s.group with
    | none => none
    | some g => if g = "" then none else some g

/-- `execute`, `meridian/schema/processors/budget_optimization_processor.py:373-426`. -/
def execute {δ γ : Type} (P : Optim δ γ) (specs : List (BSpec δ γ)) : Except Err (List ResultMsg) :=
  if (groups specs).Nodup then collect (runSpec P) specs else .error .group

end Verif.BudgetProto

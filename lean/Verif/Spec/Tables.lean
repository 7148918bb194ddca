import Verif.Model.Tables

/-!
# What the tables of the dashboard contain

Every table is given row by row, each cell beside the name of its column, in terms of the message only.
-/

namespace Verif.TablesSpec

open Verif Verif.Calendar Verif.Tables

/-- A row: each column with its cell. -/
abbrev Row := List (String × Cell)

/-- Exactly one table has this name; it has these columns, and these rows in this order. -/
def IsTable (tables : List (String × Frame)) (name : String) (columns : List String) (rows : List Row) : Prop :=
  (∃ f, tables.filter (fun t => t.1 = name) = [(name, f)] ∧ f.columns = columns ∧
    f.rows = rows.map fun r => r.map Prod.snd) ∧ ∀ r ∈ rows, r.map Prod.fst = columns

/-- Names occur once: data sets, analyses, channels of an analysis, of a grid and of a list of frequencies. -/
structure UniqueNames (m : Mmm) : Prop where
  fits : (m.fits.map (·.name)).Nodup
  tags : (m.analyses.map (·.interval.tag)).Nodup
  media : ∀ a ∈ m.analyses, (a.media.map (·.name)).Nodup
  nonMedia : ∀ a ∈ m.analyses, (a.nonMedia.map (·.name)).Nodup
  budgetGrid : ∀ b ∈ m.budgets, (b.grid.map Prod.fst).Nodup
  budgetMedia : ∀ b ∈ m.budgets, (b.optimized.map (·.name)).Nodup
  reachGrid : ∀ b ∈ m.reaches, (b.grid.map Prod.fst).Nodup
  reachMedia : ∀ b ∈ m.reaches, (b.optimized.map (·.name)).Nodup
  frequencies : ∀ b ∈ m.reaches, (b.frequencies.map Prod.fst).Nodup

/-! ### What is shown -/

/-- The channels of an analysis, without the line for all channels. -/
def ordinary (l : List Media) : List Media := l.filter fun c => c.name ≠ "All Channels"

/-- The outcome of a kind: the first one. -/
def outcome (revenue : Bool) (l : List Outcome) : Option Outcome :=
  (l.filter fun o => o.kpi = if revenue then .revenue else .nonRevenue).head?

/-- There is an outcome of the kind. -/
def Has (revenue : Bool) (l : List Outcome) : Prop := ∃ o ∈ l, o.kpi = if revenue then .revenue else .nonRevenue

/-- The tables are about revenue if the baseline of the analysis `ALL` has a revenue outcome. -/
def revenue (m : Mmm) : Bool := m.analyses.any fun a => a.interval.tag = "ALL" &&
  a.nonMedia.any fun n => n.name = "baseline" && n.outcomes.any fun o => o.kpi = .revenue

/-- The result of the fit which is shown: that of all data, or else the first. -/
def chosenFit (m : Mmm) : Option Fit := match (m.fits.filter fun r => r.name = "All Data").head? with
  | some r => some r
  | none => m.fits.head?

/-- The first interval, or no bounds. -/
def bounds (e : Estimate) : Num × Num := match e.intervals with
  | [] => (none, none)
  | i :: _ => i

/-- `ModelDiagnostics`. -/
def diagnosticsRows (m : Mmm) : List Row := m.fits.map fun r => [("Dataset", .str r.name),
  ("R Squared", .num r.rSquared), ("MAPE", .num r.mape), ("wMAPE", .num r.wmape)]

/-- `ModelFit`. -/
def fitRows (r : Fit) : List Row := r.predictions.map fun p => [("Time", .date p.start),
  ("Expected CI Low", .num (bounds p.predicted).1), ("Expected CI High", .num (bounds p.predicted).2),
  ("Expected", .num p.predicted.value), ("Baseline", .num p.baseline), ("Actual", .num p.actual)]

/-- The period of an analysis. -/
def period (a : Analysis) : Row := [("Analysis Period", .str a.interval.tag),
  ("Analysis Date Start", .date a.interval.start), ("Analysis Date End", .date a.interval.stop)]

/-- One line of `MediaOutcome`: NaN without an outcome of the kind. -/
def outcomeLine (rev : Bool) (a : Analysis) (index : ℤ) (name : String) (l : List Outcome) : Row :=
  [("Channel Index", .int index), ("Channel", .str name),
    ("Incremental Outcome", .num ((outcome rev l).bind (·.contribution))),
    ("Contribution Share", .num ((outcome rev l).bind (·.share)))] ++ period a

/-- `MediaOutcome`: baseline, then all channels of the analysis, then the other treatments. -/
def outcomeRows (rev : Bool) (a : Analysis) : List Row :=
  ((a.nonMedia.filter fun n => n.name = "baseline").map fun n => outcomeLine rev a 0 n.name n.outcomes) ++
    (a.media.map fun c => outcomeLine rev a (if c.name = "All Channels" then 1 else 2) c.name c.outcomes) ++
    (a.nonMedia.filter fun n => n.name ≠ "baseline").map fun n =>
      outcomeLine rev a (if n.name = "All Channels" then 1 else 2) n.name n.outcomes

/-- The shares of the outcome which are known, of the ordinary channels which have an outcome of the kind. -/
def knownShares (rev : Bool) (a : Analysis) : List Num :=
  ((ordinary a.media).filterMap fun c => outcome rev c.outcomes).map (·.share)

/-- Their sum, NaN if one of them is. -/
def total (rev : Bool) (a : Analysis) : Num :=
  if none ∈ knownShares rev a then none else some ((knownShares rev a).filterMap id).sum

/-- The share of a channel in the total. -/
def portion (rev : Bool) (a : Analysis) (c : Media) : Num :=
  match (outcome rev c.outcomes).bind (·.share), total rev a with
  | some x, some t => some (x / t)
  | _, _ => none

/-- `MediaSpend`. -/
def spendRows (rev : Bool) (a : Analysis) : List Row := (ordinary a.media).flatMap fun c =>
  [[("Channel", .str c.name), ("Share Value", .num c.spendShare), ("Label", .str "Spend Share")] ++ period a,
    [("Channel", .str c.name), ("Share Value", .num (portion rev a c)),
      ("Label", .str (if rev then "Revenue Share" else "KPI Share"))] ++ period a]

/-- `MediaROI`. -/
def roiRows (rev : Bool) (a : Analysis) : List Row := (ordinary a.media).flatMap fun c =>
  match outcome rev c.outcomes with
  | none => []
  | some o => [[("Channel", .str c.name), ("Spend", .num c.spend), ("Effectiveness", .num o.effectiveness),
      ("ROI", .num o.roi.value), ("ROI CI Low", .num (bounds o.roi).1), ("ROI CI High", .num (bounds o.roi).2),
      ("Marginal ROI", .num o.mroi), ("Is Revenue KPI", .flag rev)] ++ period a]

/-- The total spend of a channel over the data points which start in `[start, stop)`. -/
def spent (sel : Point → List (String × ℚ)) (m : Mmm) (start stop : CDate) (name : String) : ℚ :=
  ((m.points.filter fun p => start.le p.start && p.start.lt stop).map fun p =>
    (((sel p).filter fun v => v.1 = name).map Prod.snd).sum).sum

/-- The channel occurs in the data. -/
def Occurs (sel : Point → List (String × ℚ)) (m : Mmm) (name : String) : Prop :=
  ∃ p ∈ m.points, ∃ v ∈ sel p, v.1 = name

/-- The channels of the data in alphabetical order. -/
def IsChannels (sel : Point → List (String × ℚ)) (m : Mmm) (l : List String) : Prop :=
  l.Pairwise (· < ·) ∧ ∀ n, n ∈ l ↔ Occurs sel m n

/-- A grid: one line for each of its cells. -/
def gridRows (group x y : String) (grid : List (String × List (Num × Num))) : List Row :=
  grid.flatMap fun p => p.2.map fun c => [("Group ID", .str group), ("Channel", .str p.1), (x, .num c.1),
    (y, .num c.2)]

/-- How a metric is called. -/
def metricName : Metric → String
  | .kpi => "KPI"
  | .roi => "ROI"
  | .mroi => "Marginal ROI"
  | .cpik => "Cost per Incremental KPI"
  | .unspecified => ""

/-- What a budget says about its scenario: kind, constraint and value. -/
def scenarioCells : Scenario → Cell × Cell × Cell
  | .fixed _ => (.str "Fixed", .none, .none)
  | .flexible _ (t :: _) => (.str "Flexible", .str (metricName t.1), .num (some t.2))
  | _ => (.str "Flexible", .none, .none)

/-- The largest budget. -/
def limit : Scenario → ℚ
  | .fixed b => b
  | .flexible b _ => b
  | .unset => 0

/-- The constraints of a budget: those which are given, or else the range from zero to the largest budget for each
of the given channels. -/
def constraints (media : List String) (b : Budget) : List Bound :=
  if b.bounds = [] then media.map fun ch => ⟨ch, 0, limit b.scenario⟩ else b.bounds

/-- `budget_opt_specs`, for the media channels of the data. -/
def budgetSpecRows (m : Mmm) (media : List String) (b : Budget) : List Row :=
  (constraints media b).map fun c => [("Group ID", .str b.group), ("Date Interval Start", .date b.interval.start),
    ("Date Interval End", .date b.interval.stop), ("Analysis Period", .str b.interval.tag),
    ("Objective", .str (metricName b.objective)), ("Scenario Type", (scenarioCells b.scenario).1),
    ("Initial Channel Spend", .num (some (if c.name ∈ media then
      spent Point.media m b.interval.start b.interval.stop c.name else
      spent Point.rf m b.interval.start b.interval.stop c.name))),
    ("Target Metric Constraint", (scenarioCells b.scenario).2.1),
    ("Target Metric Value", (scenarioCells b.scenario).2.2), ("Channel", .str c.name),
    ("Channel Spend Min", .num (some c.min)), ("Channel Spend Max", .num (some c.max))]

/-- The lines of a channel in a table of results: revenue first. -/
def resultLines (group : String) (c : Media) (x y : String × Cell) : List Row :=
  [true, false].flatMap fun rev => match outcome rev c.outcomes with
    | none => []
    | some o => [[("Group ID", .str group), ("Channel", .str c.name), ("Is Revenue KPI", .flag rev), x, y,
        ("Optimal Impression Effectiveness", .num o.effectiveness), ("Optimal ROI", .num o.roi.value),
        ("Optimal mROI", .num o.mroi), ("Optimal CPC", .num o.cpc)]]

/-- `budget_opt_results`. -/
def budgetResultRows (b : Budget) : List Row := (ordinary b.optimized).flatMap fun c =>
  resultLines b.group c ("Optimal Spend", .num c.spend) ("Optimal Spend Share", .num c.spendShare)

/-- `response_curves`. -/
def curveRows (b : Budget) : List Row := b.optimized.flatMap fun c => c.curve.map fun q =>
  [("Group ID", .str b.group), ("Channel", .str c.name), ("Spend", .num q.1), ("Incremental Outcome", .num q.2)]

/-- `rf_opt_specs`: without a minimum the frequency is at least one. -/
def reachSpecRows (m : Mmm) (b : Reach) : List Row := b.bounds.map fun c => [("Group ID", .str b.group),
  ("Date Interval Start", .date b.interval.start), ("Date Interval End", .date b.interval.stop),
  ("Objective", .str (metricName b.objective)),
  ("Initial Channel Spend", .num (some (spent Point.rf m b.interval.start b.interval.stop c.name))),
  ("Channel", .str c.name), ("Channel Frequency Min", .num (some (if c.min = 0 then 1 else c.min))),
  ("Channel Frequency Max", .num (some c.max))]

/-- `rf_opt_results`: the channels with an optimal frequency. -/
def reachResultRows (m : Mmm) (b : Reach) : List Row := (ordinary b.optimized).flatMap fun c =>
  (b.frequencies.filter fun f => f.1 = c.name).flatMap fun f => resultLines b.group c
    ("Initial Spend", .num (some (spent Point.rf m b.interval.start b.interval.stop c.name)))
    ("Optimal Avg Frequency", .num f.2)

/-- The name of a table from the name of a grid: every run of white space becomes one underscore. -/
inductive Normal : List Char → List Char → Prop
  | nil : Normal [] []
  | other (c : Char) (l r : List Char) : isSpace c = false → Normal l r → Normal (c :: l) (c :: r)
  | space (w l r : List Char) : w ≠ [] → (∀ c ∈ w, isSpace c = true) → (∀ c ∈ l.head?, isSpace c = false) →
      Normal l r → Normal (w ++ l) ('_' :: r)

/-- Two grids would get the same name. -/
def SameName (x y : List Char) : Prop := ∃ z, Normal x z ∧ Normal y z

/-! ### What is accepted -/

/-- An analysis: its dates exist, its baseline has an outcome of the kind, and so has every ordinary channel; if
there is one, the shares do not add up to zero. -/
structure AnalysisOk (rev : Bool) (a : Analysis) : Prop where
  start : a.interval.start.Valid
  stop : a.interval.stop.Valid
  base : ∃ n ∈ a.nonMedia, n.name = "baseline" ∧ Has rev n.outcomes
  media : ∀ c ∈ ordinary a.media, Has rev c.outcomes
  total : ordinary a.media ≠ [] → total rev a ≠ some 0

/-- A flexible scenario names a first target. -/
def ScenarioOk : Scenario → Prop
  | .fixed _ => True
  | .flexible _ (t :: _) => t.1 ≠ .unspecified
  | _ => False

/-- A budget. -/
structure BudgetOk (b : Budget) : Prop where
  start : b.interval.start.Valid
  stop : b.interval.stop.Valid
  objective : b.objective ≠ .unspecified
  scenario : ScenarioOk b.scenario

/-- A result for reach and frequency: the constraints are for the channels with a frequency and have a maximum,
and the channels with a frequency that are reported occur in the data. -/
structure ReachOk (m : Mmm) (b : Reach) : Prop where
  start : b.interval.start.Valid
  stop : b.interval.stop.Valid
  objective : b.objective ≠ .unspecified
  given : b.bounds ≠ []
  same : ∀ n, n ∈ b.bounds.map (·.name) ↔ n ∈ b.frequencies.map Prod.fst
  max : ∀ c ∈ b.bounds, c.max ≠ 0
  data : ∀ c ∈ ordinary b.optimized, c.name ∈ b.frequencies.map Prod.fst → Occurs Point.rf m c.name

/-- The messages that can be shown. -/
structure Accepted (m : Mmm) : Prop where
  fit : ∀ r, chosenFit m = some r → ∀ p ∈ r.predictions, p.start.Valid
  whole : m.analyses ≠ [] → ∃ a ∈ m.analyses, a.interval.tag = "ALL" ∧ ∃ n ∈ a.nonMedia, n.name = "baseline"
  analyses : ∀ a ∈ m.analyses, AnalysisOk (revenue m) a
  budgets : ∀ b ∈ m.budgets, BudgetOk b
  reaches : ∀ b ∈ m.reaches, ReachOk m b
  points : m.budgets ≠ [] ∨ m.reaches ≠ [] → ∀ p ∈ m.points, p.start.Valid ∧ p.stop.Valid
  budgetGroups : m.budgets.Pairwise fun a b => a.group = b.group → a.group = ""
  reachGroups : m.reaches.Pairwise fun a b => a.group = b.group → a.group = ""
  budgetNames : m.budgets.Pairwise fun a b => ¬ SameName a.gridName b.gridName
  reachNames : m.reaches.Pairwise fun a b => ¬ SameName a.gridName b.gridName

end Verif.TablesSpec

import Verif.Model.Optimizer
import Verif.Model.Stabilize
import Mathlib.Data.List.Sort
import Mathlib.Data.List.Dedup

/-!
# The weekly optimization grid

`meridian/analysis/weekly_optimization_grid.py`: outcomes by channel, spend multiplier and week are
computed once (`create`), grids for adjacent periods are joined (`combine`), and the grid of a budget
scenario is looked up by interpolation (`to_optimization_grid`).

Weeks are day numbers; the code has ISO strings, whose order is the order of the dates.  Channels are
positions.  Outcomes are numbers (no NaN), arithmetic is exact.
-/

namespace Verif.Weekly

open Verif.Optimizer

/-! ## Creation -/

/-- The limits a grid is made for and the step between multipliers. -/
structure Limits where
  decrease : ℚ
  increase : ℚ
  variation : ℚ
  step : ℚ
deriving DecidableEq

/-- Errors of `create` and `combine`. -/
inductive Err where
  | decreaseRange
  | increaseNegative
  | variationNegative
  | empty
  | differs (index : ℕ)
  | duplicateDates
  | gap
deriving DecidableEq

/-- The checks of the arguments, `meridian/analysis/weekly_optimization_grid.py:124-138`. -/
def checkLimits (decrease increase variation : ℚ) : Except Err Unit :=
  if ¬ (0 ≤ decrease ∧ decrease < 1) then .error .decreaseRange
  else if increase < 0 then .error .increaseNegative
  else if variation < 0 then .error .variationNegative
  else .ok ()

/-- `bounds`, `meridian/analysis/weekly_optimization_grid.py:188-192`. -/
def Limits.lower (l : Limits) : ℚ := (1 - l.decrease) * (1 - l.variation)
@[inherit_doc Limits.lower]
def Limits.upper (l : Limits) : ℚ := (1 + l.increase) * (1 + l.variation)

/-- The default of `multiplier_step`, `meridian/analysis/weekly_optimization_grid.py:194-195`. -/
def defaultStep (decrease : ℚ) : ℚ := 1 / 10000 * (1 - decrease)

/-- The length of `np.arange(lower, upper + step / 2, step)`,
`meridian/analysis/weekly_optimization_grid.py:198-201`. -/
def Limits.count (l : Limits) : ℕ := ⌈(l.upper + l.step / 2 - l.lower) / l.step⌉.toNat

/-- `unique_multipliers`, `meridian/analysis/weekly_optimization_grid.py:197-204`: rounded to six
decimals, without duplicates, sorted. -/
def Limits.multipliers (l : Limits) : List ℚ :=
  (((List.range l.count).map fun k : ℕ => npRound (l.lower + k * l.step) 6).dedup).insertionSort (· ≤ ·)

/-- What the outcomes are computed from, `meridian/analysis/weekly_optimization_grid.py:206-315`: for
each draw the transformed media (adstock and saturation) when every unit of the channel is multiplied
by a factor, and the coefficients; the scale of the KPI (the transformer is
`x ↦ (x · std + mean) · pop g`); the revenue per KPI. -/
structure Source where
  draws : ℕ
  geos : ℕ
  /-- draw, factor, geo, week, channel -/
  transformed : ℕ → ℚ → ℕ → ℕ → ℕ → ℚ
  /-- draw, geo, channel -/
  beta : ℕ → ℕ → ℕ → ℚ
  kpiStd : ℚ
  kpiMean : ℚ
  pop : ℕ → ℚ
  /-- geo, week -/
  revenuePerKpi : Option (ℕ → ℕ → ℚ)
  useKpi : Bool

/-- `kpi_transformer.inverse` in one cell. -/
def Source.inverse (s : Source) (g : ℕ) (x : ℚ) : ℚ := (x * s.kpiStd + s.kpiMean) * s.pop g

/-- `revenue_per_kpi`, `meridian/analysis/weekly_optimization_grid.py:219-228`. -/
def Source.revenue (s : Source) (g t : ℕ) : ℚ :=
  match s.revenuePerKpi with
  | some r => r g t
  | none => 1

/-- `incremental_outcome` of one draw in one cell,
`meridian/analysis/weekly_optimization_grid.py:424-510`. -/
def Source.incremental (s : Source) (d : ℕ) (m : ℚ) (g t c : ℕ) : ℚ :=
  let diff := s.transformed d m g t c - s.transformed d 0 g t c
  let natural := s.inverse g (diff * s.beta d g c) - s.inverse g 0
  if s.useKpi then natural else s.revenue g t * natural

/-- `_compute_batch` for one multiplier, `meridian/analysis/weekly_optimization_grid.py:424-519`: mean
over draws (chains and draws are numbered together), sum over geos; by week and channel. -/
def Source.cell (s : Source) (m : ℚ) (t c : ℕ) : ℚ :=
  ((List.range s.geos).map fun g =>
    ((List.range s.draws).map fun d => s.incremental d m g t c).sum / s.draws).sum

/-- The multipliers in batches, `meridian/analysis/weekly_optimization_grid.py:321-324`; the number of
batches left is bounded by the number of multipliers. -/
def batches (size : ℕ) : ℕ → List ℚ → List (List ℚ)
  | 0, _ => []
  | fuel + 1, l => if l = [] then [] else l.take size :: batches size fuel (l.drop size)

/-- `outcomes`, `meridian/analysis/weekly_optimization_grid.py:317-351`: by multiplier. -/
def Source.outcomes (s : Source) (batchSize : ℤ) (mults : List ℚ) : List (ℕ → ℕ → ℚ) :=
  ((batches (max 1 batchSize).toNat mults.length mults).map fun b => b.map s.cell).flatten

/-! ## The grid -/

/-- A `WeeklyOptimizationGrid`, `meridian/analysis/weekly_optimization_grid.py:54-65`.  The two arrays
have their own time axes; `outcome` gives for each week the outcome by channel and by position of
the multiplier, `spend` the spend by channel. -/
structure Settings where
  limits : Limits
  useKpi : Bool
  usePosterior : Bool
  rfChannels : ℕ
  useOptimalFrequency : Bool
  maxFrequency : Option ℚ
  optimalFrequency : Option (List ℚ)
  channels : List String
  multipliers : List ℚ
deriving DecidableEq

@[inherit_doc Settings]
structure Weekly where
  settings : Settings
  outcome : List (ℤ × (ℕ → ℕ → ℚ))
  spend : List (ℤ × (ℕ → ℚ))

/-- `time`, `meridian/analysis/weekly_optimization_grid.py:528-531`. -/
def Weekly.time (w : Weekly) : List ℤ := w.outcome.map Prod.fst

/-- The arrays of the new grid, `meridian/analysis/weekly_optimization_grid.py:150-186, 353-366`: all
weeks of the data or the selected ones, looked up by their position among all weeks. -/
def create (settings : Settings) (s : Source) (batchSize : ℤ) (dates : List ℤ)
    (selected : Option (List ℤ)) (spend : ℕ → ℕ → ℚ) : Weekly :=
  let out := s.outcomes batchSize settings.multipliers
  let weeks := selected.getD dates
  { settings := settings
    outcome := weeks.map fun d => (d, fun c k => (out[k]?.map fun f => f (dates.idxOf d) c).getD 0)
    spend := weeks.map fun d => (d, fun c => spend (dates.idxOf d) c) }

/-! ## Joining grids -/

/-- `np.argsort`, `meridian/analysis/weekly_optimization_grid.py:913`. -/
def argsort (ts : List ℤ) : List ℕ :=
  (ts.zipIdx.insertionSort fun a b => a.1 ≤ b.1).map Prod.snd

/-- `isel({TIME: indices})`, `meridian/analysis/weekly_optimization_grid.py:914-915`. -/
def isel {α : Type} (l : List α) (idx : List ℕ) : List α := idx.filterMap (l[·]?)

/-- Every date seven days after the one before,
`meridian/analysis/weekly_optimization_grid.py:918-925`. -/
def contiguous : List ℤ → Bool
  | a :: b :: l => decide (b - a = 7) && contiguous (b :: l)
  | _ => true

/-- The first grid whose settings differ from those of the first,
`meridian/analysis/weekly_optimization_grid.py:844-898`. -/
def firstDifferent (first : Settings) : ℕ → List Weekly → Option ℕ
  | _, [] => none
  | i, g :: l => if g.settings = first then firstDifferent first (i + 1) l else some i

/-- `combine`, `meridian/analysis/weekly_optimization_grid.py:820-940`. -/
def combine : List Weekly → Except Err Weekly
  | [] => .error .empty
  | [g] => .ok g
  | first :: rest =>
    match firstDifferent first.settings 1 rest with
    | some i => .error (.differs i)
    | none =>
      let outcome := (first :: rest).flatMap Weekly.outcome
      let spend := (first :: rest).flatMap Weekly.spend
      let times := outcome.map Prod.fst
      if ¬ times.Nodup then .error .duplicateDates
      else
        let idx := argsort times
        if contiguous (isel times idx) = false then .error .gap
        else .ok ⟨first.settings, isel outcome idx, isel spend idx⟩

/-! ## The grid of a scenario -/

/-- `np.interp` with increasing nodes: linear between, constant outside. -/
def interp : List (ℚ × ℚ) → ℚ → ℚ
  | [], _ => 0
  | [p], _ => p.2
  | p :: q :: l, x =>
    if x ≤ p.1 then p.2
    else if x < q.1 then p.2 + (q.2 - p.2) / (q.1 - p.1) * (x - p.1)
    else interp (q :: l) x

/-- `_validate_dates`, `meridian/analysis/weekly_optimization_grid.py:533-566`. -/
def Weekly.validDates (w : Weekly) (start stop : Option ℤ) : Bool :=
  (match start with | some s => decide (s ∈ w.time) | none => true) &&
  (match stop with | some e => decide (e ∈ w.time) | none => true)

/-- The first and last week, `meridian/analysis/weekly_optimization_grid.py:662-670`; there is at least
one week. -/
def Weekly.first (w : Weekly) (start : Option ℤ) : ℤ := start.getD (w.time.head?.getD 0)
@[inherit_doc Weekly.first]
def Weekly.last (w : Weekly) (stop : Option ℤ) : ℤ := stop.getD (w.time.getLast?.getD 0)

/-- `hist_spend`, `meridian/analysis/weekly_optimization_grid.py:676-679`: a slice of a sorted time
axis. -/
def Weekly.hist (w : Weekly) (a b : ℤ) (c : ℕ) : ℚ :=
  ((w.spend.filter fun p => decide (a ≤ p.1 ∧ p.1 ≤ b)).map fun p => p.2 c).sum

/-- One channel in `_validate_optimization_bounds`,
`meridian/analysis/weekly_optimization_grid.py:591-618`. -/
def channelCovered (mults : List ℚ) (rounded : ℤ) (rf lo hi : ℤ) : Bool :=
  if rounded = 0 then true
  else
    match mults.head?, mults.getLast? with
    | some a, some b =>
      !decide (lo < truncInt (npRound (a * rounded) rf)) &&
      !decide (truncInt (npRound (b * rounded) rf) < hi)
    | _, _ => false

/-- `_validate_optimization_bounds`, `meridian/analysis/weekly_optimization_grid.py:568-626`. -/
def Weekly.boundsCovered (w : Weekly) (lo hi : ℕ → ℤ) (hist : ℕ → ℚ) (rf : ℤ) : Bool :=
  (List.range w.settings.channels.length).all fun c =>
    channelCovered w.settings.multipliers (roundedSpend hist rf c) rf (lo c) (hi c)

/-- `selected_times` and `week_indices`, `meridian/analysis/weekly_optimization_grid.py:672-674, 784`. -/
def Weekly.selected (w : Weekly) (a b : ℤ) : List (ℤ × (ℕ → ℕ → ℚ)) :=
  w.outcome.filter fun p => decide (a ≤ p.1 ∧ p.1 ≤ b)

/-- The nodes of one channel with the outcomes summed over the weeks,
`meridian/analysis/weekly_optimization_grid.py:800-806`. -/
def Weekly.nodes (w : Weekly) (a b : ℤ) (c : ℕ) : List (ℚ × ℚ) :=
  w.settings.multipliers.zipIdx.map fun m => (m.1, ((w.selected a b).map fun p => p.2 c m.2).sum)

/-- One cell of `incremental_outcome_grid`, `meridian/analysis/weekly_optimization_grid.py:782-811`. -/
def Weekly.outcomeCell (w : Weekly) (a b : ℤ) (spend : ℕ → ℕ → Num) (r c : ℕ) : Num :=
  if w.hist a b c = 0 then some 0
  else (spend r c).map fun s => interp (w.nodes a b c) (s / w.hist a b c)

/-- The outcome grid, `meridian/analysis/weekly_optimization_grid.py:782-818`, on either backend. -/
def Weekly.outcomeGrid (w : Weekly) (jax : Bool) (a b : ℤ) (rows : ℕ) (spend : ℕ → ℕ → Num) :
    ℕ → ℕ → Num :=
  let n := w.settings.channels.length
  if w.settings.rfChannels = 0 then w.outcomeCell a b spend
  else if jax then Stabilize.jaxStabilize rows n w.settings.rfChannels spend (w.outcomeCell a b spend)
  else Stabilize.tfStabilize rows n w.settings.rfChannels spend (w.outcomeCell a b spend)

/-- `to_optimization_grid`, `meridian/analysis/weekly_optimization_grid.py:628-753`: `none` if the
weekly grid does not cover the scenario. -/
def Weekly.toGrid (w : Weekly) (jax : Bool) (start stop : Option ℤ) (budget : Option ℚ)
    (lower upper : Option (List ℚ)) : Except Optimizer.Err (Option OptGrid) :=
  if w.validDates start stop = false then .ok none
  else do
    let n := w.settings.channels.length
    let a := w.first start
    let b := w.last stop
    let hist := w.hist a b
    let total := budget.getD (histTotal n hist)
    let share ← validatePctOfSpend n hist none
    let rf ← getRoundFactor total (1 / 10000)
    let (lo, hi) ← getOptimizationBounds n (fun c => total * share c) rf
      (lower.getD [w.settings.limits.variation]) (upper.getD [w.settings.limits.variation])
    if w.boundsCovered lo hi hist rf = false then return none
    else do
      let (rows, cells) ← createSpendGrid n lo hi (stepSize rf)
      return some {
        grid := { rows := rows, cols := n, spend := cells, out := w.outcomeGrid jax a b rows cells }
        hist := hist
        gtol := 1 / 10000
        roundFactor := rf }

end Verif.Weekly

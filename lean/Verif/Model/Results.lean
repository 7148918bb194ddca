import Verif.Model.Curves

/-!
# The outcome grid and the reported results of a budget optimization

`BudgetOptimizer._create_grids`, `_update_incremental_outcome_grid`, `_get_incremental_outcome_tensors`,
`_create_budget_dataset` and `_raise_warning_if_target_constraints_not_met` of
`meridian/analysis/optimizer.py`, and `Analyzer.get_aggregated_impressions`.

The search on the grid is in `Verif.Model.GridSearch` and `Verif.Model.Optimizer`, for an arbitrary
outcome function; here is the function itself.  Data, parameters and incremental outcomes are those of
`Verif.Model.Mmm`.  Paid channels are numbered media first, then reach and frequency.  `d` is the data
after `validate_and_fill_missing_data`; only the fields of paid channels and the revenue per KPI are read.
-/

namespace Verif.Results

open Verif.Mmm Verif.Selection Verif.Transformers Verif.Curves

/-- The two backends. -/
inductive Backend where
  | jax
  | tf
deriving DecidableEq

/-- Number of paid channels, `get_all_paid_channels()`. -/
def nPaid (ctx : Ctx) : ℕ := ctx.media.n + ctx.rf.n

/-- Entry `c` of `x[-n_rf_channels:]` for an array over the paid channels
(`meridian/analysis/optimizer.py:2427-2428, 2693, 2703`). -/
def lastRf (ctx : Ctx) (x : ℕ → ℝ) (c : ℕ) : ℝ := x (nPaid ctx - ctx.rf.n + c)

/-! ### The outcome grid -/

/-- The data of one row of the grid, `meridian/analysis/optimizer.py:2676-2705`. -/
noncomputable def gridData (ctx : Ctx) (d : Data) (opt : Option (ℕ → ℝ)) (mult : ℕ → ℝ) : Data :=
  match opt with
  | some f =>
    { d with
      media := fun g t c => mult c * d.media g t c
      frequency := fun _ _ c => 1 * f c
      reach := fun g t c =>
        divideNoNan (lastRf ctx mult c * d.reach g t c * d.frequency g t c) (1 * f c) }
  | none =>
    { d with
      media := fun g t c => mult c * d.media g t c
      reach := fun g t c => lastRf ctx mult c * d.reach g t c }

/-- The incremental outcome of paid channel `m` in one draw, summed over the selection:
`Analyzer.incremental_outcome(include_non_paid_channels=False)` with the scaling factors, as called by
the optimizer (`meridian/analysis/optimizer.py:2506-2527, 2713-2725`). -/
noncomputable def incDraw (ctx : Ctx) (D : Data) (gi ti : Option (List ℕ)) (useKpiArg : Bool)
    (s0 s1 : ℝ) (m : ℕ) (p : Params) : ℝ :=
  total ctx (fun g t => incrementalOutcome ctx p D (fun _ => 0) s0 s1 (fun _ => true) true true
    useKpiArg g t m) gi ti

/-- `multipliers_grid`, `meridian/analysis/optimizer.py:2810-2815`: NaN where the spend is NaN. -/
noncomputable def multiplierRow (hist : ℕ → ℝ) (row : ℕ → Option ℝ) (c : ℕ) : Option ℝ :=
  (row c).map fun s => divideNoNan s (hist c)

/-- One cell of a row of the incremental outcome grid, `meridian/analysis/optimizer.py:2710-2729`: NaN
if the multiplier of the channel is NaN.  `nan` stands for what a NaN multiplier of another channel puts
in the data of that channel; `grid_cell_own_multiplier` shows that it is not read. -/
noncomputable def gridCell (ctx : Ctx) (draws : List Params) (d : Data) (opt : Option (ℕ → ℝ))
    (gi ti : Option (List ℕ)) (useKpiArg : Bool) (nan : ℝ) (mults : ℕ → Option ℝ) (m : ℕ) : Option ℝ :=
  (mults m).map fun _ => mean draws
    (incDraw ctx (gridData ctx d opt fun c => (mults c).getD nan) gi ti useKpiArg 0 1 m)

/-- The values of a column that are not NaN. -/
noncomputable def valid (R : ℕ) (col : ℕ → Option ℝ) : List ℝ := (List.range R).filterMap col

/-- `np.nanmax` of a column. -/
noncomputable def nanmax (R : ℕ) (col : ℕ → Option ℝ) : Option ℝ :=
  match valid R col with
  | [] => none
  | x :: l => some (l.foldl max x)

/-- `np.sum(~np.isnan(col)) - 1` as an index, `-1` being the last row
(`meridian/backend/__init__.py:149`). -/
noncomputable def lastValid (R : ℕ) (col : ℕ → Option ℝ) : ℕ :=
  match (valid R col).length with
  | 0 => R - 1
  | k + 1 => k

open Classical in
/-- `np.divide(a, b, out=zeros, where=(b != 0))`. -/
noncomputable def divWhere : Option ℝ → Option ℝ → Option ℝ
  | a, some b => if b = 0 then some 0 else a.map (· / b)
  | _, none => none

/-- The ROI of a reach and frequency column, `meridian/backend/__init__.py:149-160` and 174-182. -/
noncomputable def columnRoi (b : Backend) (R : ℕ) (spend outcome : ℕ → Option ℝ) : Option ℝ :=
  match b with
  | .jax => divWhere (outcome (lastValid R spend)) (spend (lastValid R spend))
  | .tf => divWhere (nanmax R outcome) (nanmax R spend)

/-- A cell of the stabilised column, `meridian/backend/__init__.py:162` and 184. -/
noncomputable def timesSpend : Option ℝ → Option ℝ → Option ℝ
  | some r, some s => some (r * s)
  | _, _ => none

/-- The incremental outcome grid of `_create_grids` with `R` rows,
`meridian/analysis/optimizer.py:2809-2853`. -/
noncomputable def outcomeGrid (ctx : Ctx) (b : Backend) (draws : List Params) (d : Data)
    (opt : Option (ℕ → ℝ)) (gi ti : Option (List ℕ)) (useKpiArg : Bool) (nan : ℝ) (hist : ℕ → ℝ)
    (R : ℕ) (spendGrid : ℕ → ℕ → Option ℝ) (i m : ℕ) : Option ℝ :=
  if 0 < ctx.rf.n ∧ nPaid ctx - ctx.rf.n ≤ m then
    timesSpend (columnRoi b R (fun i => spendGrid i m) fun i =>
      gridCell ctx draws d opt gi ti useKpiArg nan (multiplierRow hist (spendGrid i)) m) (spendGrid i m)
  else gridCell ctx draws d opt gi ti useKpiArg nan (multiplierRow hist (spendGrid i)) m

/-! ### The reported data -/

/-- `_get_incremental_outcome_tensors`, `meridian/analysis/optimizer.py:2412-2448`. -/
noncomputable def resultData (ctx : Ctx) (d : Data) (opt : Option (ℕ → ℝ)) (hist spend : ℕ → ℝ) :
    Data :=
  let newImpressions : T3 := fun g t c =>
    divideNoNan (lastRf ctx spend c) (lastRf ctx hist c) * (d.reach g t c * d.frequency g t c)
  let frequency : T3 := match opt with
    | none => d.frequency
    | some f => fun _ _ c => f c
  let newReach : T3 := fun g t c => divideNoNan (newImpressions g t c) (frequency g t c)
  { d with
    media := fun g t c => divideNoNan (spend c) (hist c) * d.media g t c
    reach := newReach
    frequency := fun g t c => divideNoNan (newImpressions g t c) (newReach g t c) }

/-- A quotient of floats; `none` is NaN or infinity. -/
noncomputable def quot (a b : ℝ) : Option ℝ :=
  open Classical in if b = 0 then none else some (a / b)

/-- `np.mean` over draws (`get_central_tendency_and_ci`, `meridian/analysis/analyzer.py:68`) of quotients:
NaN or infinite if one of them is. -/
noncomputable def meanQuot (draws : List Params) (f : Params → Option ℝ) : Option ℝ :=
  if draws.any fun p => (f p).isNone then none else some (mean draws fun p => (f p).getD 0)

/-- The impressions of `get_aggregated_impressions` for paid channel `m`,
`meridian/analysis/analyzer.py:2776-2801`: the last `n_times` media periods. -/
noncomputable def impressions (ctx : Ctx) (D : Data) : T3 := fun g t m =>
  let u := D.nMediaTimes - ctx.nTimes + t
  if m < ctx.media.n then D.media g u m
  else D.reach g u (m - ctx.media.n) * D.frequency g u (m - ctx.media.n)

/-- `get_aggregated_impressions`, `meridian/analysis/analyzer.py:2728-2819`, for the paid channels of data
with the times of the model. -/
noncomputable def aggregatedImpressions (ctx : Ctx) (D : Data) (opt : Option (ℕ → ℝ))
    (gi ti : Option (List ℕ)) (m : ℕ) : ℝ :=
  total ctx (fun g t => impressions ctx (opt.elim D (atFrequency D)) g t m) gi ti

/-- The `mean` column and the attributes of a budget dataset. -/
structure Dataset where
  spend : List ℝ
  pctOfSpend : List ℝ
  outcome : List ℝ
  effectiveness : List (Option ℝ)
  roi : List (Option ℝ)
  mroi : List (Option ℝ)
  cpik : List (Option ℝ)
  budget : ℝ
  profit : ℝ
  totalOutcome : ℝ
  totalRoi : Option ℝ
  totalCpik : Option ℝ

open Classical in
/-- `_create_budget_dataset`, `meridian/analysis/optimizer.py:2450-2628`.  (`total_cpik` is a mean that
skips NaN; a total is NaN only for a budget of zero, and then in every draw.) -/
noncomputable def budgetDataset (ctx : Ctx) (draws : List Params) (d : Data) (opt : Option (ℕ → ℝ))
    (gi ti : Option (List ℕ)) (useKpiArg : Bool) (hist spend : ℕ → ℝ) : Dataset :=
  let channels := List.range (nPaid ctx)
  let D := resultData ctx d opt hist spend
  let inc : ℕ → Params → ℝ := incDraw ctx D gi ti useKpiArg 0 1
  let mroiNum : ℕ → Params → ℝ := incDraw ctx D gi ti useKpiArg 1 (1 + 1 / 100)
  let outcome := channels.map fun m => mean draws (inc m)
  let budget := (channels.map spend).sum
  let totalSpend := if 0 < budget then budget else 1
  { spend := channels.map spend
    pctOfSpend := channels.map fun m => spend m / totalSpend
    outcome := outcome
    effectiveness := channels.map fun m => meanQuot draws fun p =>
      quot (inc m p) (aggregatedImpressions ctx D opt gi ti m)
    roi := channels.map fun m => meanQuot draws fun p => quot (inc m p) (spend m)
    mroi := channels.map fun m => meanQuot draws fun p => quot (mroiNum m p) (spend m * (1 / 100))
    cpik := channels.map fun m => meanQuot draws fun p => quot (spend m) (inc m p)
    budget := budget
    profit := outcome.sum - budget
    totalOutcome := outcome.sum
    totalRoi := quot outcome.sum budget
    totalCpik := meanQuot draws fun p => quot budget (channels.map fun m => inc m p).sum }

open Classical in
/-- The test of `_raise_warning_if_target_constraints_not_met`, `meridian/analysis/optimizer.py:3209-3236`.
A target of zero is falsy.  A comparison with NaN is false; a missing channel mROI counts as minus
infinity (the total is zero when the budget is, and so is the numerator of a marginal ROI for a channel
without spend, so `none` is NaN here, not infinity). -/
noncomputable def warns (targetRoi targetMroi : Option ℝ) (ds : Dataset) : Bool :=
  if targetRoi.getD 0 ≠ 0 then
    match ds.totalRoi with
    | none => false
    | some r => decide (r < targetRoi.getD 0)
  else if targetMroi.getD 0 ≠ 0 then
    ds.mroi.any fun
      | none => true
      | some r => decide (r < targetMroi.getD 0)
  else false

end Verif.Results

import Verif.Model.GridSearch
import Mathlib.Data.Nat.Log
import Mathlib.Algebra.Order.Floor.Semiring

/-!
# Bounds, grids and the public `optimize` pipeline

`meridian/analysis/optimizer.py`: `get_round_factor`, `get_optimization_bounds`,
`_validate_pct_of_spend`, `_validate_spend_constraints`, `_get_spend_bounds`, `_validate_budget`,
`_create_grids` (the spend part), `OptimizationGrid.check_optimization_bounds`, `trim_grids` and
`optimize`.
-/

namespace Verif.Optimizer

open Verif Verif.GridSearch

/-- The errors the modelled functions raise. -/
inductive Err where
  | gtolTooLarge
  | budgetNotPositive
  | pctLength
  | pctSum
  | constraintLength
  | constraintLowerRange
  | constraintUpperNegative
  | notCovered
  | emptyColumn
  | shapeMismatch
  | nanSpend
  | search
  | targetRoiWithFixedBudget
  | targetMroiWithFixedBudget
  | budgetWithFlexible
  | noTarget
  | bothTargets
deriving DecidableEq

/-- `get_round_factor(budget, gtol)`, `meridian/analysis/optimizer.py:3023-3044`.
`int(math.log10(tolerance))` for `tolerance >= 1` is the number of digits of its integer part minus
one (`math.log10` taken as exact). -/
def getRoundFactor (budget gtol : ℚ) : Except Err ℤ :=
  let tolerance := budget * gtol
  if 1 ≤ gtol then .error .gtolTooLarge
  else if budget ≤ 0 then .error .budgetNotPositive
  else if tolerance < 1 then .ok 0
  else .ok (-(Nat.log 10 ⌊tolerance⌋₊ : ℤ) - 1)

/-- `step_size = 10 ** (-round_factor)`, `meridian/analysis/optimizer.py:2294` (round factors are
never positive). -/
def stepSize (roundFactor : ℤ) : ℤ := 10 ^ (-roundFactor).toNat

/-- `_validate_pct_of_spend`, `meridian/analysis/optimizer.py:3047-3060`, including the formula of
`math.isclose` with its default `rel_tol=1e-9`.  `hist_spend / 0` is NaN in numpy; the model
reports `nanSpend`. -/
def validatePctOfSpend (n : ℕ) (hist : ℕ → ℚ) (pct : Option (List ℚ)) : Except Err (ℕ → ℚ) :=
  match pct with
  | some p =>
    if p.length ≠ n then .error .pctLength
    else if ¬ |p.sum - 1| ≤ max (1 / 10 ^ 9 * max |p.sum| 1) (1 / 1000) then .error .pctSum
    else .ok fun c => p.getD c 0
  | none =>
    let s := ((List.range n).map hist).sum
    if s = 0 then .error .nanSpend else .ok fun c => hist c / s

/-- `_validate_spend_constraints`, `meridian/analysis/optimizer.py:3063-3097`.  A scalar constraint
is the one-element list (`get_const_array`, lines 3070-3075). -/
def validateSpendConstraints (n : ℕ) (lower upper : List ℚ) : Except Err Unit :=
  if ¬ (lower.length = 1 ∨ lower.length = n) ∨ ¬ (upper.length = 1 ∨ upper.length = n) then
    .error .constraintLength
  else if ¬ ∀ c ∈ lower, 0 ≤ c ∧ c ≤ 1 then .error .constraintLowerRange
  else if ∃ c ∈ upper, c < 0 then .error .constraintUpperNegative
  else .ok ()

/-- Entry of channel `c` of a constraint array after numpy broadcasting of a one-element array
against `n` channels (`spend_bounds[0] * rounded_spend`, `meridian/analysis/optimizer.py:3018`). -/
def constraintAt (l : List ℚ) (c : ℕ) : ℚ := if l.length = 1 then l.getD 0 0 else l.getD c 0

/-- `rounded_spend`, `meridian/analysis/optimizer.py:3017` and `262`. -/
def roundedSpend (spend : ℕ → ℚ) (rf : ℤ) (c : ℕ) : ℤ := truncInt (npRound (spend c) rf)

/-- `get_optimization_bounds` with `_get_spend_bounds` inlined,
`meridian/analysis/optimizer.py:2982-3020, 3100-3132`. -/
def getOptimizationBounds (n : ℕ) (spend : ℕ → ℚ) (rf : ℤ) (lower upper : List ℚ) :
    Except Err ((ℕ → ℤ) × (ℕ → ℤ)) := do
  validateSpendConstraints n lower upper
  let rounded := roundedSpend spend rf
  return (fun c => truncInt (npRound (max (1 - constraintAt lower c) 0 * rounded c) rf),
          fun c => truncInt (npRound ((1 + constraintAt upper c) * rounded c) rf))

/-- `_validate_budget`, `meridian/analysis/optimizer.py:3135-3165`. -/
def validateBudget (fixedBudget : Bool) (budget targetRoi targetMroi : Option ℚ) :
    Except Err Unit :=
  if fixedBudget then
    if targetRoi.isSome then .error .targetRoiWithFixedBudget
    else if targetMroi.isSome then .error .targetMroiWithFixedBudget
    else match budget with
      | some b => if b ≤ 0 then .error .budgetNotPositive else .ok ()
      | none => .ok ()
  else
    if budget.isSome then .error .budgetWithFlexible
    else if targetRoi.isNone && targetMroi.isNone then .error .noTarget
    else if targetRoi.isSome && targetMroi.isSome then .error .bothTargets
    else .ok ()

/-- Length of `np.arange(lo, hi + step, step)`: `ceil((hi + step - lo) / step)`, at least 0.
Models `meridian/analysis/optimizer.py:2803-2807`. -/
def arangeLen (lo hi step : ℤ) : ℕ := (-((-(hi + step - lo)) / step)).toNat

/-- `int(np.max(upper - lower) // step_size + 1)`, `meridian/analysis/optimizer.py:2796-2799`.
For no channel `np.max` raises; the model gives 0 rows. -/
def gridRows (n : ℕ) (lo hi : ℕ → ℤ) (step : ℤ) : ℕ :=
  match ((List.range n).map fun c => hi c - lo c).max? with
  | none => 0
  | some m => (m / step + 1).toNat

/-- The spend grid of `_create_grids`, `meridian/analysis/optimizer.py:2795-2808`: column `c` holds
`np.arange(lo, hi + step, step)` on top and NaN below.  Assigning a column longer than the grid
raises. -/
def createSpendGrid (n : ℕ) (lo hi : ℕ → ℤ) (step : ℤ) : Except Err (ℕ × (ℕ → ℕ → Num)) :=
  let rows := gridRows n lo hi step
  if ∃ c < n, rows < arangeLen (lo c) (hi c) step then .error .shapeMismatch
  else .ok (rows, fun r c =>
    if r < arangeLen (lo c) (hi c) step then some ((lo c + r * step : ℤ) : ℚ) else none)

/-- An `OptimizationGrid`: the grids and the fields `optimize` reads.
Models `meridian/analysis/optimizer.py:98-142`. -/
structure OptGrid where
  grid : Grid
  hist : ℕ → ℚ
  gtol : ℚ
  roundFactor : ℤ

/-- NaN-skipping column minimum / maximum (xarray's `min`/`max`), `none` for an all-NaN column.
Models `meridian/analysis/optimizer.py:354-355`. -/
def colMin (G : Grid) (c : ℕ) : Option ℚ := ((List.range G.rows).filterMap (G.spend · c)).min?
@[inherit_doc colMin]
def colMax (G : Grid) (c : ℕ) : Option ℚ := ((List.range G.rows).filterMap (G.spend · c)).max?

/-- `check_optimization_bounds`, `meridian/analysis/optimizer.py:338-376`: every lower bound at
least the column minimum and every upper bound at most the column maximum (comparison with NaN is
false, so an all-NaN column raises nothing here). -/
def boundsCovered (G : Grid) (lo hi : ℕ → ℤ) : Bool :=
  (List.range G.cols).all fun c =>
    (match colMin G c with | some m => !decide ((lo c : ℚ) < m) | none => true) &&
    (match colMax G c with | some m => !decide (m < (hi c : ℚ)) | none => true)

/-- `valid_indices` of one column, `meridian/analysis/optimizer.py:309-312`. -/
def validIndices (G : Grid) (lo hi : ℕ → ℤ) (c : ℕ) : List ℕ :=
  (List.range G.rows).filter fun r =>
    match G.spend r c with
    | some s => decide ((lo c : ℚ) ≤ s ∧ s ≤ (hi c : ℚ))
    | none => false

/-- One trimmed column: roll up by the first valid index, NaN from `last - first + 1` on.
Models `meridian/analysis/optimizer.py:313-328`. -/
def trimColumn (rows : ℕ) (valid : List ℕ) (col : ℕ → Num) (r : ℕ) : Num :=
  match valid.head?, valid.getLast? with
  | some f, some l => if l - f + 1 ≤ r then none else col ((r + f) % rows)
  | _, _ => none

/-- Rows that are not entirely NaN (`dropna(how='all')`), `meridian/analysis/optimizer.py:331-334`. -/
def keptRows (rows cols : ℕ) (cell : ℕ → ℕ → Num) : List ℕ :=
  (List.range rows).filter fun r => (List.range cols).any fun c => (cell r c).isSome

/-- `trim_grids`, `meridian/analysis/optimizer.py:281-336`.  An empty `valid_indices` raises
`IndexError` (line 313).  Rows are dropped separately from the two grids; if the row counts then
differ the later broadcast is undefined, which the model reports as `shapeMismatch`. -/
def trimGrids (G : Grid) (lo hi : ℕ → ℤ) : Except Err Grid :=
  if ¬ boundsCovered G lo hi then .error .notCovered
  else if ∃ c < G.cols, validIndices G lo hi c = [] then .error .emptyColumn
  else
    let sp := fun r c => trimColumn G.rows (validIndices G lo hi c) (G.spend · c) r
    let ou := fun r c => trimColumn G.rows (validIndices G lo hi c) (G.out · c) r
    let ks := keptRows G.rows G.cols sp
    let ko := keptRows G.rows G.cols ou
    if ks.length ≠ ko.length then .error .shapeMismatch
    else .ok {
      rows := ks.length
      cols := G.cols
      spend := fun r c => match ks[r]? with | some i => sp i c | none => none
      out := fun r c => match ko[r]? with | some i => ou i c | none => none }

/-- The scenario argument of `OptimizationGrid.optimize`,
`meridian/analysis/optimizer.py:58-94`. -/
inductive Request where
  | fixed (totalBudget : Option ℚ)
  | roi (target : ℚ)
  | mroi (target : ℚ)

/-- `total_budget or np.sum(historical_spend)`: `None` and `0` both mean the historical total.
Models `meridian/analysis/optimizer.py:219-224` (`OptimizationGrid.optimize`) and `2256`
(`create_optimization_grid`). -/
def resolveBudget (total : Option ℚ) (histTotal : ℚ) : ℚ :=
  match total with
  | some b => if b = 0 then histTotal else b
  | none => histTotal

/-- The budget in the request, if any. -/
def Request.budget : Request → Option ℚ
  | .fixed b => b
  | _ => none

/-- Default spend constraint: 0.3 for a fixed budget, 1 for a flexible one.
Models `meridian/analysis/optimizer.py:231-239` and
`meridian/constants.py` (`SPEND_CONSTRAINT_DEFAULT_*`). -/
def Request.defaultConstraint : Request → ℚ
  | .fixed _ => 3 / 10
  | _ => 1

/-- Total of the historical spend. -/
def histTotal (n : ℕ) (hist : ℕ → ℚ) : ℚ := ((List.range n).map hist).sum

/-- The scenario passed to the search; a fixed budget is replaced by the total of the rounded
channel spends.  Models `meridian/analysis/optimizer.py:263-266`. -/
def resolveScenario (n : ℕ) (rounded : ℕ → ℤ) : Request → Scenario
  | .fixed _ => .fixedBudget (((List.range n).map rounded).sum : ℤ)
  | .roi t => .targetRoi t
  | .mroi t => .targetMroi t

/-- `OptimizationGrid.optimize`, `meridian/analysis/optimizer.py:176-279`.  Returns the `optimized`
and `non_optimized` arrays.  (The warning about a different round factor has no effect on the
result; `get_round_factor` may still raise.) -/
def optimize (O : OptGrid) (req : Request) (pct : Option (List ℚ))
    (lower upper : Option (List ℚ)) : Except Err (List (Option ℤ) × List ℤ) := do
  let n := O.grid.cols
  let budget := resolveBudget req.budget (histTotal n O.hist)
  let share ← validatePctOfSpend n O.hist pct
  let spend := fun c => budget * share c
  let (lo, hi) ← getOptimizationBounds n spend O.roundFactor
    (lower.getD [req.defaultConstraint]) (upper.getD [req.defaultConstraint])
  let _ ← getRoundFactor budget O.gtol
  let G ← trimGrids O.grid lo hi
  let rounded := roundedSpend spend O.roundFactor
  match gridSearch G (resolveScenario n rounded req) with
  | .error _ => .error .search
  | .ok xs => return (xs, (List.range n).map rounded)

/-- `create_optimization_grid`, `meridian/analysis/optimizer.py:2221-2328`, with the incremental
outcome of each finite cell given by an arbitrary function `outcome` (the analyzer's posterior or
prior mean; NaN where the spend is NaN, lines 2809-2838).  The data dependent parts
(`new_data`, geos, times, optimal frequency) only enter through `hist` and `outcome`. -/
def createOptimizationGrid (n : ℕ) (hist : ℕ → ℚ) (outcome : ℕ → ℕ → ℚ) (budget : Option ℚ)
    (gtol : ℚ) (pct : Option (List ℚ)) (lower upper : List ℚ) : Except Err OptGrid := do
  let b := resolveBudget budget (histTotal n hist)
  let share ← validatePctOfSpend n hist pct
  let spend := fun c => b * share c
  let rf ← getRoundFactor b gtol
  let (lo, hi) ← getOptimizationBounds n spend rf lower upper
  let (rows, cells) ← createSpendGrid n lo hi (stepSize rf)
  return {
    grid := {
      rows := rows
      cols := n
      spend := cells
      out := fun r c => (cells r c).map fun _ => outcome r c }
    hist := hist
    gtol := gtol
    roundFactor := rf }

/-- The scenario chosen by `BudgetOptimizer.optimize`, `meridian/analysis/optimizer.py:1708-1717`.
`target_roi` is tested for truthiness (line 1712), so `target_roi = 0` falls through to the mROI
branch, whose target is then `None` and raises in `FlexibleBudgetScenario`; reported as `noTarget`. -/
def chooseRequest (fixedBudget : Bool) (budget targetRoi targetMroi : Option ℚ) :
    Except Err Request :=
  let mroi : Except Err Request := match targetMroi with
    | some t => .ok (.mroi t)
    | none => .error .noTarget
  if fixedBudget then .ok (.fixed budget)
  else match targetRoi with
    | some t => if t = 0 then mroi else .ok (.roi t)
    | none => mroi

/-- `BudgetOptimizer.optimize` without a user supplied grid,
`meridian/analysis/optimizer.py:1659-1723`: validate, create the grid, optimise on it with the same
arguments. -/
def budgetOptimize (n : ℕ) (hist : ℕ → ℚ) (outcome : ℕ → ℕ → ℚ) (fixedBudget : Bool)
    (budget targetRoi targetMroi : Option ℚ) (gtol : ℚ) (pct : Option (List ℚ))
    (lower upper : Option (List ℚ)) : Except Err (List (Option ℤ) × List ℤ) := do
  validateBudget fixedBudget budget targetRoi targetMroi
  let dflt : ℚ := if fixedBudget then 3 / 10 else 1
  let O ← createOptimizationGrid n hist outcome budget gtol pct
    (lower.getD [dflt]) (upper.getD [dflt])
  let req ← chooseRequest fixedBudget budget targetRoi targetMroi
  optimize O req pct (some (lower.getD [dflt])) (some (upper.getD [dflt]))

end Verif.Optimizer

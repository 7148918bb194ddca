import Verif.Model.Optimizer
import Verif.Model.ResultCharts
import Mathlib.Data.Int.Log

/-!
# What the report of a budget optimization says about its scenario

The percentages are computed in the floating point numbers of the machine, so the model rounds after every
operation.  Dates are day numbers; how they are printed is left out.
-/

namespace Verif.ScenarioText

open Verif Verif.Optimizer

/-- A result of 64-bit floating point arithmetic: the nearest number with 53 significant binary digits, ties to the
even one.  Overflow and the denormal numbers are left out: constraints are at most a few orders of magnitude away
from 1. -/
def rnd (x : ℚ) : ℚ :=
  if x = 0 then 0
  else (rint (x / (2 : ℚ) ^ (Int.log 2 |x| - 52)) : ℚ) * (2 : ℚ) ^ (Int.log 2 |x| - 52)

/-- `np.maximum(1 - spend_const_lower, 0)`, `meridian/analysis/optimizer.py:3129`, for one constraint. -/
def lowerBound (c : ℚ) : ℚ := max (rnd (1 - c)) 0

/-- `1 + spend_const_upper`, `meridian/analysis/optimizer.py:3130`, for one constraint. -/
def upperBound (c : ℚ) : ℚ := rnd (1 + c)

/-- `int((1 - lbounds[0]) * 100)`, `meridian/analysis/optimizer.py:1220`. -/
def lowerPercent (bound : ℚ) : ℤ := truncInt (rnd (rnd (1 - bound) * 100))

/-- `int((ubounds[0] - 1) * 100)`, `meridian/analysis/optimizer.py:1221`. -/
def upperPercent (bound : ℚ) : ℤ := truncInt (rnd (rnd (bound - 1) * 100))

/-- `np.isclose(budget, total)` with its default tolerances, `meridian/analysis/optimizer.py:1725-1727`. -/
def isClose (a b : ℚ) : Bool := decide (|a - b| ≤ 1 / 10 ^ 8 + 1 / 10 ^ 5 * |b|)

/-- `use_historical_budget`, `meridian/analysis/optimizer.py:1725-1727`. -/
def useHistorical (budget : Option ℚ) (total : ℚ) : Bool :=
  match budget with
  | none => true
  | some b => isClose b total

/-- The statements of the report. -/
structure Statement where
  /-- "fixed" or "Flexible" budget scenario. -/
  fixed : Bool
  /-- "a channel-level spend constraint of -a% to +b%"; `none`: "based on channel-level spend constraints". -/
  limits : Option (ℤ × ℤ)
  /-- "The non-optimized spend for each channel is equal to the historical spend"; otherwise "equals the total budget
  allocated based on the proportion of historical spend for each channel". -/
  historical : Bool
  /-- "during the period from … to …". -/
  period : ℤ × ℤ
  /-- The period at the head of the page. -/
  header : ℤ × ℤ
deriving DecidableEq

/-- `_create_scenario_plan_section` and `_gen_optimization_summary`, `meridian/analysis/optimizer.py:1171-1247`.
`lower` and `upper` are the constraints as `optimize` keeps them (lines 1795-1799), a single one as a list of one;
`start` and `stop` are the first and the last time period of the optimization. -/
def describe (fixedBudget : Bool) (budget : Option ℚ) (total : ℚ) (lower upper : List ℚ) (start stop interval : ℤ) :
    Statement where
  fixed := fixedBudget
  limits :=
    if 1 < lower.length ∨ 1 < upper.length then none
    else some (lowerPercent (lowerBound (lower.headD 0)), upperPercent (upperBound (upper.headD 0)))
  historical := useHistorical budget total
  period := (start, stop)
  header := (start, stop + interval)

/-- The constraints that `optimize` keeps, `meridian/analysis/optimizer.py:1665-1673`: those of the request, and 0.3
for a fixed and 1 for a flexible budget if none is given.  0.3 is the nearest machine number. -/
def keptConstraint (fixedBudget : Bool) (given : Option (List ℚ)) : List ℚ :=
  given.getD [if fixedBudget then rnd (3 / 10) else 1]

/-- The channels of the response curves in the report, `meridian/analysis/optimizer.py:1413-1419`. -/
def reportChannels (spend : List (String × ℚ)) : Option (List String) :=
  ResultCharts.chosenChannels spend (some ((min spend.length 6 : ℕ) : ℤ))

end Verif.ScenarioText

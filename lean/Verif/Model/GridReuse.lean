import Verif.Model.Optimizer
import Mathlib.Data.List.Sort

/-!
# Reusing an optimisation grid

`BudgetOptimizer._validate_grid`, and the parts of `BudgetOptimizer.create_optimization_grid` and
`BudgetOptimizer.optimize` that decide which grid is used (`meridian/analysis/optimizer.py`).

Dates are day numbers (`tc.normalize_date` is modelled in `Verif.Model.TimeCoordinates`).
-/

namespace Verif.GridReuse

open Verif.Optimizer

/-- Errors: those of the optimiser, and an empty selection of geos. -/
inductive Err where
  | emptyGeos
  | opt (e : Optimizer.Err)
deriving DecidableEq

/-- Carry over an error. -/
def lift {α : Type} : Except Optimizer.Err α → Except Err α
  | .ok a => .ok a
  | .error e => .error (.opt e)

/-- The settings an `OptimizationGrid` remembers, `meridian/analysis/optimizer.py:98-142`, and which
`optimize` is also given, `meridian/analysis/optimizer.py:1473-1499`. -/
structure Settings where
  usePosterior : Bool
  useKpi : Bool
  useOptimalFrequency : Bool
  maxFrequency : Option ℚ
  startDate : Option ℤ
  endDate : Option ℤ
  selectedGeos : Option (List String)
deriving DecidableEq

/-- The model with its data or with the `new_data` of a call: the paid channels, the first and last
date, the spend by channel aggregated over geos and dates (`Analyzer.get_aggregated_spend`), and the
incremental outcome of a grid cell. -/
structure World where
  channels : List String
  firstDate : ℤ
  lastDate : ℤ
  hist : (geos : Option (List String)) → (startDate endDate : Option ℤ) → ℕ → ℚ
  outcome : Settings → ℕ → ℕ → ℚ

/-- An `OptimizationGrid`. -/
structure SavedGrid where
  settings : Settings
  channels : List String
  opt : OptGrid

/-- The arguments of `BudgetOptimizer.optimize`. -/
structure Ask where
  settings : Settings
  fixedBudget : Bool
  budget : Option ℚ
  targetRoi : Option ℚ
  targetMroi : Option ℚ
  pct : Option (List ℚ)
  lower : Option (List ℚ)
  upper : Option (List ℚ)
  gtol : ℚ

/-- `spend_constraint_default` and its use, `meridian/analysis/optimizer.py:1665-1673`. -/
def Ask.constraint (a : Ask) (l : Option (List ℚ)) : List ℚ :=
  l.getD [if a.fixedBudget then 3 / 10 else 1]

/-- `sorted(selected_geos or [])`, `meridian/analysis/optimizer.py:2055-2056`. -/
def geosKey (o : Option (List String)) : List String := (o.getD []).insertionSort (· ≤ ·)

/-- The comparison of settings in `_validate_grid`, `meridian/analysis/optimizer.py:1969-2064`. -/
def sameSettings (w : World) (a : Settings) (g : SavedGrid) : Bool :=
  a.usePosterior == g.settings.usePosterior && a.useKpi == g.settings.useKpi &&
  a.useOptimalFrequency == g.settings.useOptimalFrequency &&
  a.maxFrequency == g.settings.maxFrequency &&
  a.startDate.getD w.firstDate == g.settings.startDate.getD w.firstDate &&
  a.endDate.getD w.lastDate == g.settings.endDate.getD w.lastDate &&
  w.channels == g.channels && geosKey a.selectedGeos == geosKey g.settings.selectedGeos

/-- `_validate_grid`, `meridian/analysis/optimizer.py:1950-2117`.  The spend is aggregated over all
geos (lines 2071-2076 do not pass `selected_geos`); a different round factor only causes a warning
(lines 2107-2115). -/
def validateGrid (w : World) (a : Ask) (g : SavedGrid) : Except Optimizer.Err Bool :=
  if sameSettings w a.settings g then do
    let n := g.channels.length
    let hist := w.hist none a.settings.startDate a.settings.endDate
    let b := resolveBudget a.budget (histTotal n hist)
    let share ← validatePctOfSpend n hist a.pct
    let (lo, hi) ← getOptimizationBounds n (fun c => b * share c) g.opt.roundFactor
      (a.constraint a.lower) (a.constraint a.upper)
    if boundsCovered g.opt.grid lo hi then do
      let _ ← getRoundFactor b a.gtol
      return true
    else return false
  else .ok false

/-- `create_optimization_grid` called by `optimize`, `meridian/analysis/optimizer.py:1691-1706,
2217-2328`: here the spend is aggregated over the selected geos, and an empty selection is refused. -/
def createGrid (w : World) (a : Ask) : Except Err SavedGrid :=
  if a.settings.selectedGeos = some [] then .error .emptyGeos
  else do
    let O ← lift (createOptimizationGrid w.channels.length
      (w.hist a.settings.selectedGeos a.settings.startDate a.settings.endDate)
      (w.outcome a.settings) a.budget a.gtol a.pct (a.constraint a.lower) (a.constraint a.upper))
    return { settings := a.settings, channels := w.channels, opt := O }

/-- The grid that is used, `meridian/analysis/optimizer.py:1674-1706`. -/
def chooseGrid (w : World) (a : Ask) : Option SavedGrid → Except Err SavedGrid
  | none => createGrid w a
  | some g => do
    let ok ← lift (validateGrid w a g)
    if ok then return g else createGrid w a

/-- `BudgetOptimizer.optimize` up to the search, `meridian/analysis/optimizer.py:1648-1723`. -/
def optimizeFull (w : World) (a : Ask) (g : Option SavedGrid) :
    Except Err (List (Option ℤ) × List ℤ) := do
  lift (validateBudget a.fixedBudget a.budget a.targetRoi a.targetMroi)
  let G ← chooseGrid w a g
  let req ← lift (chooseRequest a.fixedBudget a.budget a.targetRoi a.targetMroi)
  lift (optimize G.opt req a.pct (some (a.constraint a.lower)) (some (a.constraint a.upper)))

end Verif.GridReuse

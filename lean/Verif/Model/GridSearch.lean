import Verif.Model.Num

/-!
# `OptimizationGrid._grid_search`

Greedy budget search, `meridian/analysis/optimizer.py:378-463`, and
`_exceeds_optimization_constraints`, `meridian/analysis/optimizer.py:3168-3206`.
-/

namespace Verif.GridSearch

open Verif

/-- The two grids handed to the search: `rows x cols` cells of spend and of incremental outcome.
Cell `(r, c)` is only meaningful for `r < rows`, `c < cols`.
Models the `spend_grid`, `incremental_outcome_grid` arguments,
`meridian/analysis/optimizer.py:378-383`. -/
structure Grid where
  rows : ℕ
  cols : ℕ
  spend : ℕ → ℕ → Num
  out : ℕ → ℕ → Num

/-- The optimisation scenarios.
Models `FixedBudgetScenario` (with its budget resolved, as at
`meridian/analysis/optimizer.py:263-266`) and `FlexibleBudgetScenario`
(`meridian/analysis/optimizer.py:48-94`). -/
inductive Scenario where
  | fixedBudget (total : ℚ)
  | targetRoi (value : ℚ)
  | targetMroi (value : ℚ)

/-- `np.sum` of a vector with possible NaN (NaN if any entry is). -/
def nsum (n : ℕ) (v : ℕ → Num) : Num :=
  (List.range n).foldl (fun acc c => Num.add acc (v c)) (some 0)

/-- Models `_exceeds_optimization_constraints`, `meridian/analysis/optimizer.py:3168-3206`. -/
def exceeds (cols : ℕ) (spend out : ℕ → Num) (roiPoint : ℚ) : Scenario → Bool
  | .fixedBudget total => Num.lt (some total) (nsum cols spend)
  | .targetRoi target =>
      let cur := Num.div (nsum cols out) (nsum cols spend)
      Num.lt cur (some target) && Num.lt (some roiPoint) cur
  | .targetMroi target => decide (roiPoint < target)

/-- All cells in row-major order: the order in which `np.nanargmax` on the flattened array scans
(`meridian/analysis/optimizer.py:426-428`). -/
def cells (rows cols : ℕ) : List (ℕ × ℕ) :=
  (List.range rows).flatMap fun r => (List.range cols).map fun c => (r, c)

/-- One step of a first-maximum scan that skips NaN. -/
def scan (g : ℕ → ℕ → Num) (acc : Option ((ℕ × ℕ) × ℚ)) (p : ℕ × ℕ) : Option ((ℕ × ℕ) × ℚ) :=
  match g p.1 p.2, acc with
  | none, acc => acc
  | some v, none => some (p, v)
  | some v, some (q, w) => if w < v then some (p, v) else some (q, w)

/-- `np.unravel_index(np.nanargmax(g), g.shape)` with the value there; `none` iff every cell is
NaN, which is the test made first at `meridian/analysis/optimizer.py:424`.
Models `meridian/analysis/optimizer.py:424-430, 435`. -/
def nanargmax (rows cols : ℕ) (g : ℕ → ℕ → Num) : Option ((ℕ × ℕ) × ℚ) :=
  (cells rows cols).foldl (scan g) none

/-- The loop variables `spend`, `incremental_outcome`, `iterative_roi_grid`.
`roi r c` is row `r` of the grid *without* its first row (`meridian/analysis/optimizer.py:407-408`),
i.e. it belongs to grid row `r + 1`. -/
structure State where
  spend : ℕ → Num
  out : ℕ → Num
  roi : ℕ → ℕ → Num

/-- `np.round(np.divide(..., where=den != 0), decimals=8)` for one cell.
Models `meridian/analysis/optimizer.py:410-418` and `446-462`. -/
def roiCell (num den : Num) : Num := (Num.divWhere num den).map (npRound · 8)

/-- Loop initialisation, `meridian/analysis/optimizer.py:405-418`. -/
def initState (G : Grid) : State where
  spend := G.spend 0
  out := G.out 0
  roi := fun r c =>
    roiCell (Num.sub (G.out (r + 1) c) (G.out 0 c)) (Num.sub (G.spend (r + 1) c) (G.spend 0 c))

/-- Assign one entry of a vector (`spend[media_idx] = ...`,
`meridian/analysis/optimizer.py:431-434`). -/
def setAt (v : ℕ → Num) (m : ℕ) (x : Num) : ℕ → Num := fun c => if c = m then x else v c

/-- The roi grid after buying cell `(row, m)`: rows `0..row` of column `m` become NaN, the later
rows of that column are recomputed relative to the bought row.
Models `meridian/analysis/optimizer.py:444-462`. -/
def updateRoi (G : Grid) (roi : ℕ → ℕ → Num) (row m : ℕ) : ℕ → ℕ → Num := fun r c =>
  if c = m then
    if r ≤ row then none
    else
      roiCell (Num.sub (G.out (r + 1) m) (G.out (row + 1) m))
        (Num.sub (G.spend (r + 1) m) (G.spend (row + 1) m))
  else roi r c

/-- One iteration of `while True`, `meridian/analysis/optimizer.py:420-462`.
`none` means `break`. -/
def step (G : Grid) (sc : Scenario) (st : State) : Option State :=
  match nanargmax (G.rows - 1) G.cols st.roi with
  | none => none
  | some ((row, m), v) =>
    let spend' := setAt st.spend m (G.spend (row + 1) m)
    let out' := setAt st.out m (G.out (row + 1) m)
    if exceeds G.cols spend' out' v sc then none
    else some { spend := spend', out := out', roi := updateRoi G st.roi row m }

/-- The `while True` loop with an iteration budget; `none` means the budget ran out (shown never
to happen in `Props/GridSearch.lean`).  The returned state is the one whose `spend` was last
stored in `spend_optimal` (`meridian/analysis/optimizer.py:421`): on `break` after a rejected
purchase the old spend is returned. -/
def loop (G : Grid) (sc : Scenario) : ℕ → State → Option State
  | 0, _ => none
  | fuel + 1, st =>
    match step G sc st with
    | none => some st
    | some st' => loop G sc fuel st'

/-- What can go wrong: `spend_grid_values[0, :]` on an empty grid raises `IndexError`
(`meridian/analysis/optimizer.py:405`). -/
inductive Err where
  | indexError
  | outOfFuel
deriving DecidableEq

/-- The state in which `_grid_search` stops. -/
def finalState (G : Grid) (sc : Scenario) : Except Err State :=
  if G.rows = 0 then .error .indexError
  else
    match loop G sc ((G.rows - 1) * G.cols + 1) (initState G) with
    | none => .error .outOfFuel
    | some st => .ok st

/-- `_grid_search`: the list of optimal spends, one per channel, truncated to integers
(`spend.astype(int)`, `meridian/analysis/optimizer.py:421, 463`).  `none` for a NaN spend, whose
cast to int is unspecified. -/
def gridSearch (G : Grid) (sc : Scenario) : Except Err (List (Option ℤ)) :=
  (finalState G sc).map fun st => (List.range G.cols).map fun c => (st.spend c).map truncInt

end Verif.GridSearch

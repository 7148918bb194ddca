import Mathlib.Data.Int.Log
import Mathlib.Data.List.Sort
import Verif.Model.TimeCoordinates
import Verif.Model.Formatter

/-!
# Tables and charts of a budget optimization

`OptimizationResults` of `meridian/analysis/optimizer.py`: the rows behind its charts and tables.
Arithmetic is exact.  The Vega transformations of the charts are modelled from the Vega documentation
(a window sum without sorting is the running sum of the rows).  pandas does not promise an order for
equal sort keys; the model keeps the order of the channels.
-/

namespace Verif.ResultCharts

open Verif Verif.Calendar

/-- A row of a table: channel and value. -/
abbrev Row := String × ℚ

/-- The rows of `optimized - nonoptimized`, `meridian/analysis/optimizer.py:1151-1154`: one row for each
channel, in the order of the channels; a difference may be NaN. -/
def deltas (opt non : List (String × Num)) : List (String × Num) :=
  List.zipWith (fun a b => (a.1, Num.sub a.2 b.2)) opt non

/-- `df[df[metric] < 0]`, `meridian/analysis/optimizer.py:1156`: rows with NaN do not satisfy the
condition. -/
def negRows (rows : List (String × Num)) : List Row :=
  rows.filterMap fun r => r.2.bind fun x => if x < 0 then some (r.1, x) else none

/-- `df[df[metric] >= 0]`, `meridian/analysis/optimizer.py:1157`. -/
def posRows (rows : List (String × Num)) : List Row :=
  rows.filterMap fun r => r.2.bind fun x => if 0 ≤ x then some (r.1, x) else none

/-- `sort_values([metric])`. -/
def sortUp (rows : List Row) : List Row := rows.insertionSort fun a b => a.2 ≤ b.2

/-- `sort_values([metric], ascending=False)`. -/
def sortDown (rows : List Row) : List Row := rows.insertionSort fun a b => b.2 ≤ a.2

/-- `_get_delta_data`, `meridian/analysis/optimizer.py:1149-1158`. -/
def deltaData (opt non : List (String × Num)) : List Row :=
  sortUp (negRows (deltas opt non)) ++ sortDown (posRows (deltas opt non))

/-- The labels of the two bars for totals, `meridian/constants.py:731-732`. -/
def nonOptimized : String := "non_optimized"
@[inherit_doc nonOptimized] def optimized : String := "optimized"

/-- `_transform_outcome_delta_data`, `meridian/analysis/optimizer.py:1160-1169`. -/
def waterfallRows (total : ℚ) (opt non : List (String × Num)) : List Row :=
  (nonOptimized, total) :: (deltaData opt non ++ [(optimized, 0)])

/-- A bar of the waterfall chart: `prev_sum`, `sum_outcome` and the number written at it. -/
structure Bar where
  channel : String
  start : ℚ
  stop : ℚ
  label : ℚ
deriving DecidableEq

/-- The bar of a row whose running sum is `sum`, `meridian/analysis/optimizer.py:649-657`. -/
def bar (r : Row) (sum : ℚ) : Bar :=
  { channel := r.1
    start := if r.1 = optimized then 0 else sum - r.2
    stop := sum
    label := if r.1 = optimized then sum else r.2 }

/-- The bars, with the running sum of the rows, `meridian/analysis/optimizer.py:640-662`. -/
def barsFrom (acc : ℚ) : List Row → List Bar
  | [] => []
  | r :: rows => bar r (acc + r.2) :: barsFrom (acc + r.2) rows

/-- The bars of `plot_incremental_outcome_delta`. -/
def bars (total : ℚ) (opt non : List (String × Num)) : List Bar :=
  barsFrom 0 (waterfallRows total opt non)

/-- `sum_decr`, `meridian/analysis/optimizer.py:683` (the row of the non-optimized total belongs to the
table as well). -/
def sumDecr (rows : List Row) : ℚ := ((rows.filter fun r => decide (r.2 < 0)).map (·.2)).sum

/-- `y_padding`, `meridian/analysis/optimizer.py:684`. -/
def padding (decr : ℚ) : ℚ := if decr < 0 then (10 : ℚ) ^ Formatter.intLog10 (-decr) else 2

/-- `domain_scale`, `meridian/analysis/optimizer.py:685-688`. -/
def domain (totalNon totalOpt : ℚ) (rows : List Row) : ℚ × ℚ :=
  (totalNon + sumDecr rows - padding (sumDecr rows), totalOpt + padding (sumDecr rows))

/-- `_get_top_channels_by_spend`, `meridian/analysis/optimizer.py:1002-1016`.  `none` is the error. -/
def topChannels (spend : List Row) (n : ℤ) : Option (List String) :=
  if n > spend.length then none
  else some (pySlice ((sortDown spend).map (·.1)) n)
where
  /-- Python `l[:n]`: a negative `n` counts from the end. -/
  pySlice (l : List String) (n : ℤ) : List String :=
    if 0 ≤ n then l.take n.toNat else l.take (l.length - n.natAbs)

/-- The choice of channels in `_get_plottable_response_curves_df`,
`meridian/analysis/optimizer.py:1137-1146`: `None` and zero select all channels. -/
def chosenChannels (spend : List Row) (n : Option ℤ) : Option (List String) :=
  match n with
  | none => some (spend.map (·.1))
  | some 0 => some (spend.map (·.1))
  | some n => topChannels spend n

/-- `bounds.repeat(len(channels)) * spend_ratio if len(bounds) == 1 else bounds * spend_ratio`,
`meridian/analysis/optimizer.py:1044-1048` and 1081-1090. -/
def boundMultipliers (bounds ratio : List ℚ) : List ℚ :=
  List.zipWith (· * ·) (if bounds.length = 1 then List.replicate ratio.length (bounds.headD 0) else bounds)
    ratio

/-- Python `max` of a list of numbers. -/
def maxOf : List ℚ → ℚ
  | [] => 0
  | x :: l => l.foldl max x

/-- `SPEND_CONSTRAINT_PADDING`, `RESPONSE_CURVE_STEP_SIZE`, `meridian/constants.py:786` and 765. -/
def spendPadding : ℚ := 1 / 2
@[inherit_doc spendPadding] def curveStep : ℚ := 1 / 100

/-- `upper_limit`, `meridian/analysis/optimizer.py:1052`. -/
def upperLimit (ubounds ratio : List ℚ) : ℚ :=
  max (maxOf (boundMultipliers ubounds ratio) + spendPadding) 2

/-- `np.arange(0, upper_limit, step)`, `meridian/analysis/optimizer.py:1053`. -/
def curveMultipliers (ubounds ratio : List ℚ) : List ℚ :=
  (List.range ⌈upperLimit ubounds ratio / curveStep⌉.toNat).map fun k : ℕ => (k : ℚ) * curveStep

/-- `spend_ratio`, `meridian/analysis/optimizer.py:1786-1791`. -/
def spendRatio (non hist : List ℚ) : List ℚ :=
  List.zipWith (fun a b => if b = 0 then 0 else a / b) non hist

/-- The label of a point of a curve, `meridian/analysis/optimizer.py:935-941`. -/
def withinLabel (mult lower upper : ℚ) : Bool := decide (lower ≤ mult ∧ mult ≤ upper)

/-- Whether a point of a curve belongs to the dashed line below the constraint,
`meridian/analysis/optimizer.py:963-968`; a multiplier of zero is falsy in Vega. -/
def inBelow (mult lower : ℚ) : Bool := decide (mult ≠ 0 ∧ mult ≤ lower)

/-- Whether it belongs to the line from the constraint on, `meridian/analysis/optimizer.py:969-982`. -/
def inAbove (mult lower : ℚ) : Bool := decide (mult ≠ 0 ∧ lower ≤ mult)

/-- A row of the allocation table: channel, non-optimized and optimized percentage. -/
structure AllocRow where
  channel : String
  non : ℤ
  opt : ℤ
deriving DecidableEq

/-- `_create_budget_allocation_table`, `meridian/analysis/optimizer.py:1382-1405`; the percentage sign is
left out.  Both data sets have the same channels, each once. -/
def allocationTable (channels : List String) (non opt : List ℚ) : List AllocRow :=
  ((channels.zip (non.zip opt)).insertionSort fun a b => b.2.2 ≤ a.2.2).map fun r =>
    ⟨r.1, rint (r.2.1 * 100), rint (r.2.2 * 100)⟩

/-! ### Selected times -/

/-- What `_expand_selected_times` returns. -/
inductive Times where
  | labels (l : List String)
  | flags (l : List Bool)
deriving DecidableEq

/-- `_expand_selected_times`, `meridian/analysis/optimizer.py:3265-3321`.  `modelDates` are the times of
the model; `newTimes` are the times of `new_data` if their number was changed (an `AssertionError` if they
are missing).  `read` and `write` are pandas' reading of a date and `strftime`. -/
def expandTimes (read : String → Option CDate) (write : CDate → String) (modelDates : List CDate)
    (modified : Bool) (newTimes : Option (List String)) (start stop : Option CDate)
    (asLabels : Bool) : Except (Option TimeCoordinates.Err) (Option Times) :=
  if start = none ∧ stop = none then .ok none
  else if ¬ modified then
    match TimeCoordinates.expandSelected modelDates start stop with
    | .error e => .error (some e)
    | .ok r => .ok (r.map fun l => .labels (l.map write))
  else
    match newTimes with
    | none => .error none
    | some times =>
      match times.mapM read with
      | none => .error none
      | some dates =>
        match TimeCoordinates.create dates with
        | .error e => .error (some e)
        | .ok dates =>
          match TimeCoordinates.expandSelected dates start stop with
          | .error e => .error (some e)
          | .ok r =>
            let chosen := (r.getD dates).map write
            .ok (some (if asLabels then .labels (times.filter fun x => decide (x ∈ chosen))
              else .flags (times.map fun x => decide (x ∈ chosen))))

end Verif.ResultCharts

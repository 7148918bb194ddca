import Mathlib.Algebra.Order.Field.Basic
import Mathlib.Data.List.Sort

/-!
# The tables behind the contribution, spend and ROI charts

`MediaSummary.contribution_metrics` and the charts built on it, `meridian/analysis/visualizer.py:1779-2770`.

The numbers are those of any ordered field; `none` stands for NaN, and for the infinite value of a quotient
by zero.  A time is its position; the labels of the times are increasing.  The labels of the channels are
the names followed by the total, and are different from each other.
-/

namespace Verif.Contrib

variable {K : Type} [Field K] [LinearOrder K]

/-- `constants.BASELINE`, `meridian/constants.py:624`. -/
def baselineName : String := "baseline"

/-- `constants.ALL_CHANNELS`, `meridian/constants.py:728`. -/
def allName : String := "All Channels"

/-- Errors. -/
inductive Err where
  | key
  | channels
deriving DecidableEq

/-- The posterior means of a dataset of summary metrics: incremental outcome and percentage of
contribution by time and channel; the total has the position after the last name. -/
structure Dataset (K : Type) where
  names : List String
  nTimes : ℕ
  inc : ℕ → ℕ → Option K
  pct : ℕ → ℕ → Option K

/-- The coordinate `channel`. -/
def Dataset.labels (ds : Dataset K) : List String := ds.names ++ [allName]

/-- A quotient. -/
def divO : Option K → Option K → Option K
  | some x, some y => if y = 0 then none else some (x / y)
  | _, _ => none

/-- A product. -/
def mulO : Option K → Option K → Option K
  | some x, some y => some (x * y)
  | _, _ => none

/-- A row of the table. -/
structure Row (K : Type) where
  time : ℕ
  channel : String
  outcome : Option K
  share : Option K
deriving DecidableEq

/-- The channels of `_summary_metrics_to_mean_df`, `meridian/analysis/visualizer.py:2739-2744`: an empty
selection selects all, without the total. -/
def chosen (ds : Dataset K) : Option (List String) → Except Err (List String)
  | none => .ok ds.names
  | some [] => .ok ds.names
  | some (c :: cs) => if (c :: cs).all (· ∈ ds.labels) then .ok (c :: cs) else .error .key

/-- A row of `_calculate_contribution_dataframe`, `meridian/analysis/visualizer.py:2571-2604`. -/
def channelRow (ds : Dataset K) (j : ℕ) (c : String) : Row K :=
  ⟨j, c, ds.inc j (ds.labels.idxOf c), (ds.pct j (ds.labels.idxOf c)).map (· / 100)⟩

/-- A row of `_calculate_baseline_contribution_dataframe`, `meridian/analysis/visualizer.py:2626-2664`. -/
def baselineRow (ds : Dataset K) (j : ℕ) : Row K :=
  let totalPct := (ds.pct j ds.names.length).map (· / 100)
  let totalOutcome := divO (ds.inc j ds.names.length) totalPct
  let basePct := totalPct.map (1 - ·)
  ⟨j, baselineName, mulO totalOutcome basePct, basePct⟩

/-- `sort_values` by outcome, descending: NaN last. -/
def descLe : Option K → Option K → Bool
  | some a, some b => decide (b ≤ a)
  | _, none => true
  | none, some _ => false

/-- The order of the rows, `meridian/analysis/visualizer.py:2558-2567`: by time, then by outcome. -/
def rowLe (r s : Row K) : Bool := decide (r.time < s.time) || (decide (r.time = s.time) && descLe r.outcome s.outcome)

/-- `contribution_metrics`, `meridian/analysis/visualizer.py:2520-2569`.  `selTimes` are the positions of the
selected times of the object, used for the rows of the baseline (lines 2632-2636, 2660); an empty selection
counts as none.  For the aggregated table there is one time, and `selTimes` is not used (`none`).  Rows with
equal outcome keep their order (pandas guarantees this only by time). -/
def contributionMetrics (ds : Dataset K) (selected : Option (List String)) (selTimes : Option (List ℕ)) :
    Except Err (List (Row K)) :=
  let baseTimes := match selTimes with
    | none => List.range ds.nTimes
    | some [] => List.range ds.nTimes
    | some (t :: ts) => t :: ts
  match chosen ds selected with
  | .error e => .error e
  | .ok cs =>
    if baseTimes.all (· < ds.nTimes) then
      .ok ((baseTimes.map (baselineRow ds) ++
        cs.flatMap fun c => (List.range ds.nTimes).map fun j => channelRow ds j c).insertionSort
          (fun r s => rowLe r s = true))
    else .error .key

/-- The two rows of the pie chart, `meridian/analysis/visualizer.py:2098-2100`. -/
def pieRows (ds : Dataset K) : Except Err (List (Row K)) := contributionMetrics ds (some [allName]) none

/-! ### The waterfall chart -/

/-- The beginning and end of the bars, `meridian/analysis/visualizer.py:2027-2036`: `sum_outcome` is the sum of
the shares so far, `prev_sum` is what it was without the own share. -/
def barsFrom (acc : K) : List K → List (K × K)
  | [] => []
  | x :: xs => (acc + x - x, acc + x) :: barsFrom (acc + x) xs

/-- The bars. -/
def bars (shares : List K) : List (K × K) := barsFrom 0 shares

/-- The place of the text, `meridian/analysis/visualizer.py:2033-2036`. -/
def textAt (bar : K × K) (outcome : K) : K := if outcome < 0 then bar.1 else bar.2

/-! ### The bump chart -/

/-- `groupby(time).rank(method='first', ascending=False)` of row `k`,
`meridian/analysis/visualizer.py:1920-1922`: one more than the rows of the time with a larger outcome, or with
an equal one further up. -/
def rank (times : ℕ → ℕ) (outcome : ℕ → K) (n k : ℕ) : ℕ :=
  ((List.range n).filter fun l =>
    decide (times l = times k) && (decide (outcome k < outcome l) ||
      (decide (outcome l = outcome k) && decide (l < k)))).length + 1

/-- A date. -/
structure Date where
  year : ℕ
  month : ℕ
  day : ℕ
deriving DecidableEq

/-- The order of dates. -/
def Date.key (d : Date) : ℕ := (d.year * 13 + d.month) * 32 + d.day

/-- `dt.to_period('Q')`. -/
def Date.quarter (d : Date) : ℕ × ℕ := (d.year, (d.month - 1) / 3)

/-- `unique_times[~quarters.duplicated(keep='last')]`. -/
def keepLast : List Date → List Date
  | [] => []
  | t :: ts => if ts.any (fun u => u.quarter = t.quarter) then keepLast ts else t :: keepLast ts

/-- The dates of the quarterly chart, `meridian/analysis/visualizer.py:1924-1930`. -/
def quarterlyDates (times : List Date) : List Date :=
  keepLast (times.insertionSort fun a b => a.key ≤ b.key)

/-! ### The area chart -/

/-- The minimum of pandas, which ignores NaN. -/
def minO (l : List (Option K)) : Option K := (l.filterMap id).min?

/-- The maximum of pandas, which ignores NaN. -/
def maxO (l : List (Option K)) : Option K := (l.filterMap id).max?

/-- The lower end of the axis of the area chart, `meridian/analysis/visualizer.py:1822-1829`: of the rows called
baseline. -/
def minY (rows : List (Row K)) : Option K :=
  minO ((rows.filter fun r => r.channel = baselineName).map Row.outcome)

/-! ### Spend against contribution -/

/-- The posterior means of the paid channels, and of their total, and the percentages of spend. -/
structure Paid (K : Type) where
  names : List String
  inc : ℕ → K
  total : K
  pctSpend : ℕ → K
  roi : ℕ → Option K

/-- A row of the table. -/
structure SpendRow (K : Type) where
  channel : String
  isSpend : Bool
  pct : Option K
  roi : Option K
  scaled : Option K

/-- The rows without the scaled ROI. -/
def spendBase (d : Paid K) : List (SpendRow K) :=
  (List.range d.names.length).map (fun m =>
    ⟨d.names.getD m "", false, divO (some (d.inc m)) (some d.total), d.roi m, none⟩) ++
  (List.range d.names.length).map (fun m =>
    ⟨d.names.getD m "", true, some (d.pctSpend m / 100), d.roi m, none⟩)

/-- The factor of the ROI. -/
def scaleFactor (rows : List (SpendRow K)) : Option K :=
  divO (maxO (rows.map SpendRow.pct)) (maxO (rows.map SpendRow.roi))

/-- `_transform_contribution_spend_metrics`, `meridian/analysis/visualizer.py:2668-2722`. -/
def spendTable (d : Paid K) : List (SpendRow K) :=
  (spendBase d).map fun r =>
    { r with scaled := mulO r.roi (scaleFactor (spendBase d)) }

/-! ### The bubble chart and the bar charts -/

/-- The channels of `_plot_roi_bubble_chart`, `meridian/analysis/visualizer.py:2369-2380`. -/
def bubbleChannels (names : List String) : Option (List String) → Except Err (List String)
  | none => .ok names
  | some [] => .ok names
  | some (c :: cs) =>
    if (c :: cs).any (· ∉ names ++ [allName]) then .error .channels else .ok (c :: cs)

/-- The axes with `equal_axes`, `meridian/analysis/visualizer.py:2382-2385`. -/
def equalDomain (roi mroi : List K) : Option (K × K) :=
  match roi.max?, mroi.max? with
  | some a, some b => some (0, max a b)
  | _, _ => none

/-- The statistics of one metric and channel. -/
structure Stats (K : Type) where
  mean : Option K
  median : Option K
  lo : Option K
  hi : Option K

/-- A row of `_summary_metric_to_df`. -/
structure BarRow (K : Type) where
  channel : String
  value : Option K
  lo : Option K
  hi : Option K

/-- `_summary_metric_to_df`, `meridian/analysis/visualizer.py:2752-2783`: the pivot sorts the channels. -/
def barTable (cpik : Bool) (names : List String) (st : ℕ → Stats K) : List (BarRow K) :=
  ((names.zipIdx.map fun x => ⟨x.1, if cpik then (st x.2).median else (st x.2).mean, (st x.2).lo, (st x.2).hi⟩ :
    List (BarRow K))).insertionSort fun a b => a.channel ≤ b.channel

end Verif.Contrib

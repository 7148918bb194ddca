import Mathlib.Data.List.Sort
import Mathlib.Data.Rat.Defs
import Mathlib.Algebra.Order.Ring.Rat
import Mathlib.Algebra.Order.Group.Abs
import Mathlib.Data.String.Basic
import Verif.Model.Lookup

/-!
# Tables and charts of the exploratory report

`meridian/model/eda/meridian_eda.py`: which rows, channels, variables, pairs and geos its tables and
charts show.  Numbers of the tables are finite floats, so rationals.  `sort_values` by several columns
is stable; by one column pandas does not promise an order of equal values, here they keep theirs (the
theorems about such charts do not depend on it).
-/

namespace Verif.EdaCharts

/-! ## Tables -/

/-- `DISPLAY_LIMIT` and `TIME_SERIES_LIMIT`, `meridian/model/eda/constants.py:153-154`. -/
def displayLimit : ℕ := 5

def timeSeriesLimit : ℕ := 2

/-- A row of a table: its labels, and the one or two numbers by which it is sorted. -/
structure Row where
  geo : Option String := none
  time : Option String := none
  name : String
  key1 : ℚ
  key2 : ℚ := 0
deriving DecidableEq

/-- First column down, name up: the tables of outliers of the cost per unit
(`meridian/model/eda/meridian_eda.py:1402-1409`) and of treatments and controls (1621-1625), by absolute
value, and of inflated variables (1866-1870). -/
def downName (a b : Row) : Prop := b.key1 < a.key1 ∨ (a.key1 = b.key1 ∧ a.name ≤ b.name)

/-- Media units down, spend down, channel up: the table of inconsistent costs,
`meridian/model/eda/meridian_eda.py:1416-1420`. -/
def downDownName (a b : Row) : Prop :=
  b.key1 < a.key1 ∨ (a.key1 = b.key1 ∧ (b.key2 < a.key2 ∨ (a.key2 = b.key2 ∧ a.name ≤ b.name)))

/-- Standard deviation without outliers up, with outliers up, name up: the table of variables without
variation, `meridian/model/eda/meridian_eda.py:1607-1612`. -/
def upUpName (a b : Row) : Prop :=
  a.key1 < b.key1 ∨ (a.key1 = b.key1 ∧ (a.key2 < b.key2 ∨ (a.key2 = b.key2 ∧ a.name ≤ b.name)))

instance : DecidableRel downName := fun _ _ => by unfold downName; infer_instance
instance : DecidableRel downDownName := fun _ _ => by unfold downDownName; infer_instance
instance : DecidableRel upUpName := fun _ _ => by unfold upUpName; infer_instance

/-- `_format_display_table`, `meridian/model/eda/meridian_eda.py:2114-2125`, without the format of the
numbers. -/
def display (le : Row → Row → Prop) [DecidableRel le] (rows : List Row) : List Row :=
  (rows.insertionSort le).take displayLimit

/-- An entry of the table of standard deviations; `none` for NaN. -/
structure StdEntry where
  geo : Option String := none
  name : String
  without : Option ℚ
  withOutliers : ℚ
deriving DecidableEq

/-- The rows without variation, `meridian/model/eda/meridian_eda.py:1600-1603`: the standard deviation
without outliers is below the threshold, which NaN is not. -/
def lowRows (threshold : ℚ) (entries : List StdEntry) : List Row :=
  entries.filterMap fun e =>
    match e.without with
    | none => none
    | some s => if s < threshold then some ⟨e.geo, none, e.name, s, e.withOutliers⟩ else none

/-- The number of different labels: `index.unique(level=…).size`. -/
def distinct (l : List String) : ℕ := l.dedup.length

/-- What the note under a table says: how many channels, times and geos there are to review. -/
structure Note where
  channels : ℕ
  times : Option ℕ
  geos : Option ℕ
deriving DecidableEq

/-- `_create_display_limit_message`, `meridian/model/eda/meridian_eda.py:2174-2198`: no note if all rows
are shown; a number of times or geos that is zero is not named. -/
def note (rows : List Row) (withTimes withGeos : Bool) : Option Note :=
  if rows.length ≤ displayLimit then none
  else
    let named (n : ℕ) : Option ℕ := if n = 0 then none else some n
    some ⟨distinct (rows.map Row.name),
      if withTimes then named (distinct (rows.filterMap Row.time)) else none,
      if withGeos then named (distinct (rows.filterMap Row.geo)) else none⟩

/-- Each label once, at its first place: the keys of a dictionary. -/
def firsts : List String → List String
  | [] => []
  | a :: l => a :: (firsts l).filter fun b => b ≠ a

/-- The channels of the time series of costs, `meridian/model/eda/meridian_eda.py:1348-1366, 1435-1439`:
those of the shown outliers, then those of the shown inconsistencies; no chart if there are none. -/
def seriesChannels (outliers inconsistencies : List Row) : Option (List String) :=
  let found := firsts ((display downName outliers).map Row.name ++
    (display downDownName inconsistencies).map Row.name)
  if found = [] then none else some (found.take timeSeriesLimit)

/-! ## The heatmap of correlations -/

/-- A cell of the upper triangle that is not NaN. -/
structure Corr where
  first : String
  second : String
  value : ℚ
deriving DecidableEq

/-- `np.isclose(a, b)`. -/
def isClose (a b : ℚ) : Prop := |a - b| ≤ 1 / 10 ^ 8 + 1 / 10 ^ 5 * |b|

instance (a b : ℚ) : Decidable (isClose a b) := by unfold isClose; infer_instance

/-- The variables with those of a pair. -/
def withPair (sel : List String) (p : Corr) : List String := (sel.insert p.first).insert p.second

/-- The loop over the sorted pairs, `meridian/model/eda/meridian_eda.py:2245-2269`. -/
def scan (max : ℕ) : List Corr → List String → Option ℚ → List String
  | [], sel, _ => sel
  | p :: rest, sel, stop =>
    if ∃ s, stop = some s ∧ ¬ isClose |p.value| s then sel
    else
      let fits := decide ((withPair sel p).length ≤ max)
      let sel' := if fits then withPair sel p else sel
      let stop' := if fits then stop else if stop = none then some |p.value| else stop
      if sel'.length = max then sel' else scan max rest sel' stop'

inductive Err
  | maxVars
  | geoCount
  | unknownGeo
  | duplicateGeo
  | knots
deriving DecidableEq

/-- Pairs by decreasing absolute correlation. -/
def stronger (a b : Corr) : Prop := |b.value| ≤ |a.value|

instance : DecidableRel stronger := fun _ _ => by unfold stronger; infer_instance

/-- The selected variables, `meridian/model/eda/meridian_eda.py:2236-2271`. -/
def selectVars (pairs : List Corr) (all : List String) (maxVars : Option ℤ) : List String :=
  match maxVars with
  | some m => if m < all.length then scan m.toNat (pairs.insertionSort stronger) [] none else all
  | none => all

/-- `_get_plot_data_for_heatmap`, `meridian/model/eda/meridian_eda.py:2209-2283`. -/
def heatmap (pairs : List Corr) (all : List String) (maxVars : Option ℤ) :
    Except Err (List Corr × List String) :=
  if ∃ m, maxVars = some m ∧ m ≤ 1 then .error .maxVars
  else
    let selected := selectVars pairs all maxVars
    let vars := all.filter fun v => v ∈ selected
    .ok (pairs.filter fun p => p.first ∈ vars ∧ p.second ∈ vars, vars)

/-! ## Bar charts -/

/-- `_calculate_relative_shares`, `meridian/model/eda/meridian_eda.py:2019-2026`: the sum of each variable
over the sum of all (`none` for NaN if that is zero); pandas gives the variables sorted, the charts sort
again. -/
def shares (rows : List (String × ℚ)) : List (String × Option ℚ) :=
  let total := (rows.map Prod.snd).sum
  (firsts (rows.map Prod.fst)).map fun v =>
    (v, if total = 0 then none
      else some (((rows.filter fun r => r.1 = v).map Prod.snd).sum / total))

/-- A bar. -/
abbrev Bar := String × ℚ

/-- The order of `sort_values(VALUE, ascending=…)`. -/
def barLe (ascending : Bool) (key : Bar → ℚ) (a b : Bar) : Prop :=
  if ascending then key a ≤ key b else key b ≤ key a

instance (ascending : Bool) (key : Bar → ℚ) : DecidableRel (barLe ascending key) :=
  fun _ _ => by unfold barLe; infer_instance

/-- The bars of `_plot_barcharts`, `meridian/model/eda/meridian_eda.py:763-776`. -/
def bars (n : Option ℕ) (ascending sortAbs : Bool) (data : List Bar) : List Bar :=
  let key : Bar → ℚ := fun b => if sortAbs then |b.2| else b.2
  let processed := data.insertionSort (barLe ascending key)
  match n with
  | some n => (processed.take n).insertionSort (barLe ascending Prod.snd)
  | none => processed

/-! ## Box plots -/

/-- What is known about a variable in a geo: the standard deviation without outliers (`none` for NaN) and
the absolute values of its outliers. -/
structure Metric where
  geo : Option String
  name : String
  std : Option ℚ
  outliers : List ℚ
deriving DecidableEq

/-- `groupby(…).max()` joined, and `fillna(0.0)`, `meridian/model/eda/meridian_eda.py:128-141`. -/
def maxOutlier (m : Metric) : ℚ := (m.outliers.max?).getD 0

def stdOrZero (m : Metric) : ℚ := m.std.getD 0

/-- The order of `_prepare_boxplot_sorting_metrics`, `meridian/model/eda/meridian_eda.py:142-149`. -/
def boxLe (a b : Metric) : Prop :=
  stdOrZero a < stdOrZero b ∨ (stdOrZero a = stdOrZero b ∧ maxOutlier b ≤ maxOutlier a)

instance : DecidableRel boxLe := fun _ _ => by unfold boxLe; infer_instance

/-- `_prepare_boxplot_sorting_metrics` and `_get_sorted_variables`,
`meridian/model/eda/meridian_eda.py:72-169`: all metrics are sorted, then those of the geo are taken
(`none` for metrics without geos). -/
def boxVariables (metrics : List Metric) (geo : Option String) (n : Option ℕ) : List String :=
  let sorted := ((metrics.insertionSort boxLe).filter fun m => m.geo = geo).map Metric.name
  match n with
  | none => sorted
  | some n => if sorted.length ≤ n then sorted else sorted.take n

/-! ## Geos -/

inductive Geos
  | nationalize
  | count (n : ℤ)
  | names (l : List String)
deriving DecidableEq

/-- `NATIONAL_MODEL_DEFAULT_GEO_NAME`, `meridian/constants.py:218`. -/
def nationalGeo : String := "national_geo"

/-- The checks of the names, `meridian/model/eda/meridian_eda.py:2008-2014`. -/
def checkNames (all : List String) (l : List String) : Except Err (List String) :=
  if ∃ g ∈ l, g ∉ all then .error .unknownGeo
  else if l.Nodup then .ok l else .error .duplicateGeo

/-- `_validate_and_get_geos_to_plot`, `meridian/model/eda/meridian_eda.py:1992-2016`; the geos with their
populations. -/
def geosToPlot (national : Bool) (all : List (String × ℚ)) (geos : Geos) : Except Err (List String) :=
  if national then .ok [nationalGeo]
  else match geos with
    | .nationalize => .ok [nationalGeo]
    | .count n =>
      if (all.length : ℤ) < n ∨ n ≤ 0 then .error .geoCount
      else checkNames (all.map Prod.fst) (Lookup.topGeos all n)
    | .names l => checkNames (all.map Prod.fst) l

/-- The markers of `plot_national_kpi_with_knots_time_series`,
`meridian/model/eda/meridian_eda.py:375-425`: time and scaled KPI at each knot. -/
def knotMarkers (series : List (String × ℚ)) (knots : List ℕ) : Except Err (List (String × ℚ)) :=
  if knots.length < 2 then .error .knots else .ok (knots.filterMap fun k => series[k]?)

end Verif.EdaCharts

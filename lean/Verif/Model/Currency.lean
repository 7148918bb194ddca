import Verif.Model.ResultCharts
import Verif.Model.SummaryTable
import Verif.Model.Page

/-!
# The currency of the data and of the reports

`meridian/common/currency.py`, the check of `currency_code` in `meridian/data/input_data.py`, its way through
the loaders and the saved form, and the places of the reports that write amounts of money:
`OptimizationResults.output_optimization_summary`, `plot_spend_delta` and `plot_budget_allocation` of
`meridian/analysis/optimizer.py`, `MediaSummary.summary_table` of `meridian/analysis/visualizer.py` and the
performance card of `meridian/analysis/summarizer.py`.

The tables of the package `babel` are parameters.  Capital letters are those of ASCII.  Layout of the charts
other than their size, and the HTML around the texts, are left out.
-/

namespace Verif.Currency

open Verif Verif.Formatter Verif.ResultCharts

/-- What may be given as currency code: nothing, something that is no string, a string. -/
inductive Code where
  | none
  | other
  | str (s : Text)
deriving DecidableEq

/-- `babel.numbers.get_currency_symbol(code, locale='en_US')` and `babel.numbers.is_currency`. -/
structure Babel where
  symbol : Text → Text
  known : Text → Bool

/-- White space for `str.strip()` among the characters up to 255. -/
def space (c : Char) : Bool :=
  [9, 10, 11, 12, 13, 28, 29, 30, 31, 32, 133, 160].contains c.toNat

/-- `str.strip()`. -/
def strip (s : Text) : Text := ((s.dropWhile space).reverse.dropWhile space).reverse

/-- `str.upper()` for the letters of ASCII. -/
def upper (s : Text) : Text := s.map Char.toUpper

/-- The first lines of the three functions of `meridian/common/currency.py:46-49, 66-68, 80-82`: no code if
the value is no string or blank, otherwise `currency_code.strip().upper()`. -/
def canonical : Code → Option Text
  | .str s => if strip s = [] then none else some (upper (strip s))
  | _ => none

/-- `DEFAULT_CURRENCY_SYMBOL`, `meridian/constants.py:797`. -/
def dollar : Text := ['$']

/-- `get_currency_symbol`, `meridian/common/currency.py:27-54`, with the default argument. -/
def symbol (b : Babel) (c : Code) : Text :=
  match canonical c with
  | none => dollar
  | some k => if b.symbol k = [] then k else b.symbol k

/-- `is_valid_currency_code`, `meridian/common/currency.py:57-68`. -/
def valid (b : Babel) (c : Code) : Bool :=
  match canonical c with
  | none => false
  | some k => b.known k

/-- `normalize_currency_code`, `meridian/common/currency.py:71-82`; `babel.numbers.normalize_currency` returns
a known code and `None` otherwise. -/
def normalize (b : Babel) (c : Code) : Option Text :=
  match canonical c with
  | none => none
  | some k => if b.known k then some k else none

/-! ### The data -/

/-- `InputData._validate_currency_code`, `meridian/data/input_data.py:303-316`: the number of warnings;
`none` is the `TypeError`. -/
def check (b : Babel) : Code → Option ℕ
  | .none => some 0
  | .other => none
  | .str s => some (if valid b (.str s) then 0 else 1)

/-- The code that a loader hands to the builder and the builder to the data,
`meridian/data/load.py:327-329, 838-841` and `meridian/data/input_data_builder.py:75, 82-89, 656`. -/
def built (given : Code) : Code :=
  match given with
  | .none => .none
  | c => c

/-- The field of the saved data, `meridian/schema/serde/marketing_data.py:697-699`: a string of a protocol
buffer is empty unless set. -/
def saved : Code → Text
  | .str s => s
  | _ => []

/-- The code of the loaded data, `meridian/schema/serde/marketing_data.py:1304-1308`. -/
def loaded (s : Text) : Code := if s = [] then .none else .str s

/-! ### The reports -/

/-- The symbol in use and the number of deprecation warnings, `meridian/analysis/optimizer.py:602-613` and
822-833, `meridian/analysis/visualizer.py:1647-1656`. -/
def resolve (b : Babel) (code : Code) (arg : Option Text) : Text × ℕ :=
  match arg with
  | none => (symbol b code, 0)
  | some s => (s, 1)

/-- What the reports read of the results of an optimization. -/
structure Results where
  spendNon : List (String × ℚ)
  spendOpt : List (String × ℚ)
  budgetNon : ℚ
  budgetOpt : ℚ
  roiNon : ℚ
  roiOpt : ℚ
  cpikNon : ℚ
  cpikOpt : ℚ
  outcomeNon : ℚ
  outcomeOpt : ℚ
  revenue : Bool

/-- A bar of the chart of changes of spend: where it ends, where its number stands, and its colour. -/
structure DeltaBar where
  channel : String
  spend : ℚ
  textAt : ℚ
  cyan : Bool
deriving DecidableEq

/-- The chart of changes of spend. -/
structure DeltaChart where
  axisTitle : Text
  bars : List DeltaBar
  width : ℕ
  height : ℕ
deriving DecidableEq

/-- `bar_chart_width`, `meridian/templates/formatter.py:121-123`, `meridian/constants.py:754, 756`. -/
def barChartWidth (n : ℕ) : ℕ := (42 + 20) * n

/-- One bar, `meridian/analysis/optimizer.py:855-858, 882-897`. -/
def deltaBar (r : Row) : DeltaBar :=
  ⟨r.1, r.2, if r.2 < 0 then 0 else r.2, decide (0 < r.2)⟩

/-- `plot_spend_delta`, `meridian/analysis/optimizer.py:803-913`, with the number of deprecation warnings. -/
def plotSpendDelta (b : Babel) (code : Code) (r : Results) (arg : Option Text) (vertical : Bool) :
    DeltaChart × ℕ :=
  let cur := resolve b code arg
  let rows := deltaData (r.spendOpt.map fun x => (x.1, some x.2)) (r.spendNon.map fun x => (x.1, some x.2))
  let size := barChartWidth (rows.length + 2)
  (⟨cur.1, rows.map deltaBar, if vertical then size else 600, if vertical then 400 else size⟩, cur.2)

/-- `plot_budget_allocation`, `meridian/analysis/optimizer.py:769-800`: the slices of the pie, as parts of the
circle (Vega stacks the values to a full circle). -/
def pie (r : Results) (optimized : Bool) : List (String × ℚ) :=
  let spend := if optimized then r.spendOpt else r.spendNon
  spend.map fun x => (x.1, x.2 / (spend.map (·.2)).sum)

/-- The six figures of the report, `meridian/analysis/optimizer.py:1249-1339`. -/
structure Figures where
  budget : Text × Stat
  performance : Text × Stat
  outcome : Text × Stat
deriving DecidableEq

/-- `_create_scenario_stats_specs`, `meridian/analysis/optimizer.py:1249-1339`. -/
def figures (r : Results) (cur : Text) : Figures where
  budget := budgetStats r.budgetNon r.budgetOpt cur
  performance := if r.revenue then roiStats r.roiNon r.roiOpt else cpikStats r.cpikNon r.cpikOpt cur
  outcome := outcomeStats r.outcomeNon r.outcomeOpt (if r.revenue then cur else [])

/-- The parts of the report of an optimization that depend on the currency or show the spend. -/
structure Report where
  figures : Figures
  delta : DeltaChart
  pie : List (String × ℚ)
deriving DecidableEq

/-- `_create_output_sections` for the first two sections, `meridian/analysis/optimizer.py:1195-1201, 1246,
1341-1358`: the chart is drawn with the currency as explicit argument. -/
def sections (b : Babel) (code : Code) (r : Results) (cur : Text) : Report × ℕ :=
  let chart := plotSpendDelta b code r (some cur) true
  (⟨figures r cur, chart.1, pie r true⟩, chart.2)

/-- `output_optimization_summary`, `meridian/analysis/optimizer.py:586-616`, with the number of deprecation
warnings. -/
def report (b : Babel) (code : Code) (r : Results) (arg : Option Text) : Report × ℕ :=
  let cur := resolve b code arg
  let s := sections b code r cur.1
  (s.1, cur.2 + s.2)

/-- `summary_table`, `meridian/analysis/visualizer.py:1617-1746`, with the number of deprecation warnings. -/
def table (b : Babel) (code : Code) (paid all : SummaryTable.Dataset) (useKpi : Bool) (arg : Option Text)
    (prior posterior nonPaid : Bool) : Except SummaryTable.Err (List SummaryTable.Row) × ℕ :=
  let cur := resolve b code arg
  (SummaryTable.summaryTable paid all useKpi cur.1 prior posterior nonPaid, cur.2)

/-- The amounts of money in the sentences of the performance card of the results page: one unit spent, the
revenue seen for it, and the cost per KPI unit (twice), `meridian/analysis/summary_text.py:84-92`,
`meridian/analysis/summarizer.py:433-441`.  The code of the data is not used. -/
def cardAmounts (_b : Babel) (_code : Code) (i : Page.Insights) : List Text :=
  [dollar ++ ['1'], dollar ++ i.roiLong, dollar ++ i.cpik, dollar ++ i.cpik]

end Verif.Currency

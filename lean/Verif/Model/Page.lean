import Verif.Model.Accuracy
import Verif.Model.Formatter
import Verif.Model.TimeCoordinates

/-!
# The summary page of a model

`meridian/analysis/summarizer.py`: which dates the page covers and names, which granularity its charts
have, the texts of its accuracy table, and the channels it singles out in its sentences.  The charts
themselves (`altair`) and the HTML around the texts (`jinja2`) are not modelled.
-/

namespace Verif.Page

open Verif.Selection (Item)
open Verif Verif.Calendar Verif.Accuracy Verif.Formatter

/-- What the page says about its period: the selected dates (`none`: no restriction), the first date
shown and the day number of the last date shown. -/
structure Period where
  selected : Option (List CDate)
  start : CDate
  shownEnd : ℤ
deriving DecidableEq

/-- The head of `_gen_model_results_summary`, `meridian/analysis/summarizer.py:106-146`.  Dates are given
as dates (`tc.normalize_date` of a string is the text model of `TimeCoordinates`). -/
def period (dates : List CDate) (startDate endDate : Option CDate) : Except TimeCoordinates.Err Period :=
  match TimeCoordinates.minDate dates, TimeCoordinates.maxDate dates with
  | some lo, some hi =>
    let s := startDate.getD lo
    let e := endDate.getD hi
    if s ∉ dates then .error .startUnknown
    else if e ∉ dates then .error .endUnknown
    else if e.lt s then .error .startAfterEnd
    else
      match TimeCoordinates.expandSelected dates (some s) (some e) with
      | .error x => .error x
      | .ok sel =>
        match TimeCoordinates.meanInterval dates with
        | .error x => .error x
        | .ok k => .ok ⟨sel, s, e.ordinal + k⟩
  | _, _ => .error .tooFewDates

/-- The granularity of the charts over time. -/
inductive Granularity where
  | weekly
  | quarterly
deriving DecidableEq

/-- `time_granularity` of the contribution card, `meridian/analysis/summarizer.py:286-297`
(`QUARTERLY_SUMMARY_THRESHOLD_WEEKS` is 52). -/
def granularity (dates : List CDate) (selected : Option (List CDate)) : Granularity :=
  let n := match selected with
    | none => dates.length
    | some l => l.length
  if n < 52 then .weekly else .quarterly

/-- `frozenset(selected_times) if selected_times else None`, `meridian/analysis/summarizer.py:474-476`
and `meridian/analysis/visualizer.py:107-110, 157-162`: an empty selection is no selection. -/
def orNone {α : Type} : Option (List α) → Option (List α)
  | some [] => none
  | x => x

/-- The errors of the table and of the sentences. -/
inductive Err where
  | accuracy
  | notOneValue
  | noChannel
  | unknownChannel
deriving DecidableEq

/-- `'{:.pf}'.format(x)` for a float. -/
def flText (p : ℕ) : Fl → Text
  | .nan => ['n', 'a', 'n']
  | .pinf => ['i', 'n', 'f']
  | .ninf => ['-', 'i', 'n', 'f']
  | .fin q => fixed q p

/-- `'{:.0%}'.format(x)` for a float. -/
def pct0 : Fl → Text
  | .fin q => fixed (q * 100) 0 ++ ['%']
  | x => flText 0 x ++ ['%']

/-- `format_percent` for a float, `meridian/templates/formatter.py:126-141`. -/
def pct : Fl → Text
  | .fin q => percent q
  | x => flText 0 x ++ ['%']

/-- `.item()`: the only value. -/
def item : List Row → Except Err Row
  | [r] => .ok r
  | _ => .error .notOneValue

/-- The rows of the table: a label and three texts. -/
abbrev Table := List (String × Text × Text × Text)

/-- `_slice_table_by_evaluation_set`, `meridian/analysis/summarizer.py:241-251`. -/
def slice (national : Dataset) (label : String) (e : EvalSet) : Except Err (String × Text × Text × Text) :=
  (item ((national.filter fun x => x.1.2 = some e).map Prod.snd)).map fun r =>
    (label, flText 2 r.rsquared, pct r.mape, pct r.wmape)

/-- The body of `_predictive_accuracy_table_spec`, `meridian/analysis/summarizer.py:227-268`.  The
column of the evaluation set exists exactly if the rows carry one. -/
def rows (d : Dataset) : Except Err Table :=
  let national := d.filter fun x => x.1.1 = .national
  if d.any fun x => x.1.2.isSome then
    match slice national "Training Data" .train, slice national "Testing Data" .test,
        slice national "All Data" .all with
    | .ok a, .ok b, .ok c => .ok [a, b, c]
    | _, _, _ => .error .notOneValue
  else
    (item (national.map Prod.snd)).map fun r =>
      [("All Data", flText 2 r.rsquared, pct0 r.mape, pct0 r.wmape)]

/-- `_predictive_accuracy_table_spec`, `meridian/analysis/summarizer.py:221-277`, with
`predictive_accuracy_table` of the diagnostics (`meridian/analysis/visualizer.py:85-186`): the page selects
no geos, and the metrics are those of `Analyzer.predictive_accuracy`.  The sorting of the selected times
(`meridian/analysis/visualizer.py:108`) is left out: they are compared by name. -/
def table (norm : String → Option String) (c : Ctx) (selected : Option (List String)) : Except Err Table :=
  match predictiveAccuracy norm c none ((orNone selected).map (·.map Item.str)) with
  | .error _ => .error .accuracy
  | .ok d => rows d

/-- A metric of the channels: the posterior mean or median of each, with the row of the total. -/
abbrev Metric := List (String × Fl)

/-- The sorting of a data frame by its column, `sort_values(by=…, ascending=…)`. -/
abbrev Sorter := Bool → Metric → Metric

/-- `_get_sorted_posterior_mean_metrics_df` and `_get_sorted_posterior_median_metrics_df`,
`meridian/analysis/summarizer.py:361-396`: the total is dropped, the channels are sorted. -/
def sorted (sort : Sorter) (ascending : Bool) (x : Metric) : Metric :=
  sort ascending (x.filter fun p => p.1 ≠ "All Channels")

/-- `str.title()` for the letters of ASCII: a letter is capital at the start and after anything that is
no letter, and small after a letter. -/
def titleFrom : Bool → List Char → List Char
  | _, [] => []
  | afterLetter, c :: l =>
    (if afterLetter then c.toLower else c.toUpper) :: titleFrom c.isAlpha l

@[inherit_doc titleFrom]
def title (s : String) : Text := titleFrom false s.toList

/-- `' and '.join(…)`. -/
def joinAnd : List Text → Text
  | [] => []
  | [a] => a
  | a :: b :: l => a ++ [' ', 'a', 'n', 'd', ' '] ++ joinAnd (b :: l)

/-- `lead_channels`, `meridian/analysis/summarizer.py:324-327`: the names of the first two. -/
def leadNames (sort : Sorter) (incremental : Metric) : List String :=
  ((sorted sort false incremental).map Prod.fst).take 2

/-- The channels of the sentence on what drove the outcome, `meridian/analysis/summarizer.py:327, 343-346`. -/
def leadText (sort : Sorter) (incremental : Metric) : Text :=
  joinAnd ((leadNames sort incremental).map title)

/-- The first row of a sorted data frame. -/
def lead (sort : Sorter) (ascending : Bool) (x : Metric) : Except Err (String × Fl) :=
  match sorted sort ascending x with
  | [] => .error .noChannel
  | p :: _ => .ok p

/-- The posterior metrics of the paid channels that the performance card reads: means of ROI,
effectiveness and marginal ROI, medians of CPIK. -/
structure Metrics where
  roi : Metric
  effectiveness : Metric
  mroi : Metric
  cpik : Metric

/-- What the sentences of the performance card name. -/
structure Insights where
  roiChannel : Text
  roiShort : Text
  roiLong : Text
  effectivenessChannel : Text
  mroiChannel : Text
  mroi : Text
  cpikChannel : Text
  cpik : Text
deriving DecidableEq

/-- `insights` of `_create_performance_breakdown_card_html`, `meridian/analysis/summarizer.py:420-439`,
with the formats of `meridian/analysis/summary_text.py:84-92`. -/
def insights (sort : Sorter) (m : Metrics) : Except Err Insights := do
  let roi ← lead sort false m.roi
  let eff ← lead sort false m.effectiveness
  let mroi ← lead sort false m.mroi
  let cpik ← lead sort true m.cpik
  return ⟨title roi.1, flText 1 roi.2, flText 2 roi.2, title eff.1, title mroi.1, flText 2 mroi.2,
    title cpik.1, flText 2 cpik.2⟩

/-- `Series.idxmax()`: the first of the largest values; values that are not numbers are skipped. -/
def idxmaxFrom : Option (String × ℚ) → List (String × Num) → Option String
  | best, [] => best.map Prod.fst
  | best, (n, some x) :: l =>
    match best with
    | none => idxmaxFrom (some (n, x)) l
    | some b => if b.2 < x then idxmaxFrom (some (n, x)) l else idxmaxFrom (some b) l
  | best, (_, none) :: l => idxmaxFrom best l

/-- `.sel(channel=rf_channels)` of the spend of the paid channels: the first row of each name. -/
def select (spend : List (String × Num)) : List String → Except Err (List (String × Num))
  | [] => .ok []
  | n :: l =>
    match spend.find? fun p => p.1 = n with
    | none => .error .unknownChannel
    | some p =>
      match select spend l with
      | .error e => .error e
      | .ok r => .ok (p :: r)

/-- `_select_optimal_rf_data`, `meridian/analysis/summarizer.py:514-541`: the channel with the largest
spend and its optimal frequency. -/
def optimalRf (spend : List (String × Num)) (optimal : List (String × ℚ)) : Except Err (String × ℚ) :=
  match select spend (optimal.map Prod.fst) with
  | .error e => .error e
  | .ok l =>
    match idxmaxFrom none l with
    | none => .error .noChannel
    | some n =>
      match optimal.find? fun p => p.1 = n with
      | none => .error .unknownChannel
      | some p => .ok p

/-- The name and the frequency in the sentence on the optimal frequency,
`meridian/analysis/summarizer.py:487-497`. -/
def frequencyText (spend : List (String × Num)) (optimal : List (String × ℚ)) :
    Except Err (String × Text) :=
  (optimalRf spend optimal).map fun p => (p.1, fixed p.2 1)

end Verif.Page

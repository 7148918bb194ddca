import Verif.Model.Formatter
import Verif.Model.Summary

/-!
# The table of the media summary as text

`MediaSummary.summary_table`, `meridian/analysis/visualizer.py:1618-1746`.

The datasets of `get_paid_summary_metrics` and `get_all_summary_metrics` are given (their values are in
`Verif.Model.Summary`).  Numbers are exact; `none` is NaN, infinite values are not modelled.  Channel names
are distinct, and none of them is `mean` or `median` (the code renames these labels in every level of the
index, lines 1681 and 1703-1712).  The warning for the argument `currency` is not modelled.
-/

namespace Verif.SummaryTable

open Verif Verif.Summary
open Verif.Formatter (Text intDigits lastDigits)

/-- Errors. -/
inductive Err where
  | noDistribution
deriving DecidableEq

/-- A dataset of the summary: the channels (the total is the last), the variables without distribution and
the others. -/
structure Dataset where
  names : List String
  input : Var → ℕ → Num
  result : Var → Dist → Stat → ℕ → Num

/-- The variables with dimension `channel` only, `len(v.shape) == 1`, `meridian/analysis/visualizer.py:1740`:
those of `Verif.Summary.reported` that have neither distribution nor statistic. -/
def inputVars (nonPaid : Bool) : List Var :=
  if nonPaid then [] else [.impressions, .pctOfImpressions, .spend, .pctOfSpend, .cpm]

/-- The other variables of the dataset. -/
def resultVars (nonPaid : Bool) : List Var :=
  if nonPaid then [.incrementalOutcome, .pctOfContribution, .effectiveness]
  else [.incrementalOutcome, .pctOfContribution, .roi, .effectiveness, .mroi, .cpik]

/-- `[c.PRIOR] * include_prior + [c.POSTERIOR] * include_posterior`,
`meridian/analysis/visualizer.py:1663`. -/
def distributions (includePrior includePosterior : Bool) : List Dist :=
  (if includePrior then [.prior] else []) ++ (if includePosterior then [.posterior] else [])

/-- `percentage_metrics`, `meridian/analysis/visualizer.py:1665-1667, 1686-1689`. -/
def percentage (nonPaid : Bool) : List Var :=
  if nonPaid then [.pctOfContribution] else [.pctOfContribution, .pctOfImpressions, .pctOfSpend]

/-- `monetary_metrics`, `meridian/analysis/visualizer.py:1669, 1690-1693`. -/
def monetary (nonPaid useRevenue : Bool) : List Var :=
  if nonPaid then (if useRevenue then [.incrementalOutcome] else [])
  else [.cpm, .cpik] ++ (if useRevenue then [.spend, .incrementalOutcome] else [])

/-- The labels of `metric` that remain for a variable, in order: the median takes the place of the mean for
the cost per incremental KPI, `meridian/analysis/visualizer.py:1676-1681, 1702-1715`. -/
def statsOf : Var → List Stat
  | .cpik => [.median, .ciLo, .ciHi]
  | _ => [.mean, .ciLo, .ciHi]

/-- One entry of the column of a variable. -/
def entry (ds : Dataset) (nonPaid : Bool) (v : Var) (dist : Dist) (st : Stat) (c : ℕ) : Num :=
  if v ∈ inputVars nonPaid then ds.input v c else ds.result v dist st c

/-- The column of a variable in the order of `to_dataframe`: by channel, statistic and distribution. -/
def column (ds : Dataset) (nonPaid : Bool) (dists : List Dist) (v : Var) : List Num :=
  (List.range ds.names.length).flatMap fun c =>
    (statsOf v).flatMap fun st => dists.map fun dist => entry ds nonPaid v dist st c

/-- One step of Python's `min`: `x` replaces the current value if it is less; comparisons with NaN are
false. -/
def minStep (cur x : Num) : Num :=
  match cur, x with
  | some a, some b => if b < a then some b else some a
  | c, _ => c

/-- `min(abs(df[k])) < 1`, `meridian/analysis/visualizer.py:1718`. -/
def belowOne : List Num → Bool
  | [] => false
  | x :: l =>
    match (l.map (Option.map abs)).foldl minStep (x.map abs) with
    | some a => decide (a < 1)
    | none => false

/-- `digits`, `meridian/analysis/visualizer.py:1718-1719`. -/
def decimals (ds : Dataset) (nonPaid : Bool) (dists : List Dist) (v : Var) : ℕ :=
  if v = .effectiveness then 2 else if belowOne (column ds nonPaid dists v) then 1 else 0

/-- Commas after every third digit, from the right; the digits are reversed. -/
def commasRev : Text → Text
  | a :: b :: c :: d :: l => a :: b :: c :: ',' :: commasRev (d :: l)
  | l => l

/-- Digits grouped by thousands. -/
def grouped (l : Text) : Text := (commasRev l.reverse).reverse

/-- `'{0:,.pf}'.format(x)`, `meridian/analysis/visualizer.py:1721`. -/
def withCommas (x : ℚ) (p : ℕ) : Text :=
  let m := (rint (|x| * 10 ^ p)).toNat
  (if x < 0 then ['-'] else []) ++ grouped (intDigits (m / 10 ^ p) (m / 10 ^ p)) ++
    (if p = 0 then [] else '.' :: lastDigits p m)

/-- The same with NaN. -/
def numText (x : Num) (p : ℕ) : Text :=
  match x with
  | some q => withCommas q p
  | none => ['n', 'a', 'n']

/-- The percent sign and the currency, `meridian/analysis/visualizer.py:1723-1730`. -/
def affixed (nonPaid useRevenue : Bool) (currency : Text) (v : Var) (s : Text) : Text :=
  let t := if v ∈ percentage nonPaid then s ++ ['%'] else s
  if v ∈ monetary nonPaid useRevenue then currency ++ t else t

/-- One row of the table. -/
structure Row where
  channel : String
  dist : Dist
  text : Var → Option Text

/-- `f'{g[0]} ({g[1]}, {g[2]})'`, `meridian/analysis/visualizer.py:1743`. -/
def joined : List Text → Text
  | [a, b, c] => a ++ [' ', '('] ++ b ++ [',', ' '] ++ c ++ [')']
  | _ => []

/-- The text of a variable in the row of channel `c` and of a distribution. -/
def rowText (ds : Dataset) (nonPaid useRevenue : Bool) (currency : Text) (dists : List Dist) (c : ℕ)
    (dist : Dist) (v : Var) : Option Text :=
  if v ∈ inputVars nonPaid then
    some (affixed nonPaid useRevenue currency v
      (numText (ds.input v c) (decimals ds nonPaid dists v)))
  else if v ∈ resultVars nonPaid then
    some (joined ((statsOf v).map fun st => affixed nonPaid useRevenue currency v
      (numText (ds.result v dist st c) (decimals ds nonPaid dists v))))
  else none

/-- `summary_table`, `meridian/analysis/visualizer.py:1618-1746`. -/
def summaryTable (paid all : Dataset) (useKpi : Bool) (currency : Text) (includePrior includePosterior
    nonPaid : Bool) : Except Err (List Row) :=
  if !(includePosterior || includePrior) then .error .noDistribution
  else
    let ds := if nonPaid then all else paid
    let dists := distributions includePrior includePosterior
    .ok ((List.range ds.names.length).flatMap fun c => dists.map fun dist =>
      { channel := ds.names.getD c "", dist := dist
        text := rowText ds nonPaid (!useKpi) currency dists c dist })

end Verif.SummaryTable

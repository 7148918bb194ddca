import Verif.Model.Selection

/-!
# Coordinates of per-geo and per-time results

`meridian/analysis/analyzer.py`.  Data without modified times.
-/

namespace Verif.Labels

open Verif.Selection

/-- Geo coordinate of `incremental_outcome_xr`, `meridian/analysis/analyzer.py:1550-1561`. -/
def xrGeoLabels (geos : List String) : Option (List String) → List String
  | none => geos
  | some sel => geos.filter fun g => sel.contains g

/-- Time coordinate of `incremental_outcome_xr`, `meridian/analysis/analyzer.py:1563-1583`; `size` is
the size of the time dimension of the result.  `none` is a dimension without coordinate. -/
def xrTimeLabels (times : List String) (sel : Option (List Item)) (size : ℕ) :
    Option (List String) :=
  match sel with
  | none => if size = times.length then some times else none
  | some l =>
    if isStrList l then
      let f := times.filter fun t => (strs l).contains t
      if f.length = size then some f else none
    else if times.length = l.length then
      some ((times.zip l).filterMap fun p => if p.2 = .flag true then some p.1 else none)
    else none

/-- Geo coordinate of `summary_metrics` and `baseline_summary_metrics`,
`meridian/analysis/analyzer.py:2492-2498, 2881-2887`. -/
def summaryGeoLabels (geos : List String) (sel : Option (List String)) : List String :=
  sel.getD geos

/-- Time coordinate of `summary_metrics`, `meridian/analysis/analyzer.py:2499-2517`. -/
def summaryTimeLabels (times : List String) (ti : Option (List ℕ)) : List String :=
  match ti with
  | none => times
  | some idx => idx.map fun i => times.getD i ""

/-- Time coordinate of `baseline_summary_metrics`, `meridian/analysis/analyzer.py:2888-2894`. -/
def baselineTimeLabels (times : List String) (sel : Option (List Item)) : List Item :=
  sel.getD (times.map .str)

/-- `xarray` accepts a coordinate only if it has the size of its dimension. -/
def attach {α β : Type} (labels : List α) (rows : List β) : Option (List (α × β)) :=
  if labels.length = rows.length then some (labels.zip rows) else none

end Verif.Labels

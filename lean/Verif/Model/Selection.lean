import Mathlib.Algebra.BigOperators.Group.List.Basic
import Mathlib.Data.Real.Basic

/-!
# Selection of geos and times

`meridian/analysis/tensors.py` (`_resolve_geo_indices`, `_resolve_time_indices`,
`_validate_selected_times`) and `Analyzer.filter_and_aggregate_by_indices`
(`meridian/analysis/analyzer.py`).  The checks of tensor ranks are not modelled: tensors are
functions of a geo and a time index (one draw, one channel).
-/

namespace Verif.Selection

/-- Errors. -/
inductive Err where
  | unknownGeo
  | flagCount
  | unknownTime
  | mixedList
deriving DecidableEq

/-- An item of `selected_times`: a Python `str`, a Python `bool`, or something else. -/
inductive Item where
  | str (s : String)
  | flag (b : Bool)
  | other
deriving DecidableEq

/-- `_resolve_geo_indices`, `meridian/analysis/tensors.py:911-936`. -/
def resolveGeos (geos : List String) : Option (List String) → Except Err (Option (List ℕ))
  | none => .ok none
  | some sel =>
    if sel.any (fun g => !geos.contains g) then .error .unknownGeo
    else .ok (some ((List.range geos.length).filter fun i => sel.contains (geos.getD i "")))

/-- `_is_bool_list`, `meridian/analysis/tensors.py:88-90`. -/
def isBoolList (l : List Item) : Bool := l.all fun | .flag _ => true | _ => false

/-- `_is_str_list`, `meridian/analysis/tensors.py:93-95`. -/
def isStrList (l : List Item) : Bool := l.all fun | .str _ => true | _ => false

/-- The strings of a list. -/
def strs (l : List Item) : List String := l.filterMap fun | .str s => some s | _ => none

/-- `_is_normalized_subset`, `meridian/analysis/tensors.py:122-130`.  `norm` is `normalize_date_str`,
`none` where it raises. -/
def isNormalizedSubset (norm : String → Option String) (sub super : List String) : Bool :=
  sub.all (fun s => (norm s).isSome) && super.all (fun s => (norm s).isSome) &&
    sub.all fun s => super.any fun t => norm s == norm t

/-- `_validate_selected_times`, `meridian/analysis/tensors.py:133-173`. -/
def validateTimes (norm : String → Option String) (times : List String) (nTimes : ℕ)
    (sel : List Item) : Except Err Unit :=
  if sel.isEmpty then .ok ()
  else if isBoolList sel then
    if sel.length ≠ nTimes then .error .flagCount else .ok ()
  else if isStrList sel then
    if !isNormalizedSubset norm (strs sel) times then .error .unknownTime else .ok ()
  else .error .mixedList

/-- `_resolve_time_indices`, `meridian/analysis/tensors.py:938-974`. -/
def resolveTimes (norm : String → Option String) (times : List String) (nTimes : ℕ) :
    Option (List Item) → Except Err (Option (List ℕ))
  | none => .ok none
  | some sel =>
    match validateTimes norm times nTimes sel with
    | .error e => .error e
    | .ok () =>
      if isStrList sel then
        .ok (some ((List.range times.length).filter fun i =>
          (strs sel).any fun s => norm s == norm (times.getD i "")))
      else if isBoolList sel then
        .ok (some ((List.range sel.length).filter fun i => sel.getD i .other == .flag true))
      else .ok none

/-- `backend.gather` along an axis of length `n`; without indices the axis is unchanged. -/
def axis (n : ℕ) : Option (List ℕ) → List ℕ
  | none => List.range n
  | some idx => idx

/-- `filter_and_aggregate_by_indices`, `meridian/analysis/analyzer.py:595-701`: gather both axes,
then sum the aggregated ones.  The result is indexed by the positions of the remaining axes; a summed
axis has the single position 0. -/
def filterAggregate (x : ℕ → ℕ → ℝ) (nGeos nTimes : ℕ) (gi ti : Option (List ℕ))
    (aggGeos aggTimes : Bool) : List (List ℝ) :=
  let rows := (axis nGeos gi).map fun g => (axis nTimes ti).map fun t => x g t
  let rows := if aggTimes then rows.map fun r => [r.sum] else rows
  if aggGeos then
    let width := if aggTimes then 1 else (axis nTimes ti).length
    [(List.range width).map fun j => (rows.map fun r => r.getD j 0).sum]
  else rows

end Verif.Selection

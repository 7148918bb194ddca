import Mathlib.Data.Rat.Floor
import Mathlib.Algebra.BigOperators.Group.List.Basic
import Verif.Model.Selection

/-!
# Goodness of fit

`Analyzer.predictive_accuracy` and its helpers (`meridian/analysis/analyzer.py:79-93, 3206-3403`).

Arithmetic is exact; NaN and the infinities are kept because the code uses NaN for "not in this
evaluation set" and because a division by zero is reachable.  Zero is unsigned: dividing a positive
number by zero gives `+inf`.  `expected_outcome` is an input here (it is the subject of other
properties): one array of geos by times for each draw.  The choice between KPI and revenue
(`_use_kpi`) is made before: `outcome` is the chosen one.
-/

namespace Verif.Accuracy

open Verif.Selection (Item)

/-- An IEEE number, without rounding and without signed zeros. -/
inductive Fl where
  | nan
  | pinf
  | ninf
  | fin (q : ℚ)
deriving DecidableEq

namespace Fl

/-- IEEE addition. -/
def add : Fl → Fl → Fl
  | nan, _ => nan
  | _, nan => nan
  | pinf, ninf => nan
  | ninf, pinf => nan
  | pinf, _ => pinf
  | _, pinf => pinf
  | ninf, _ => ninf
  | _, ninf => ninf
  | fin a, fin b => fin (a + b)

/-- Negation. -/
def neg : Fl → Fl
  | nan => nan
  | pinf => ninf
  | ninf => pinf
  | fin a => fin (-a)

/-- IEEE subtraction. -/
def sub (a b : Fl) : Fl := add a (neg b)

/-- `backend.absolute`. -/
def abs : Fl → Fl
  | nan => nan
  | pinf => pinf
  | ninf => pinf
  | fin a => fin |a|

/-- `x ** 2`. -/
def sq : Fl → Fl
  | nan => nan
  | pinf => pinf
  | ninf => pinf
  | fin a => fin (a * a)

/-- IEEE division; the zero divisor is `+0`. -/
def div : Fl → Fl → Fl
  | nan, _ => nan
  | _, nan => nan
  | fin a, fin b =>
    if b = 0 then (if a = 0 then nan else if 0 < a then pinf else ninf) else fin (a / b)
  | fin _, _ => fin 0
  | pinf, fin b => if b < 0 then ninf else pinf
  | ninf, fin b => if b < 0 then pinf else ninf
  | _, _ => nan

/-- `isnan`. -/
def isNan : Fl → Bool
  | nan => true
  | _ => false

end Fl

/-- The sum of an array. -/
def sum (l : List Fl) : Fl := l.foldr Fl.add (.fin 0)

/-- The entries that are not NaN. -/
def present (l : List Fl) : List Fl := l.filter fun x => !x.isNan

/-- `backend.nansum`, `meridian/backend/__init__.py:729-734`. -/
def nansum (l : List Fl) : Fl := sum (present l)

/-- `backend.nanmean`, `meridian/backend/__init__.py:721-726`: NaN for no entries (0/0). -/
def nanmean (l : List Fl) : Fl := (nansum l).div (.fin (present l).length)

/-- `backend.nanvar`, `meridian/backend/__init__.py:737-747`. -/
def nanvar (l : List Fl) : Fl := nanmean (l.map fun x => (x.sub (nanmean l)).sq)

/-- `_calc_rsquared`, `meridian/analysis/analyzer.py:79-81`. -/
def calcRsquared (expected actual : List Fl) : Fl :=
  (Fl.fin 1).sub ((nanmean ((expected.zip actual).map fun p => (p.1.sub p.2).sq)).div
    (nanvar actual))

/-- `_calc_mape`, `meridian/analysis/analyzer.py:84-86`. -/
def calcMape (expected actual : List Fl) : Fl :=
  nanmean ((expected.zip actual).map fun p => ((p.2.sub p.1).div p.2).abs)

/-- `_calc_weighted_mape`, `meridian/analysis/analyzer.py:89-93`. -/
def calcWeightedMape (expected actual : List Fl) : Fl :=
  (nansum ((expected.zip actual).map fun p => (p.2.sub p.1).abs)).div (nansum actual)

/-- The three metrics, in the order of `METRICS_SET` (`meridian/constants.py:648`). -/
structure Row where
  rsquared : Fl
  mape : Fl
  wmape : Fl
deriving DecidableEq

/-- `_predictive_accuracy_helper`, `meridian/analysis/analyzer.py:3356-3379`. -/
def helper (actual expected : List Fl) : Row :=
  ⟨calcRsquared expected actual, calcMape expected actual, calcWeightedMape expected actual⟩

/-- A two-dimensional array. -/
structure Mat (α : Type) where
  rows : ℕ
  cols : ℕ
  at_ : ℕ → ℕ → α

/-- All the entries, row by row (the reductions run over both axes). -/
def Mat.flat {α : Type} (m : Mat α) : List α :=
  (List.range m.rows).flatMap fun i => (List.range m.cols).map fun j => m.at_ i j

/-- One list for each column. -/
def Mat.columns {α : Type} (m : Mat α) : List (List α) :=
  (List.range m.cols).map fun j => (List.range m.rows).map fun i => m.at_ i j

/-- `backend.gather` along both axes (`filter_and_aggregate_by_indices` without aggregation,
`meridian/analysis/analyzer.py:690-701`); also the boolean-mask indexing of an array. -/
def gather {α : Type} (x : ℕ → ℕ → α) (gi ti : List ℕ) : Mat α :=
  ⟨gi.length, ti.length, fun i j => x (gi.getD i 0) (ti.getD j 0)⟩

/-- Numpy broadcasting of one dimension. -/
def bdim (a b : ℕ) : Option ℕ :=
  if a = b then some a else if a = 1 then some b else if b = 1 then some a else none

/-- The position read along an axis of length `n` after broadcasting. -/
def bidx (n i : ℕ) : ℕ := if n = 1 then 0 else i

/-- `np.where(cond, np.nan, x)` (`whenTrue = false`) and `np.where(cond, x, np.nan)`
(`whenTrue = true`), `meridian/analysis/analyzer.py:3327-3330`: `none` where numpy refuses to
broadcast. -/
def where_ (cond : Mat Bool) (x : Mat ℚ) (whenTrue : Bool) : Option (Mat Fl) :=
  match bdim cond.rows x.rows, bdim cond.cols x.cols with
  | some r, some c => some ⟨r, c, fun i j =>
      if cond.at_ (bidx cond.rows i) (bidx cond.cols j) = whenTrue
      then .fin (x.at_ (bidx x.rows i) (bidx x.cols j)) else .nan⟩
  | _, _ => none

/-- `lambda x: np.where(np.all(np.isnan(x), 0), np.nan, np.nansum(x, 0))`,
`meridian/analysis/analyzer.py:3324-3326`. -/
def nansumColumns (m : Mat Fl) : List Fl :=
  m.columns.map fun c => if c.all Fl.isNan then .nan else nansum c

/-- `np.sum(x, 0)`, `meridian/analysis/analyzer.py:3303`. -/
def sumColumns (m : Mat ℚ) : List Fl := m.columns.map fun c => .fin c.sum

/-- The array as numbers. -/
def Mat.toFl (m : Mat ℚ) : List Fl := m.flat.map .fin

/-- The parts of the model context that are used.  `hold` is `model_spec.holdout_id`: geos by times,
or (for a national model) times only, kept here as row 0.  Its shape has been checked
(`meridian/model/context.py:144-163`). -/
structure Ctx where
  national : Bool
  geos : List String
  times : List String
  hold : Option (ℕ → ℕ → Bool)
  outcome : ℕ → ℕ → ℚ
  draws : List (ℕ → ℕ → ℚ)

/-- `np.mean(expected_outcome, (0, 1))`, `meridian/analysis/analyzer.py:3295-3300`; there is at least
one draw. -/
def Ctx.expected (c : Ctx) (g t : ℕ) : ℚ := (c.draws.map fun d => d g t).sum / c.draws.length

/-- `geo_granularity` coordinate. -/
inductive Gran where
  | geo
  | national
deriving DecidableEq

/-- `evaluation_set` coordinate. -/
inductive EvalSet where
  | train
  | test
  | all
deriving DecidableEq

/-- Errors. -/
inductive Err where
  | selection (e : Verif.Selection.Err)
  | broadcast
deriving DecidableEq

/-- The returned dataset: coordinates and values.  Without a holdout there is no evaluation-set
coordinate. -/
abbrev Dataset := List ((Gran × Option EvalSet) × Row)

/-- The rows of `holdout_id` kept by the geo mask, `meridian/analysis/analyzer.py:3389-3391`.  The
array of a national model has no geo axis; numpy broadcasts it as one row. -/
def maskGeos (c : Ctx) (selGeos : Option (List String)) : List ℕ :=
  if c.national then [0]
  else match selGeos with
    | none => List.range c.geos.length
    | some sel => (List.range c.geos.length).filter fun i => sel.contains (c.geos.getD i "")

/-- The columns of `holdout_id` kept by the time mask, `meridian/analysis/analyzer.py:3393-3401`.
`x in selected_times` compares the text of the time coordinate with each item; a `bool` item never
equals it. -/
def maskTimes (c : Ctx) : Option (List Item) → List ℕ
  | none => List.range c.times.length
  | some sel =>
    (List.range c.times.length).filter fun i => sel.contains (Item.str (c.times.getD i ""))

/-- `_filter_holdout_id_for_selected_geos_and_times`, `meridian/analysis/analyzer.py:3381-3403`. -/
def filterHoldout (c : Ctx) (hold : ℕ → ℕ → Bool) (selGeos : Option (List String))
    (selTimes : Option (List Item)) : Mat Bool :=
  gather hold (maskGeos c selGeos) (maskTimes c selTimes)

/-- The rows of one granularity without holdout, `meridian/analysis/analyzer.py:3301-3313`. -/
def allRows (actual expected : Mat ℚ) : Row × Row :=
  (helper actual.toFl expected.toFl, helper (sumColumns actual) (sumColumns expected))

/-- The rows of an evaluation set, `meridian/analysis/analyzer.py:3332-3339`. -/
def splitRows (actual expected : Mat Fl) : Row × Row :=
  (helper actual.flat expected.flat, helper (nansumColumns actual) (nansumColumns expected))

/-- `dataset.sel(geo_granularity=[NATIONAL])` for a national model,
`meridian/analysis/analyzer.py:3351-3353`. -/
def dropGeo (c : Ctx) (d : Dataset) : Dataset :=
  if c.national then d.filter fun r => r.1.1 = .national else d

/-- `predictive_accuracy`, `meridian/analysis/analyzer.py:3206-3354`. -/
def predictiveAccuracy (norm : String → Option String) (c : Ctx) (selGeos : Option (List String))
    (selTimes : Option (List Item)) : Except Err Dataset :=
  match Verif.Selection.resolveGeos c.geos selGeos with
  | .error e => .error (.selection e)
  | .ok gi =>
    match Verif.Selection.resolveTimes norm c.times c.times.length selTimes with
    | .error e => .error (.selection e)
    | .ok ti =>
      let gs := Verif.Selection.axis c.geos.length gi
      let ts := Verif.Selection.axis c.times.length ti
      let actual := gather c.outcome gs ts
      let expected := gather c.expected gs ts
      let all := allRows actual expected
      match c.hold with
      | none => .ok (dropGeo c [((.geo, none), all.1), ((.national, none), all.2)])
      | some hold =>
        let h := filterHoldout c hold selGeos selTimes
        match where_ h actual false, where_ h actual true, where_ h expected false,
            where_ h expected true with
        | some aTrain, some aTest, some eTrain, some eTest =>
          let train := splitRows aTrain eTrain
          let test := splitRows aTest eTest
          .ok (dropGeo c
            [((.geo, some .train), train.1), ((.geo, some .test), test.1),
             ((.geo, some .all), all.1),
             ((.national, some .train), train.2), ((.national, some .test), test.2),
             ((.national, some .all), all.2)])
        | _, _, _, _ => .error .broadcast

end Verif.Accuracy

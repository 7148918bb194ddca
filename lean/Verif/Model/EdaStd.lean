import Mathlib.Data.Real.Basic
import Mathlib.Analysis.Real.Sqrt
import Mathlib.Data.Rat.Cast.Order
import Verif.Model.Interval

/-!
# Standard deviations, outliers and cost per media unit before modelling

The checks of `meridian/model/eda/eda_engine.py` that look at one variable at a time along the time
axis.  Numbers are exact and may be NaN.  A `DataArray` is modelled as the list of its series along
time, one for each combination of the other coordinates (geo and variable, or variable); an infinite
value is not modelled.  Texts of the findings are not modelled.
-/

namespace Verif.EdaStd

open Verif.Interval (quantileFin)

/-- A `DataArray` with a time axis: the series along time under the labels of the other axes. -/
abbrev Data := List (String × List Num)

/-- The numbers that are not NaN: what xarray's `quantile` and `std` see of a series, as they skip NaN
in float data (`meridian/model/eda/eda_engine.py:292-293, 316, 322`). -/
def values (x : List Num) : List ℚ := x.filterMap id

/-- `_get_outlier_bounds`, `meridian/model/eda/eda_engine.py:280-297`, with the constants of
`meridian/model/eda/constants.py:40-42`; NaN for a series without numbers. -/
def bounds (x : List Num) : Option (ℚ × ℚ) :=
  if values x = [] then none
  else
    let q1 := quantileFin (values x) (1 / 4)
    let q3 := quantileFin (values x) (3 / 4)
    some (q1 - 3 / 2 * (q3 - q1), q3 + 3 / 2 * (q3 - q1))

/-- `(input_da >= lower_bound) & (input_da <= upper_bound)`,
`meridian/model/eda/eda_engine.py:319-321`. -/
def inBounds (b : Option (ℚ × ℚ)) : Num → Bool
  | none => false
  | some v =>
    match b with
    | none => false
    | some (lo, hi) => decide (lo ≤ v ∧ v ≤ hi)

/-- `(input_da < lower_bound) | (input_da > upper_bound)`,
`meridian/model/eda/eda_engine.py:344`. -/
def outOfBounds (b : Option (ℚ × ℚ)) : Num → Bool
  | none => false
  | some v =>
    match b with
    | none => false
    | some (lo, hi) => decide (v < lo ∨ hi < v)

/-- `input_da.where(...)` for the values that are kept, `meridian/model/eda/eda_engine.py:319-321`. -/
def withoutOutliers (x : List Num) : List Num :=
  x.map fun v => if inBounds (bounds x) v then v else none

/-- `std(dim=time, ddof=1)`, `meridian/model/eda/eda_engine.py:316, 322`: NaN with less than two
numbers. -/
noncomputable def std1 (x : List Num) : Option ℝ :=
  let v := values x
  if v.length ≤ 1 then none
  else
    let m := v.sum / v.length
    some (Real.sqrt (((v.map fun a => (a - m) ^ 2).sum / (v.length - 1) : ℚ) : ℝ))

/-- `_calculate_std`, `meridian/model/eda/eda_engine.py:300-326`: for each series the standard
deviations with and without outliers. -/
noncomputable def calculateStd (d : Data) : List (String × Option ℝ × Option ℝ) :=
  d.map fun s => (s.1, std1 s.2, std1 (withoutOutliers s.2))

/-- A row of the table of outliers: label, position in time, value. -/
structure Row where
  label : String
  time : ℕ
  value : ℚ
deriving DecidableEq

/-- The rows of one series that are not dropped, `meridian/model/eda/eda_engine.py:344-346`. -/
def seriesOutliers (s : String × List Num) : List Row :=
  s.2.zipIdx.filterMap fun p =>
    if outOfBounds (bounds s.2) p.1 then p.1.map fun v => ⟨s.1, p.2, v⟩ else none

/-- `_calculate_outliers`, `meridian/model/eda/eda_engine.py:329-357`: the rows by decreasing absolute
value (the order of rows with the same absolute value is not specified by the code; here they keep
their order). -/
def calculateOutliers (d : Data) : List Row :=
  (d.flatMap seriesOutliers).insertionSort fun a b => |b.value| ≤ |a.value|

inductive Severity where
  | info
  | attention
  | error
deriving DecidableEq

inductive Cause where
  | none
  | variability
  | outlier
  | inconsistent
deriving DecidableEq

/-- What is checked, `meridian/model/eda/eda_engine.py:1818-1876, 1918-1973`. -/
inductive Kind where
  | kpi
  | treatmentsControls
  | reach
  | frequency
deriving DecidableEq

/-- A finding: its subject stands for the text. -/
structure Finding where
  severity : Severity
  cause : Cause
  subject : Option Kind
deriving DecidableEq

inductive Level where
  | geo
  | national
deriving DecidableEq

/-- `std < std_threshold`, false for NaN. -/
def lowStd (threshold : ℝ) : Option ℝ → Prop
  | none => False
  | some s => s < threshold

/-- The artifact of one variable. -/
structure Artifact where
  subject : Kind
  level : Level
  std : List (String × Option ℝ × Option ℝ)
  outliers : List Row

open Classical in
/-- `_check_std`, `meridian/model/eda/eda_engine.py:1761-1806`. -/
noncomputable def checkData (level : Level) (threshold : ℝ) (k : Kind) (d : Data) :
    List Finding × Artifact :=
  ((if ∃ r ∈ calculateStd d, lowStd threshold r.2.2
      then [⟨.attention, .variability, some k⟩] else []) ++
    (if calculateOutliers d = [] then [] else [⟨.attention, .outlier, some k⟩]),
   ⟨k, level, calculateStd d, calculateOutliers d⟩)

/-- What the engine holds: for both levels the scaled KPI, the scaled treatments and controls, the
scaled reach and the frequency (`None` if there is none), and the thresholds of the specification
(`meridian/model/eda/eda_spec.py:89-102`). -/
structure Engine where
  isNational : Bool
  data : Level → Kind → Option Data
  threshold : Level → ℝ

/-- The order of the checks, `meridian/model/eda/eda_engine.py:1818-1876`. -/
def kinds : List Kind := [.kpi, .treatmentsControls, .reach, .frequency]

/-- The loop over the checks, `meridian/model/eda/eda_engine.py:1878-1890, 1975-1987`. -/
noncomputable def loop (e : Engine) (level : Level) : List Kind → List Finding × List Artifact
  | [] => ([], [])
  | k :: rest =>
    match e.data level k with
    | none => loop e level rest
    | some d =>
      ((checkData level (e.threshold level) k d).1 ++ (loop e level rest).1,
       (checkData level (e.threshold level) k d).2 :: (loop e level rest).2)

/-- The outcome, `meridian/model/eda/eda_engine.py:1892-1908, 1989-2005`. -/
noncomputable def outcome (e : Engine) (level : Level) : List Finding × List Artifact :=
  if (loop e level kinds).1 = [] then ([⟨.info, .none, none⟩], (loop e level kinds).2)
  else loop e level kinds

/-- Errors: a check for geos of national data. -/
inductive Err where
  | nationalModel
deriving DecidableEq

/-- `check_geo_std`, `meridian/model/eda/eda_engine.py:1808-1909`. -/
noncomputable def checkGeoStd (e : Engine) : Except Err (List Finding × List Artifact) :=
  if e.isNational then .error .nationalModel else .ok (outcome e .geo)

/-- `check_national_std`, `meridian/model/eda/eda_engine.py:1911-2006`. -/
noncomputable def checkNationalStd (e : Engine) : List Finding × List Artifact :=
  outcome e .national

/-- `check_std`, `meridian/model/eda/eda_engine.py:2008-2019`. -/
noncomputable def checkStd (e : Engine) : Except Err (List Finding × List Artifact) :=
  if e.isNational then .ok (checkNationalStd e) else checkGeoStd e

/-! ## Cost per media unit -/

/-- Cost and media units on common labels and times: the series of pairs
(`meridian/model/eda/eda_engine.py:446-449`; both come from the same channels and times). -/
abbrev CostData := List (String × List (Num × Num))

/-- A row of the tables of the check. -/
structure CostRow where
  label : String
  time : ℕ
  cost : ℚ
  units : ℚ
deriving DecidableEq

/-- The rows under a condition; rows with NaN are dropped
(`meridian/model/eda/eda_engine.py:422-424, 428-430`). -/
def costRows (p : ℚ → ℚ → Bool) (d : CostData) : List CostRow :=
  d.flatMap fun s => s.2.zipIdx.filterMap fun q =>
    match q.1 with
    | (some c, some u) => if p c u then some ⟨s.1, q.2, c, u⟩ else none
    | _ => none

/-- `_check_cost_media_unit_inconsistency`, `meridian/model/eda/eda_engine.py:403-434`. -/
def inconsistent (d : CostData) : List CostRow :=
  costRows (fun c u => decide (c = 0 ∧ 0 < u)) d ++ costRows (fun c u => decide (0 < c ∧ u = 0)) d

/-- `xr.where(media_units_da == 0, np.nan, cost_da / media_units_da)`,
`meridian/model/eda/eda_engine.py:460-464`. -/
def perUnit : Num × Num → Num
  | (some c, some u) => if u = 0 then none else some (c / u)
  | _ => none

/-- `cost_per_media_unit_da`, `meridian/model/eda/eda_engine.py:460-465`. -/
def costPerUnit (d : CostData) : Data := d.map fun s => (s.1, s.2.map perUnit)

/-- The findings of `_check_cost_per_media_unit`, `meridian/model/eda/eda_engine.py:495-529`. -/
def costFindings (d : CostData) : List Finding :=
  let found : List Finding :=
    (if inconsistent d = [] then [] else [⟨.attention, .inconsistent, none⟩]) ++
    (if calculateOutliers (costPerUnit d) = [] then [] else [⟨.attention, .outlier, none⟩])
  if found = [] then [⟨.info, .none, none⟩] else found

/-- The artifact of the check (spend and units, which the table of outliers repeats, are left out of
it). -/
structure CostArtifact where
  level : Level
  perUnit : Data
  inconsistent : List CostRow
  outliers : List Row
deriving DecidableEq

/-- `_check_cost_per_media_unit`, `meridian/model/eda/eda_engine.py:437-535`. -/
def checkCost (level : Level) (d : CostData) : List Finding × CostArtifact :=
  (costFindings d, ⟨level, costPerUnit d, inconsistent d, calculateOutliers (costPerUnit d)⟩)

/-- `check_geo_cost_per_media_unit`, `meridian/model/eda/eda_engine.py:2260-2280`. -/
def checkGeoCost (isNational : Bool) (d : Level → CostData) :
    Except Err (List Finding × CostArtifact) :=
  if isNational then .error .nationalModel else .ok (checkCost .geo (d .geo))

/-- `check_national_cost_per_media_unit`, `meridian/model/eda/eda_engine.py:2282-2294`. -/
def checkNationalCost (d : Level → CostData) : List Finding × CostArtifact :=
  checkCost .national (d .national)

/-- `check_cost_per_media_unit`, `meridian/model/eda/eda_engine.py:2296-2312`. -/
def checkCostPerUnit (isNational : Bool) (d : Level → CostData) :
    Except Err (List Finding × CostArtifact) :=
  if isNational then .ok (checkNationalCost d) else checkGeoCost isNational d

end Verif.EdaStd

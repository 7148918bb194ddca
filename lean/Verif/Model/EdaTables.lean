import Verif.Model.EdaStack
import Verif.Model.EdaMore
import Mathlib.Data.List.Sort
import Mathlib.Order.Lattice

/-!
# The tables of R-squared and of the adequacy of the data

`check_variable_geo_time_collinearity` on the stacked variables, the two tables of the report made of it, the
check of names of the input data, and the table of data and parameters.  The R-squared of a group of series is
a function of the group (`EdaMore.adjRsq` for a group of one); `none` is NaN.
-/

namespace Verif.EdaTables

open Verif.EdaStack

/-- Each name once. -/
def distinctNames : List String → List String
  | [] => []
  | a :: l => a :: (distinctNames l).filter fun b => b ≠ a

/-- `groupby(VARIABLE).map(…)`, `meridian/model/eda/eda_engine.py:2375-2379`: one value for each name, made of
all series with this name. -/
def byName {σ κ : Type} (f : List σ → Option κ) (stacked : List (String × σ)) : List (String × Option κ) :=
  (distinctNames (stacked.map Prod.fst)).map fun n =>
    (n, f ((stacked.filter fun x => x.1 = n).map Prod.snd))

/-- The order of `sort_values(ascending=False)`: NaN last. -/
def notAfter {κ : Type} [LinearOrder κ] (a b : String × Option κ) : Bool :=
  match a.2, b.2 with
  | _, none => true
  | none, some _ => false
  | some x, some y => decide (y ≤ x)

/-- `DISPLAY_LIMIT`, `meridian/model/eda/constants.py:153`. -/
def displayLimit : ℕ := 5

/-- The rows of a table of `_generate_r_squared_tables`, `meridian/model/eda/meridian_eda.py:1923-1929`,
without the format of the numbers.  Simplified: the order of equal numbers is that of the names; in the code
it is not specified. -/
def tableRows {κ : Type} [LinearOrder κ] (values : List (String × Option κ)) : List (String × Option κ) :=
  (values.insertionSort fun a b => notAfter a b = true).take displayLimit

/-- The note under the table, `meridian/model/eda/meridian_eda.py:1930-1935, 2174-2198`: the number of channels
to review, if not all are shown. -/
def tableNote {κ : Type} (values : List (String × Option κ)) : Option ℕ :=
  if values.length ≤ displayLimit then none else some values.length

/-- The names of the channels of one kind. -/
def namesOf {α : Type} (p : Data α) (d : Dim) : List String := ((p d).getD []).map Prod.fst

/-- `get_all_channels`, `meridian/data/input_data.py:1049-1065`. -/
def allChannels {α : Type} (p : Data α) : List String :=
  [Dim.mediaChannel, .rfChannel, .organicMediaChannel, .organicRfChannel, .nonMediaChannel].flatMap (namesOf p)

/-- `_validate_media_channels`, `meridian/data/input_data.py:793-801`. -/
def namesAccepted {α : Type} (p : Data α) : Bool := (distinctNames (allChannels p)).length == (allChannels p).length

/-- `check_data_param_ratio`, `meridian/model/eda/eda_engine.py:2518-2545`. -/
def dataRatio {α : Type} (geos times knots : ℕ) (p : Data α) : EdaMore.Ratio where
  geos := geos
  times := times
  knots := knots
  controls := ((p .controlVariable).getD []).length
  treatments := ((p .mediaChannel).getD []).length + ((p .rfChannel).getD []).length +
    ((p .organicMediaChannel).getD []).length + ((p .organicRfChannel).getD []).length +
    ((p .nonMediaChannel).getD []).length

/-- The rows of the table of `_generate_data_adequacy_callouts` after the first,
`meridian/model/eda/meridian_eda.py:1308-1317`. -/
def adequacyRows (r : EdaMore.Ratio) : List (String × ℤ) :=
  [("n_geos", r.geos), ("n_times", r.times), ("n_knots", r.knots), ("n_controls", r.controls),
    ("n_treatments", r.treatments), ("n_parameters", r.parameters), ("n_data_points", r.dataPoints)]

end Verif.EdaTables

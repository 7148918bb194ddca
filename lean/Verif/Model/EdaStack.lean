import Mathlib.Data.List.Basic

/-!
# Stacking the variables of the exploratory analysis

`stack_variables` of `meridian/model/eda/eda_engine.py` and the datasets it is used on.  `α` is the series of
one channel, for all geos and times.  Of `xarray`: the dimensions of a merged dataset, or of a selection of
variables, come in the order in which they first occur in the variables; the arrays of a merge have the same
coordinates on the dimensions they share.
-/

namespace Verif.EdaStack

/-- The dimensions, `meridian/constants.py`. -/
inductive Dim where
  | time
  | geo
  | mediaChannel
  | rfChannel
  | organicMediaChannel
  | organicRfChannel
  | controlVariable
  | nonMediaChannel
deriving DecidableEq

/-- The dimensions that are kept, `meridian/model/eda/eda_engine.py:190`. -/
def isSample : Dim → Bool
  | .time => true
  | .geo => true
  | _ => false

/-- A data array: its dimensions `time` and `geo`, the dimension of its channels if any, and the series.
Simplified: no array has two dimensions of channels. -/
structure Arr (α : Type) where
  name : String
  sample : List Dim
  chan : Option Dim
  values : List α

/-- A dataset. -/
structure Dataset (α : Type) where
  dims : List Dim
  coords : Dim → List String
  vars : List (Arr α)

inductive Err where
  | noVariables
  | missingDimension
  | conflictingSizes
deriving DecidableEq

/-- The elements in the order in which they first occur. -/
def firsts : List Dim → List Dim
  | [] => []
  | d :: rest => d :: (firsts rest).filter (· ≠ d)

/-- `xr.merge(to_merge, join='inner')`. -/
def merge {α : Type} (coords : Dim → List String) (arrs : List (Arr α)) : Dataset α where
  dims := firsts (arrs.flatMap fun a => a.sample ++ a.chan.toList)
  coords := coords
  vars := arrs

/-- `stack_variables`, `meridian/model/eda/eda_engine.py:169-198`: the labels are collected over the
dimensions of the dataset, the series over its variables (`to_stacked_array`, which needs the kept dimensions
in every variable), and `assign_coords` needs as many labels as series. -/
def stackVariables {α : Type} (ds : Dataset α) : Except Err (List (String × α)) :=
  let sampleDims := ds.dims.filter isSample
  let dims := ds.dims.filter fun d => !isSample d
  let labels := dims.flatMap ds.coords
  let series := ds.vars.flatMap Arr.values
  if ds.vars.isEmpty then .error .noVariables
  else if ds.vars.any fun v => sampleDims.any fun d => !(v.sample.contains d) then .error .missingDimension
  else if labels.length ≠ series.length then .error .conflictingSizes
  else .ok (labels.zip series)

/-- The arrays of the engine: for each dimension of channels the channels with their series, if there are
any. -/
abbrev Data (α : Type) := Dim → Option (List (String × α))

/-- The coordinates. -/
def coordsOf {α : Type} (p : Data α) (d : Dim) : List String := ((p d).getD []).map Prod.fst

/-- The array of one dimension, or `None`. -/
def arrOf {α : Type} (sample : List Dim) (p : Data α) (nd : String × Dim) : Option (Arr α) :=
  (p nd.2).map fun cs => ⟨nd.1, sample, some nd.2, cs.map Prod.snd⟩

/-- `treatment_control_scaled_ds`, `meridian/model/eda/eda_engine.py:1061-1079`, and the national one,
1121-1140 (`sample` without `geo`). -/
def treatmentControl {α : Type} (sample : List Dim) (p : Data α) : List (Arr α) :=
  [("media_scaled", Dim.mediaChannel), ("rf_impressions_scaled", .rfChannel),
    ("organic_media_scaled", .organicMediaChannel), ("organic_rf_impressions_scaled", .organicRfChannel),
    ("controls_scaled", .controlVariable), ("non_media_treatments_scaled", .nonMediaChannel)].filterMap
    (arrOf sample p)

/-- `all_spend_ds`, `meridian/model/eda/eda_engine.py:1083-1096`. -/
def allSpend {α : Type} (sample : List Dim) (p : Data α) : List (Arr α) :=
  [("media_spend", Dim.mediaChannel), ("rf_spend", .rfChannel)].filterMap (arrOf sample p)

/-- `paid_raw_media_units_ds`, `meridian/model/eda/eda_engine.py:1291-1300`. -/
def paidUnits {α : Type} (sample : List Dim) (p : Data α) : List (Arr α) :=
  [("media", Dim.mediaChannel), ("rf_impressions", .rfChannel)].filterMap (arrOf sample p)

/-- The dataset of `check_population_corr_raw_media`, `meridian/model/eda/eda_engine.py:2501-2513`. -/
def rawMedia {α : Type} (sample : List Dim) (p : Data α) : List (Arr α) :=
  [("media", Dim.mediaChannel), ("organic_media", .organicMediaChannel), ("reach", .rfChannel),
    ("organic_reach", .organicRfChannel)].filterMap (arrOf sample p)

/-- `drop_dims`, as in `treatments_without_non_media_scaled_ds`,
`meridian/model/eda/eda_engine.py:1150-1155`. -/
def dropDims {α : Type} (ds : List Dim) (arrs : List (Arr α)) : List (Arr α) :=
  arrs.filter fun a => !(a.sample ++ a.chan.toList).any fun d => ds.contains d

/-- `treatments_without_non_media_scaled_ds`. -/
def withoutNonMedia {α : Type} (sample : List Dim) (p : Data α) : List (Arr α) :=
  dropDims [.nonMediaChannel, .controlVariable] (treatmentControl sample p)

/-- `_get_vars_from_dataset`, `meridian/model/eda/eda_engine.py:137-143`. -/
def getVars {α : Type} (arrs : List (Arr α)) (names : List String) : Option (List (Arr α)) :=
  let kept := arrs.filter fun a => names.contains a.name
  if kept.isEmpty then none else some kept

/-- `controls_and_non_media_scaled_ds`, `meridian/model/eda/eda_engine.py:1166-1171`. -/
def controlsAndNonMedia {α : Type} (sample : List Dim) (p : Data α) : Option (List (Arr α)) :=
  getVars (treatmentControl sample p) ["controls_scaled", "non_media_treatments_scaled"]

end Verif.EdaStack

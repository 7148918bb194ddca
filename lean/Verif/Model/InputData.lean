import Verif.Model.Num

/-!
# Validation of the input data

`meridian/data/input_data.py` and `meridian/data/validator.py`.  An array is its name, the list of
its dimensions, the coordinates of each dimension, and the list of all its values (`none` is NaN).
Simplifications: every dimension of an array has a coordinate, and an array has no other coordinates;
object arrays are numeric; the conversion of geo names to strings (331-336) and the check of the
currency code (303-316, which does not reject strings) are left out.
-/

namespace Verif.InputData

structure Arr where
  name : String
  dims : List String
  coord : String → List String
  vals : List Num

structure Input where
  kpi : Arr
  kpiType : String
  population : Arr
  controls : Option Arr := none
  revenuePerKpi : Option Arr := none
  media : Option Arr := none
  mediaSpend : Option Arr := none
  reach : Option Arr := none
  frequency : Option Arr := none
  rfSpend : Option Arr := none
  organicMedia : Option Arr := none
  organicReach : Option Arr := none
  organicFrequency : Option Arr := none
  nonMedia : Option Arr := none

inductive Err
  | na | kpiType | zeroRevenue | name | dims | dimMatch | coords | noPaid | channels | timeFormat
  | shortTime | spacing | geoUnique | geoMatch | negative
  deriving DecidableEq, Repr

/-- `a.isnull().any(axis=None)`. -/
def hasNa (a : Arr) : Bool := a.vals.any Option.isNone

/-- `_validate_nas`, `meridian/data/input_data.py:338-388`. -/
def anyNa (d : Input) : Bool :=
  ([some d.kpi, some d.population, d.controls, d.revenuePerKpi, d.mediaSpend, d.rfSpend, d.nonMedia,
    d.media, d.reach, d.frequency, d.organicMedia, d.organicReach, d.organicFrequency].filterMap
      id).any hasNa

/-- `(a.values == 0).all()`. -/
def allZero (a : Arr) : Bool := a.vals.all fun v => v == some 0

/-- `(a.values < 0).any()`. -/
def anyNegative (a : Arr) : Bool := a.vals.any fun v =>
  match v with
  | some q => decide (q < 0)
  | none => false

/-- The array of ones of `_validate_scenarios`, `meridian/data/input_data.py:581-593`. -/
def onesLike (kpi : Arr) : Arr where
  name := "revenue_per_kpi"
  dims := ["geo", "time"]
  coord := kpi.coord
  vals := List.replicate ((kpi.coord "geo").length * (kpi.coord "time").length) (some 1)

/-- `_validate_scenarios`, `meridian/data/input_data.py:579-613`: revenue per KPI is one when the KPI
is revenue. -/
def withRevenue (d : Input) : Input :=
  if d.kpiType = "revenue" then { d with revenuePerKpi := some (onesLike d.kpi) } else d

/-- `array is not None and array.name != name`. -/
def badName : Option Arr × String → Bool
  | (none, _) => false
  | (some a, n) => a.name != n

/-- `_validate_names`, `meridian/data/input_data.py:656-677`, with
`POSSIBLE_INPUT_DATA_ARRAY_NAMES`, `meridian/constants.py:80-106`. -/
def namesOk (d : Input) : Bool :=
  !([(some d.kpi, "kpi"), (some d.population, "population"), (d.controls, "controls"),
    (d.revenuePerKpi, "revenue_per_kpi"), (d.organicMedia, "organic_media"),
    (d.organicReach, "organic_reach"), (d.organicFrequency, "organic_frequency"),
    (d.nonMedia, "non_media_treatments"), (d.media, "media"), (d.mediaSpend, "media_spend"),
    (d.reach, "reach"), (d.frequency, "frequency"), (d.rfSpend, "rf_spend")].any badName)

/-- `set(a) == set(b)`. -/
def sameSet (a b : List String) : Bool :=
  (a.all fun x => b.contains x) && b.all fun x => a.contains x

/-- `_check_dim_collection`, `meridian/data/input_data.py:44-65`. -/
def dimsOk : Option Arr → List (List String) → Bool
  | none, _ => true
  | some a, ds => ds.any fun d => sameSet a.dims d

/-- First part of `_validate_dimensions`, `meridian/data/input_data.py:681-735`. -/
def allDimsOk (d : Input) : Bool :=
  dimsOk (some d.kpi) [["geo", "time"]] &&
  dimsOk d.revenuePerKpi [["geo", "time"]] &&
  dimsOk d.media [["geo", "media_time", "media_channel"]] &&
  dimsOk d.controls [["geo", "time", "control_variable"]] &&
  dimsOk d.mediaSpend [["media_channel"], ["geo", "time", "media_channel"]] &&
  dimsOk (some d.population) [["geo"]] &&
  dimsOk d.reach [["geo", "media_time", "rf_channel"]] &&
  dimsOk d.frequency [["geo", "media_time", "rf_channel"]] &&
  dimsOk d.rfSpend [["rf_channel"], ["geo", "time", "rf_channel"]] &&
  dimsOk d.organicMedia [["geo", "media_time", "organic_media_channel"]] &&
  dimsOk d.organicReach [["geo", "media_time", "organic_rf_channel"]] &&
  dimsOk d.organicFrequency [["geo", "media_time", "organic_rf_channel"]] &&
  dimsOk d.nonMedia [["geo", "time", "non_media_channel"]]

/-- `_check_dim_match`, `meridian/data/input_data.py:68-75`. -/
def dimMatch (dim : String) (l : List (Option Arr)) : Bool :=
  match (l.filterMap id).map fun a => (a.coord dim).length with
  | [] => true
  | n :: ns => ns.all (· == n)

/-- `check_coords_match`, `meridian/data/validator.py:54-65`. -/
def coordsMatch (dim : String) (l : List (Option Arr)) : Bool :=
  match (l.filterMap id).filter fun a => a.dims.contains dim with
  | [] => true
  | a :: as => as.all fun b => b.coord dim == a.coord dim

/-- The arrays whose geos are compared, `meridian/data/input_data.py:737-752` and 900-912. -/
def geoArrays (d : Input) : List (Option Arr) :=
  [some d.kpi, d.revenuePerKpi, d.media, d.controls, some d.population, d.reach, d.frequency,
    d.organicMedia, d.organicReach, d.organicFrequency, d.nonMedia]

/-- Second part of `_validate_dimensions`, `meridian/data/input_data.py:737-791`: `none` if nothing
is wrong.  The checks of a single array are left out, they cannot fail. -/
def matchErr (d : Input) : Option Err :=
  if !dimMatch "geo" (geoArrays d) then some .dimMatch
  else if !dimMatch "time" [some d.kpi, d.revenuePerKpi, d.controls, d.nonMedia] then
    some .dimMatch
  else if !dimMatch "media_channel" [d.media, d.mediaSpend] then some .dimMatch
  else if !coordsMatch "media_channel" [d.media, d.mediaSpend] then some .coords
  else if !dimMatch "rf_channel" [d.reach, d.frequency, d.rfSpend] then some .dimMatch
  else if !coordsMatch "rf_channel" [d.reach, d.frequency, d.rfSpend] then some .coords
  else if !dimMatch "organic_rf_channel" [d.organicReach, d.organicFrequency] then some .dimMatch
  else if !coordsMatch "organic_rf_channel" [d.organicReach, d.organicFrequency] then some .coords
  else none

/-- Coordinates of an optional array, empty if there is no array. -/
def coordsOf (a : Option Arr) (dim : String) : List String :=
  match a with
  | none => []
  | some a => a.coord dim

/-- `get_all_paid_channels`, `meridian/data/input_data.py:961-978`. -/
def paidChannels (d : Input) : Except Err (List String) :=
  match d.media, d.reach with
  | some m, some r => .ok (m.coord "media_channel" ++ r.coord "rf_channel")
  | none, some r => .ok (r.coord "rf_channel")
  | some m, none => .ok (m.coord "media_channel")
  | none, none => .error .noPaid

/-- `get_all_channels`, `meridian/data/input_data.py:1049-1065`. -/
def allChannels (d : Input) : Except Err (List String) :=
  match paidChannels d with
  | .error e => .error e
  | .ok p => .ok (p ++ coordsOf d.organicMedia "organic_media_channel" ++
      coordsOf d.organicReach "organic_rf_channel" ++ coordsOf d.nonMedia "non_media_channel")

/-- `validate_time_coord_format`, `meridian/data/validator.py:25-51`; `isDate` is
`strptime(.., "%Y-%m-%d")`. -/
def timeFormatOk (isDate : String → Bool) (a : Arr) : Bool :=
  ["time", "media_time"].all fun c => !a.dims.contains c || (a.coord c).all isDate

/-- All arrays but the population, `meridian/data/input_data.py:882-887`. -/
def timedArrays (d : Input) : List Arr :=
  [some d.kpi, d.controls, d.revenuePerKpi, d.media, d.mediaSpend, d.reach, d.frequency, d.rfSpend,
    d.organicMedia, d.organicReach, d.organicFrequency, d.nonMedia].filterMap id

/-- The arrays with a media time, `meridian/data/input_data.py:843-848`. -/
def mediaArrays (d : Input) : List Arr :=
  [d.media, d.reach, d.frequency, d.organicMedia, d.organicReach, d.organicFrequency].filterMap id

/-- `media_time`, `meridian/data/input_data.py:439-445`. -/
def mediaTime (d : Input) : List String :=
  match d.media with
  | some m => m.coord "media_time"
  | none => coordsOf d.reach "media_time"

/-- The arrays of `_validate_no_negative_values`, `meridian/data/input_data.py:637-654`. -/
def nonNegativeArrays (d : Input) : List Arr :=
  [d.mediaSpend, d.rfSpend, d.reach, d.frequency, d.organicReach, d.organicFrequency,
    d.revenuePerKpi, some d.kpi].filterMap id

/-- `__post_init__`, `meridian/data/input_data.py:288-301`.  `regular` says that the time coordinates
are accepted and regularly spaced (`TimeCoordinates`, modelled in `Verif.TimeCoordinates`). -/
def validate (isDate : String → Bool) (regular : List String → Bool) (d0 : Input) :
    Except Err Input :=
  if anyNa d0 then .error .na
  else if d0.kpiType != "revenue" && d0.kpiType != "non_revenue" then .error .kpiType
  else if (d0.revenuePerKpi.map allZero).getD false then .error .zeroRevenue
  else
    let d := withRevenue d0
    if !namesOk d then .error .name
    else if !allDimsOk d then .error .dims
    else
      match matchErr d with
      | some e => .error e
      | none =>
        match allChannels d with
        | .error e => .error e
        | .ok chs =>
          if !decide chs.Nodup then .error .channels
          else if !((timedArrays d).all (timeFormatOk isDate)) then .error .timeFormat
          else if (mediaArrays d).any fun a =>
              decide ((a.coord "media_time").length < (d.kpi.coord "time").length) then
            .error .shortTime
          else if !regular (d.kpi.coord "time") then .error .spacing
          else if !regular (mediaTime d) then .error .spacing
          else if ((geoArrays d).filterMap id).any fun a =>
              a.dims.contains "geo" && !decide (a.coord "geo").Nodup then .error .geoUnique
          else if !coordsMatch "geo" (geoArrays d) then .error .geoMatch
          else if (nonNegativeArrays d).any anyNegative then .error .negative
          else .ok d

end Verif.InputData

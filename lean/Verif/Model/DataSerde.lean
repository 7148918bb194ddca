import Verif.Model.TimeCoordinates

/-!
# Saving and loading the input data

`meridian/schema/serde/marketing_data.py` and `meridian/schema/utils/time_record.py`: input data are
written as one record per geo and media time, plus one record without a geo for spend that is not
split by geo and time, and read back from these records.

Simplifications.  Arrays have their dimensions in the order geo, time, third dimension, and the value
lists have the lengths of the coordinates; the names of arrays are right (checked when the input data
are created, `Verif.InputData`).  Spend has both or none of the geo and time dimensions (the same
check; the `AssertionError` of lines 333-341 and 353-361 is therefore not modelled).  A label that
occurs twice in a coordinate is an error when it is selected.  The rounded population (line 497) and
the names of the metric and the KPI are written but never read, and are left out, and so are the
limits of 64 bit integers.
-/

namespace Verif.DataSerde

open Verif.Calendar

/-- How dates are written: `strptime(.., "%Y-%m-%d")` and `strftime("%Y-%m-%d")`. -/
structure Cal where
  parse : String → Option CDate
  fmt : CDate → String

/-- Arrays with one, two and three dimensions.  `none` is NaN. -/
structure Arr1 where
  keys : List String
  vals : List Num
deriving DecidableEq

@[inherit_doc Arr1]
structure Arr2 where
  geos : List String
  times : List String
  vals : List (List Num)
deriving DecidableEq

@[inherit_doc Arr1]
structure Arr3 where
  geos : List String
  times : List String
  keys : List String
  vals : List (List (List Num))
deriving DecidableEq

/-- Spend by geo, time and channel, or only by channel. -/
inductive Spend
  | granular (a : Arr3)
  | aggregated (a : Arr1)
deriving DecidableEq

inductive KpiType
  | revenue
  | nonRevenue
deriving DecidableEq

/-- `InputData`, `meridian/data/input_data.py:272-286`. -/
structure Data where
  kpi : Arr2
  kpiType : KpiType
  population : Arr1
  controls : Option Arr3 := none
  revenuePerKpi : Option Arr2 := none
  media : Option Arr3 := none
  mediaSpend : Option Spend := none
  reach : Option Arr3 := none
  frequency : Option Arr3 := none
  rfSpend : Option Spend := none
  organicMedia : Option Arr3 := none
  organicReach : Option Arr3 := none
  organicFrequency : Option Arr3 := none
  nonMedia : Option Arr3 := none
  currency : Option String := none
deriving DecidableEq

inductive Err
  | times (e : TimeCoordinates.Err)
  | noLabel
  | repeatedLabel
  | notADate
  | notANumber
  | noMediaTime
  | kpiType
  | noKpi
  | noDates
deriving DecidableEq

/-- Apply a function that may raise to all elements, in order. -/
def mapE {α β : Type} (f : α → Except Err β) : List α → Except Err (List β)
  | [] => .ok []
  | a :: l => match f a with
    | .error e => .error e
    | .ok b => match mapE f l with
      | .error e => .error e
      | .ok bs => .ok (b :: bs)

/-! ## The messages: `proto/mmm/v1/marketing/marketing_data.proto` -/

/-- A half-open interval of dates; the end is a day number. -/
structure Interval where
  start : CDate
  stop : ℤ
deriving DecidableEq

structure MediaVar where
  channel : String
  metric : Num := some 0
  spend : Option Num := none
deriving DecidableEq

structure RfVar where
  channel : String
  reach : ℤ := 0
  frequency : Num := some 0
  spend : Option Num := none
deriving DecidableEq

inductive Kpi
  | revenue (value : Num)
  | nonRevenue (value : Num) (revenuePerKpi : Option Num)
deriving DecidableEq

/-- `MarketingDataPoint`; `geo` is the name and the population of the geo. -/
structure Point where
  geo : Option (String × Num) := none
  interval : Option Interval := none
  controls : List (String × Num) := []
  media : List MediaVar := []
  rf : List RfVar := []
  nonMedia : List (String × Num) := []
  kpi : Option Kpi := none
deriving DecidableEq

/-- `MarketingDataMetadata` -/
structure Meta where
  times : List CDate
  mediaTimes : List CDate
  channels : List (String × List String)
  controlNames : List String
  nonMediaNames : List String
  kpiType : KpiType
  currency : String
deriving DecidableEq

structure Proto where
  points : List Point
  info : Meta
deriving DecidableEq

/-! ## Times -/

/-- `d[k] = v` for a dictionary in order of insertion. -/
def put {β : Type} (k : String) (v : β) : List (String × β) → List (String × β)
  | [] => [(k, v)]
  | (k', v') :: r => if k' = k then (k, v) :: r else (k', v') :: put k v r

/-- `d.get(k)`. -/
def get {β : Type} (k : String) : List (String × β) → Option β
  | [] => none
  | (k', v) :: r => if k' = k then some v else get k r

/-- `convert_times_to_date_intervals`, `meridian/schema/utils/time_record.py:35-67`. -/
def dateIntervals (cal : Cal) (dates : List CDate) : Except Err (List (String × Interval)) :=
  match TimeCoordinates.create dates with
  | .error e => .error (.times e)
  | .ok ds => match TimeCoordinates.getPeriodBounds ds none with
    | .error e => .error (.times e)
    | .ok bs => .ok (bs.foldl (fun acc b => put (cal.fmt b.1) ⟨b.1, b.2⟩ acc) [])

/-- `_get_date_interval_from_date_intervals`,
`meridian/schema/serde/marketing_data.py:252-286`: Python's `min` and `max` keep the first of equal
elements. -/
def span : List Interval → Option Interval
  | [] => none
  | i :: l => some ⟨(l.foldl (fun a b => if b.start.lt a.start then b else a) i).start,
      (l.foldl (fun a b => if a.stop < b.stop then b else a) i).stop⟩

/-- The dates of labels. -/
def parseAll (cal : Cal) (ts : List String) : Except Err (List CDate) :=
  mapE (fun t => match cal.parse t with | none => .error .notADate | some d => .ok d) ts

/-! ## Saving -/

/-- `a.sel(dim=x)`. -/
def sel {α : Type} (labels : List String) (rows : List α) (x : String) : Except Err α :=
  match (labels.zip rows).filter fun p => p.1 == x with
  | [] => .error .noLabel
  | [p] => .ok p.2
  | _ => .error .repeatedLabel

/-- `a.sel(geo=g, time=t)`. -/
def Arr3.row (a : Arr3) (g t : String) : Except Err (List Num) :=
  match sel a.geos a.vals g with
  | .error e => .error e
  | .ok r => sel a.times r t

/-- `a.sel(geo=g, time=t, third=k)`. -/
def Arr3.cell (a : Arr3) (g t k : String) : Except Err Num :=
  match a.row g t with
  | .error e => .error e
  | .ok r => sel a.keys r k

/-- `a.sel(geo=g, time=t)`. -/
def Arr2.cell (a : Arr2) (g t : String) : Except Err Num :=
  match sel a.geos a.vals g with
  | .error e => .error e
  | .ok r => sel a.times r t

/-- Iteration over `a.sel(geo=g, time=t)`: names and values. -/
def Arr3.entries (a : Arr3) (g t : String) : Except Err (List (String × Num)) :=
  match a.row g t with
  | .error e => .error e
  | .ok r => .ok (a.keys.zip r)

/-- The spend of a channel in a record, `meridian/schema/serde/marketing_data.py:398-401`. -/
def spendOf (s : Option Arr3) (g t k : String) : Except Err (Option Num) :=
  match s with
  | none => .ok none
  | some s => if t ∈ s.times then (s.cell g t k).map some else .ok none

/-- `_serialize_media_variables`, `meridian/schema/serde/marketing_data.py:367-403`. -/
def mediaVars (a : Arr3) (s : Option Arr3) (g t : String) : Except Err (List MediaVar) :=
  match a.entries g t with
  | .error e => .error e
  | .ok es => mapE (fun e => match spendOf s g t e.1 with
      | .error e => .error e
      | .ok v => .ok ⟨e.1, e.2, v⟩) es

/-- `int(x)`: NaN raises. -/
def toInt : Num → Except Err ℤ
  | none => .error .notANumber
  | some q => .ok (truncInt q)

/-- One element of `rfVars`. -/
def rfVar (f : Arr3) (s : Option Arr3) (g t : String) (e : String × Num) : Except Err RfVar :=
  match toInt e.2 with
  | .error e => .error e
  | .ok r => match f.cell g t e.1 with
    | .error e => .error e
    | .ok fv => match spendOf s g t e.1 with
      | .error e => .error e
      | .ok v => .ok ⟨e.1, r, fv, v⟩

/-- `_serialize_reach_frequency_variables`, `meridian/schema/serde/marketing_data.py:405-454`. -/
def rfVars (a f : Arr3) (s : Option Arr3) (g t : String) : Except Err (List RfVar) :=
  match a.entries g t with
  | .error e => .error e
  | .ok es => mapE (rfVar f s g t) es

/-- The spend array that is written record by record,
`meridian/schema/serde/marketing_data.py:512-519` and 533-540. -/
def granular : Option Spend → Option Arr3
  | some (.granular a) => some a
  | _ => none

/-- Controls and non-media treatments, `meridian/schema/serde/marketing_data.py:503-509` and
468-483 (the geo of a non-media treatment is always there, see `Verif.InputData`). -/
def entriesAt (a : Option Arr3) (g t : String) : Except Err (List (String × Num)) :=
  match a with
  | none => .ok []
  | some a => if t ∈ a.times then a.entries g t else .ok []

/-- Paid or organic media of a record, `meridian/schema/serde/marketing_data.py:511-527`
and 551-555. -/
def mediaAt (a s : Option Arr3) (g t : String) : Except Err (List MediaVar) :=
  match a with
  | none => .ok []
  | some a => mediaVars a s g t

/-- Paid or organic reach and frequency of a record,
`meridian/schema/serde/marketing_data.py:529-549` and 557-568. -/
def rfAt (a f s : Option Arr3) (g t : String) : Except Err (List RfVar) :=
  match a, f with
  | some a, some f => rfVars a f s g t
  | _, _ => .ok []

/-- The revenue per KPI of a record. -/
def revenueAt (a : Option Arr2) (g t : String) : Except Err (Option Num) :=
  match a with
  | none => .ok none
  | some a => (a.cell g t).map some

/-- `_make_kpi_proto`, `meridian/schema/serde/marketing_data.py:703-723`. -/
def makeKpi (d : Data) (g t : String) : Except Err Kpi :=
  match d.kpi.cell g t with
  | .error e => .error e
  | .ok v => match d.kpiType with
    | .revenue => .ok (.revenue v)
    | .nonRevenue => match revenueAt d.revenuePerKpi g t with
      | .error e => .error e
      | .ok r => .ok (.nonRevenue v r)

/-- The KPI of a record, `meridian/schema/serde/marketing_data.py:577-579`. -/
def kpiAt (d : Data) (g t : String) : Except Err (Option Kpi) :=
  if t ∈ d.kpi.times then (makeKpi d g t).map some else .ok none

/-- `_serialize_data_point`, `meridian/schema/serde/marketing_data.py:485-581`. -/
def point (d : Data) (ivs : List (String × Interval)) (g t : String) : Except Err Point := do
  let pop ← sel d.population.keys d.population.vals g
  let controls ← entriesAt d.controls g t
  let media ← mediaAt d.media (granular d.mediaSpend) g t
  let rf ← rfAt d.reach d.frequency (granular d.rfSpend) g t
  let organicMedia ← mediaAt d.organicMedia none g t
  let organicRf ← rfAt d.organicReach d.organicFrequency none g t
  let nonMedia ← entriesAt d.nonMedia g t
  let kpi ← kpiAt d g t
  return { geo := some (g, pop), interval := get t ivs, controls := controls,
           media := media ++ organicMedia, rf := rf ++ organicRf, nonMedia := nonMedia, kpi := kpi }

/-- `_serialize_aggregated_media_spend_data_point`,
`meridian/schema/serde/marketing_data.py:583-603`, when there is such spend (322-332). -/
def mediaSpendPoint (s : Option Spend) (ivs : List (String × Interval)) : List Point :=
  match s with
  | some (.aggregated a) =>
    [{ interval := span (ivs.map Prod.snd),
       media := (a.keys.zip a.vals).map fun e => ⟨e.1, some 0, some e.2⟩ }]
  | _ => []

/-- `_serialize_aggregated_rf_spend_data_point`,
`meridian/schema/serde/marketing_data.py:605-623`, when there is such spend (343-352). -/
def rfSpendPoint (s : Option Spend) (ivs : List (String × Interval)) : List Point :=
  match s with
  | some (.aggregated a) =>
    [{ interval := span (ivs.map Prod.snd),
       rf := (a.keys.zip a.vals).map fun e => ⟨e.1, 0, some 0, some e.2⟩ }]
  | _ => []

/-- `_serialize_channel_dimensions`, `meridian/schema/serde/marketing_data.py:639-654`. -/
def channelDim (name : String) : Option Arr3 → List (String × List String)
  | none => []
  | some a => [(name, a.keys)]

/-- Names of the third dimension. -/
def keysOf : Option Arr3 → List String
  | none => []
  | some a => a.keys

/-- `_serialize_metadata`, `meridian/schema/serde/marketing_data.py:656-701`, given the dates. -/
def metadata (d : Data) (times mediaTimes : List CDate) : Meta where
  times := times
  mediaTimes := mediaTimes
  channels := channelDim "media" d.media ++ channelDim "reach" d.reach ++
    channelDim "frequency" d.frequency ++ channelDim "organic_media" d.organicMedia ++
    channelDim "organic_reach" d.organicReach ++ channelDim "organic_frequency" d.organicFrequency
  controlNames := keysOf d.controls
  nonMediaNames := keysOf d.nonMedia
  kpiType := d.kpiType
  currency := d.currency.getD ""

/-- `media_time`, `meridian/data/input_data.py:439-445`. -/
def mediaTime (d : Data) : Except Err (List String) :=
  match d.media, d.reach with
  | some m, _ => .ok m.times
  | none, some r => .ok r.times
  | none, none => .error .noMediaTime

/-- `_InputDataSerializer.__call__`, `meridian/schema/serde/marketing_data.py:303-365`. -/
def save (cal : Cal) (d : Data) : Except Err Proto := do
  let mt ← mediaTime d
  let mediaDates ← parseAll cal mt
  let ivs ← dateIntervals cal mediaDates
  let points ← mapE (fun p => point d ivs p.1 p.2) (d.kpi.geos.flatMap fun g => mt.map fun t => (g, t))
  let dates ← parseAll cal d.kpi.times
  return { points := points ++ mediaSpendPoint d.mediaSpend ivs ++ rfSpendPoint d.rfSpend ivs,
           info := metadata d dates mediaDates }

/-! ## Loading -/

/-- `_COORD_NAME_MAP`, `meridian/schema/serde/marketing_data.py:37-45`. -/
def coordName (name : String) : Option String :=
  if name = "media" then some "media_channel"
  else if name = "reach" then some "rf_channel"
  else if name = "frequency" then some "rf_channel"
  else if name = "organic_media" then some "organic_media_channel"
  else if name = "organic_reach" then some "organic_rf_channel"
  else if name = "organic_frequency" then some "organic_rf_channel"
  else if name = "non_media_treatments" then some "non_media_channel"
  else none

/-- `channel_dimensions`, `meridian/schema/serde/marketing_data.py:107-112`. -/
def channelDims (m : Meta) : List (String × List String) :=
  m.channels.foldl (fun acc c => put c.1 c.2 acc) []

/-- `channel_types`, `meridian/schema/serde/marketing_data.py:114-123`. -/
def channelTypes (dims : List (String × List String)) : List (String × Option String) :=
  dims.foldl (fun acc dim => dim.2.foldl (fun acc c => put c (coordName dim.1) acc) acc) []

/-- `channel_types.get(channel) == type`. -/
def hasType (m : Meta) (type channel : String) : Bool :=
  get channel (channelTypes (channelDims m)) == some (some type)

/-- `if x not in l: l.append(x)`. -/
def appendNew (l : List String) (x : String) : List String := if x ∈ l then l else l ++ [x]

/-- The different elements of a list, in the order of their first occurrence. -/
def firsts (l : List String) : List String := l.foldl appendNew []

/-- Two-dimensional cells: geo, time, value. -/
abbrev Rec2 := String × String × Num

/-- Three-dimensional cells: geo, time, third dimension, value. -/
abbrev Rec3 := String × String × String × Num

/-- `data_dict.get((geo, time), nan)` after the cells have been stored in order. -/
def value2 (rs : List Rec2) (g t : String) : Num :=
  match rs.reverse.find? fun r => r.1 == g && r.2.1 == t with
  | none => none
  | some r => r.2.2

/-- `data_dict.get((geo, time, key), nan)` after the cells have been stored in order. -/
def value3 (rs : List Rec3) (g t k : String) : Num :=
  match rs.reverse.find? fun r => r.1 == g && r.2.1 == t && r.2.2.1 == k with
  | none => none
  | some r => r.2.2.2

/-- `_extract_data_array`, `meridian/schema/serde/marketing_data.py:126-179`, given the cells. -/
def extract2 (rs : List Rec2) : Option Arr2 :=
  if rs = [] then none
  else
    let geos := firsts (rs.map fun r => r.1)
    let times := firsts (rs.map fun r => r.2.1)
    some ⟨geos, times, geos.map fun g => times.map fun t => value2 rs g t⟩

/-- `_extract_3d_data_array`, `meridian/schema/serde/marketing_data.py:182-249`, given the cells. -/
def extract3 (rs : List Rec3) : Option Arr3 :=
  if rs = [] then none
  else
    let geos := firsts (rs.map fun r => r.1)
    let times := firsts (rs.map fun r => r.2.1)
    let keys := firsts (rs.map fun r => r.2.2.1)
    some ⟨geos, times, keys, geos.map fun g => times.map fun t => keys.map fun k => value3 rs g t k⟩

/-- `data_point.geo_info.geo_id`: empty if there is no geo. -/
def Point.geoId (p : Point) : String :=
  match p.geo with
  | none => ""
  | some g => g.1

/-- `_extract_geo_and_time`, `meridian/schema/serde/marketing_data.py:782-789`: without an interval
the year is 0, which `datetime` does not accept. -/
def geoTime (cal : Cal) (p : Point) : Except Err (String × String) :=
  match p.interval with
  | none => .error .notADate
  | some i => .ok (p.geoId, cal.fmt i.start)

/-- Geo and time of a record, if the rest of the extractor needs them. -/
def withGeoTime {α : Type} (cal : Cal) (p : Point) (f : String → String → List α) :
    Except Err (List α) :=
  match geoTime cal p with
  | .error e => .error e
  | .ok gt => .ok (f gt.1 gt.2)

/-- `_kpi_extractor`, `meridian/schema/serde/marketing_data.py:794-812`. -/
def kpiCells (cal : Cal) (kt : KpiType) (p : Point) : Except Err (List Rec2) :=
  match p.kpi with
  | none => .ok []
  | some k => match geoTime cal p with
    | .error e => .error e
    | .ok gt => match k, kt with
      | .revenue v, .revenue => .ok [(gt.1, gt.2, v)]
      | .nonRevenue v _, .nonRevenue => .ok [(gt.1, gt.2, v)]
      | _, _ => .error .kpiType

/-- `_revenue_per_kpi_extractor`, `meridian/schema/serde/marketing_data.py:833-849`. -/
def revenueCells (cal : Cal) (p : Point) : Except Err (List Rec2) :=
  match p.kpi with
  | some (.nonRevenue _ (some v)) => withGeoTime cal p fun g t => [(g, t, v)]
  | _ => .ok []

/-- `_controls_extractor`, `meridian/schema/serde/marketing_data.py:860-869`, and
`_non_media_treatments_extractor`, 1260-1271. -/
def entryCells (cal : Cal) (entries : Point → List (String × Num)) (p : Point) :
    Except Err (List Rec3) :=
  if entries p = [] then .ok []
  else withGeoTime cal p fun g t => (entries p).map fun e => (g, t, e.1, e.2)

/-- `_media_extractor` and `_organic_media_extractor`,
`meridian/schema/serde/marketing_data.py:881-893` and 956-971. -/
def mediaCells (cal : Cal) (m : Meta) (type : String) (p : Point) : Except Err (List Rec3) :=
  withGeoTime cal p fun g t =>
    if g = "" then []
    else (p.media.filter fun v => hasType m type v.channel).map fun v => (g, t, v.channel, v.metric)

/-- `_reach_extractor` and the three extractors like it,
`meridian/schema/serde/marketing_data.py:906-918`, 931-943, 984-999 and 1012-1027. -/
def rfCells (cal : Cal) (m : Meta) (type : String) (val : RfVar → Num) (p : Point) :
    Except Err (List Rec3) :=
  withGeoTime cal p fun g t =>
    if g = "" then []
    else (p.rf.filter fun v => hasType m type v.channel).map fun v => (g, t, v.channel, val v)

/-- Gather the cells of all records and make the array. -/
def gather3 (f : Point → Except Err (List Rec3)) (ps : List Point) : Except Err (Option Arr3) :=
  (mapE f ps).map fun l => extract3 l.flatten

/-- Gather the cells of all records and make the array. -/
def gather2 (f : Point → Except Err (List Rec2)) (ps : List Point) : Except Err (Option Arr2) :=
  (mapE f ps).map fun l => extract2 l.flatten

/-- Channel and spend of the media channels of a record that have a spend. -/
def mediaSpends (p : Point) : List (String × Num) :=
  p.media.filterMap fun v => v.spend.map fun s => (v.channel, s)

/-- Channel and spend of the reach and frequency channels of a record that have a spend. -/
def rfSpends (p : Point) : List (String × Num) :=
  p.rf.filterMap fun v => v.spend.map fun s => (v.channel, s)

/-- `_granular_spend_extractor`, `meridian/schema/serde/marketing_data.py:1050-1058` and
1081-1089. -/
def spendCells (cal : Cal) (m : Meta) (type : String) (spends : Point → List (String × Num))
    (p : Point) : Except Err (List Rec3) :=
  withGeoTime cal p fun g t =>
    ((spends p).filter fun e => hasType m type e.1).map fun e => (g, t, e.1, e.2)

/-- `_extract_aggregated_media_spend` and `_extract_aggregated_rf_spend`,
`meridian/schema/serde/marketing_data.py:1099-1132` and 1134-1164. -/
def aggregatedSpend (channels : List String) (spends : Point → List (String × Num))
    (ps : List Point) : Option Arr1 :=
  let found := ((ps.flatMap spends).filter fun e => decide (e.1 ∈ channels)).foldl
    (fun acc e => put e.1 e.2 acc) []
  if found = [] then none else some ⟨found.map Prod.fst, found.map Prod.snd⟩

/-- `_is_aggregated_spend_data_point`, `meridian/schema/serde/marketing_data.py:1166-1185`, given the
interval of the media times. -/
def isAggregated (whole : Interval) (p : Point) : Bool :=
  p.geo.isNone && p.interval == some whole

/-- `time_dimension_interval`, `meridian/schema/serde/marketing_data.py:63-72`. -/
def wholeInterval (cal : Cal) (m : Meta) : Except Err Interval :=
  match dateIntervals cal m.mediaTimes with
  | .error e => .error e
  | .ok ivs => match span (ivs.map Prod.snd) with
    | none => .error .noDates
    | some i => .ok i

/-- The records that count as aggregated spend, `meridian/schema/serde/marketing_data.py:1211-1215`:
the interval of the media times is needed only if a record has no geo. -/
def aggregatedPoints (cal : Cal) (m : Meta) (ps : List Point) : Except Err (List Point) :=
  if ps.all fun p => p.geo.isSome then .ok []
  else (wholeInterval cal m).map fun w => ps.filter (isAggregated w)

/-- `_extract_media_spend` and `_extract_rf_spend`,
`meridian/schema/serde/marketing_data.py:1187-1220` and 1222-1255. -/
def loadSpend (cal : Cal) (m : Meta) (type dim : String) (spends : Point → List (String × Num))
    (points : List Point) : Except Err (Option Spend) :=
  let ps := points.filter fun p => (spends p).any fun e => hasType m type e.1
  if ps = [] then .ok none
  else match aggregatedPoints cal m ps with
    | .error e => .error e
    | .ok [] => (gather3 (spendCells cal m type spends) ps).map fun a => a.map .granular
    | .ok agg => .ok ((aggregatedSpend ((get dim (channelDims m)).getD []) spends agg).map .aggregated)

/-- `_extract_population`, `meridian/schema/serde/marketing_data.py:743-761`. -/
def loadPopulation (points : List Point) : Arr1 :=
  let found := (points.filterMap fun p => p.geo).foldl
    (fun acc g => if g.1 = "" then acc else put g.1 g.2 acc) []
  ⟨found.map Prod.fst, found.map Prod.snd⟩

/-- The type of a KPI. -/
def Kpi.type : Kpi → KpiType
  | .revenue _ => .revenue
  | .nonRevenue _ _ => .nonRevenue

/-- `_extract_kpi_type`, `meridian/schema/serde/marketing_data.py:763-780`. -/
def loadKpiType (points : List Point) : Except Err KpiType :=
  match (points.filterMap fun p => p.kpi).map Kpi.type with
  | [] => .error .noKpi
  | k :: ks => if ks.all fun x => decide (x = k) then .ok k else .error .kpiType

/-- `_extract_kpi`, `meridian/schema/serde/marketing_data.py:791-823`. -/
def loadKpi (cal : Cal) (kt : KpiType) (points : List Point) : Except Err Arr2 :=
  match gather2 (kpiCells cal kt) points with
  | .error e => .error e
  | .ok none => .error .noKpi
  | .ok (some a) => .ok a

/-- The revenue per KPI handed to `InputData`, `meridian/schema/serde/marketing_data.py:1290-1294`. -/
def loadRevenue (cal : Cal) (kt : KpiType) (points : List Point) : Except Err (Option Arr2) :=
  match kt with
  | .revenue => .ok none
  | .nonRevenue => gather2 (revenueCells cal) points

/-- A revenue per KPI of one, `meridian/data/input_data.py:581-593`. -/
def onesLike (kpi : Arr2) : Arr2 :=
  ⟨kpi.geos, kpi.times, kpi.geos.map fun _ => kpi.times.map fun _ => some 1⟩

/-- What creating an `InputData` changes, `_validate_scenarios`,
`meridian/data/input_data.py:579-613`; its checks are modelled in `Verif.InputData`. -/
def create (d : Data) : Data :=
  match d.kpiType with
  | .revenue => { d with revenuePerKpi := some (onesLike d.kpi) }
  | .nonRevenue => d

/-- The currency handed to `InputData`, `meridian/schema/serde/marketing_data.py:1304-1308`. -/
def loadCurrency (m : Meta) : Option String := if m.currency = "" then none else some m.currency

/-- `_InputDataDeserializer.__call__`, `meridian/schema/serde/marketing_data.py:1282-1309`. -/
def load (cal : Cal) (p : Proto) : Except Err Data := do
  let kt ← loadKpiType p.points
  let kpi ← loadKpi cal kt p.points
  let controls ← gather3 (entryCells cal Point.controls) p.points
  let revenue ← loadRevenue cal kt p.points
  let media ← gather3 (mediaCells cal p.info "media_channel") p.points
  let mediaSpend ← loadSpend cal p.info "media_channel" "media" mediaSpends p.points
  let reach ← gather3 (rfCells cal p.info "rf_channel" fun v => some (v.reach : ℚ)) p.points
  let frequency ← gather3 (rfCells cal p.info "rf_channel" RfVar.frequency) p.points
  let rfSpend ← loadSpend cal p.info "rf_channel" "reach" rfSpends p.points
  let organicMedia ← gather3 (mediaCells cal p.info "organic_media_channel") p.points
  let organicReach ← gather3 (rfCells cal p.info "organic_rf_channel" fun v => some (v.reach : ℚ))
    p.points
  let organicFrequency ← gather3 (rfCells cal p.info "organic_rf_channel" RfVar.frequency) p.points
  let nonMedia ← gather3 (entryCells cal Point.nonMedia) p.points
  return create
    { kpi := kpi, kpiType := kt, population := loadPopulation p.points, controls := controls,
      revenuePerKpi := revenue, media := media, mediaSpend := mediaSpend, reach := reach,
      frequency := frequency, rfSpend := rfSpend, organicMedia := organicMedia,
      organicReach := organicReach, organicFrequency := organicFrequency, nonMedia := nonMedia,
      currency := loadCurrency p.info }

end Verif.DataSerde

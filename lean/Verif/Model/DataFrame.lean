import Mathlib.Data.List.Dedup
import Verif.Model.Builder

/-!
# Loading a data frame

`meridian/data/load.py` (`CoordToColumns`, `DataFrameDataLoader`) and
`meridian/data/data_frame_input_data_builder.py`.  The components the data frame builder makes are
set on the builder of `Verif.Model.Builder`.

Simplifications: cells are numbers or NaN and times are date strings; a setter that raises aborts
the loading in either case, so the checks of the columns are all made before the first setter is
called (only the choice among several errors is affected).
-/

namespace Verif.DataFrame

open Verif Verif.Builder

/-- A row: its geo (ignored if there is no geo column), its time and the cells of the other
columns. -/
structure Row where
  geo : String
  time : String
  cell : String → Num

/-- A data frame: the names of its columns and its rows. -/
structure Frame where
  columns : List String
  rows : List Row

/-- The errors raised. -/
inductive Err where
  | noMedia | emptyRevenue | mappingRequired | mappingKeys | channelSets | channelOrder | typeError
  | duplicateColumns | missingColumns | duplicateTimes | inconsistentTimes
  | channelNames | channelLengths
  | builder (e : Builder.Err)
deriving DecidableEq

/-- `_validate_cols`, `meridian/data/data_frame_input_data_builder.py:713-728`. -/
def validCols (f : Frame) (required optional : List String) : Except Err Unit :=
  if ¬ (required ++ optional).Nodup then .error .duplicateColumns
  else if ¬ required.all (fun c => decide (c ∈ f.columns)) then .error .missingColumns
  else .ok ()

/-- The data frame with its geo column, `meridian/data/data_frame_input_data_builder.py:737-739`. -/
def withGeo (f : Frame) (geoCol : String) : List Row :=
  if geoCol ∈ f.columns then f.rows
  else f.rows.map fun r => { r with geo := nationalGeo }

/-- The distinct labels, sorted: the order pandas gives the levels of an index. -/
def labels (l : List String) : List String := sorted l.dedup

/-- The times of a geo. -/
def timesOf (rows : List Row) (g : String) : List String :=
  (rows.filter fun r => decide (r.geo = g)).map Row.time

/-- `_validate_coords`, `meridian/data/data_frame_input_data_builder.py:730-753`. -/
def validTimes (rows : List Row) : Except Err Unit :=
  let geos := labels (rows.map Row.geo)
  if ¬ geos.all (fun g => decide (timesOf rows g).Nodup) then .error .duplicateTimes
  else if ¬ geos.all (fun g => geos.head?.all fun g0 =>
      decide (sorted (timesOf rows g) = sorted (timesOf rows g0))) then .error .inconsistentTimes
  else .ok ()

/-- `_validate_channel_cols`, `meridian/data/data_frame_input_data_builder.py:766-775`. -/
def validChannels (names : List String) (cols : List (List String)) : Except Err Unit :=
  if ¬ names.Nodup then .error .channelNames
  else if ¬ cols.all (fun c => decide (c.length = names.length)) then .error .channelLengths
  else .ok ()

/-- The rows with some value in the given columns. -/
def filled (rows : List Row) (cols : List (String × String)) : List Row :=
  rows.filter fun r => cols.any fun c => (r.cell c.1).isSome

/-- The columns with some value. -/
def usedCols (rows : List Row) (cols : List (String × String)) : List (String × String) :=
  cols.filter fun c => rows.any fun r => (r.cell c.1).isSome

/-- The cell of a geo and time. -/
def cellAt (rows : List Row) (g t col : String) : Num :=
  match rows.find? fun r => decide (r.geo = g ∧ r.time = t) with
  | none => none
  | some r => r.cell col

/-- `df.set_index([geo, time])[cols].stack()….to_xarray()`, for columns renamed to channels, e.g.
`meridian/data/data_frame_input_data_builder.py:367-379`.  `stack` (and `dropna` for a single
column) leaves NaN cells out, so labels without any value disappear; the other missing cells
become NaN again. -/
def pivot (rows : List Row) (cols : List (String × String)) : DA where
  geos := labels ((filled rows cols).map Row.geo)
  times := labels ((filled rows cols).map Row.time)
  channels := (usedCols rows cols).map Prod.snd
  vals := fun i j k =>
    match (labels ((filled rows cols).map Row.geo))[i]?,
      (labels ((filled rows cols).map Row.time))[j]?, (usedCols rows cols)[k]? with
    | some g, some t, some c => cellAt rows g t c.1
    | _, _, _ => none

/-- The mean of the values that are not NaN. -/
def nanMean (l : List Num) : Num :=
  let v := l.filterMap id
  if v.isEmpty then none else some (v.sum / v.length)

/-- `with_population`, `meridian/data/data_frame_input_data_builder.py:245-254`. -/
def population (rows : List Row) (col : String) : DA where
  geos := labels (rows.map Row.geo)
  times := []
  channels := []
  vals := fun i _ _ =>
    match (labels (rows.map Row.geo))[i]? with
    | none => none
    | some g => nanMean ((rows.filter fun r => decide (r.geo = g)).map fun r => r.cell col)

/-- The columns of each kind, `CoordToColumns`, `meridian/data/load.py:332-396`. -/
structure Columns where
  time : String
  geo : String
  kpi : String
  population : String
  revenuePerKpi : Option String
  controls : Option (List String)
  nonMedia : Option (List String)
  organicMedia : Option (List String)
  media : Option (List String)
  mediaSpend : Option (List String)
  reach : Option (List String)
  frequency : Option (List String)
  rfSpend : Option (List String)
  organicReach : Option (List String)
  organicFrequency : Option (List String)

/-- The truth value of an optional list. -/
def truthy (o : Option (List String)) : Bool := o.any fun l => !l.isEmpty

/-- `CoordToColumns.__post_init__`, `meridian/data/load.py:385-396`. -/
def Columns.check (c : Columns) : Except Err Unit :=
  if ¬ ((truthy c.media && truthy c.mediaSpend) ||
      (truthy c.reach && truthy c.frequency && truthy c.rfSpend)) then .error .noMedia
  else if c.revenuePerKpi.any fun s => s.toList.all Char.isWhitespace then .error .emptyRevenue
  else .ok ()

/-- A dictionary from columns to channels. -/
abbrev Dict := List (String × String)

/-- `DataFrameDataLoader`, `meridian/data/load.py:584-594`. -/
structure Loader where
  df : Frame
  cols : Columns
  isRevenue : Bool
  media : Option Dict
  mediaSpend : Option Dict
  reach : Option Dict
  frequency : Option Dict
  rfSpend : Option Dict
  organicReach : Option Dict
  organicFrequency : Option Dict

/-- A mapping is required for the columns of a kind and must have these columns as keys,
`meridian/data/load.py:609-624`. -/
def checkMapping (cols : Option (List String)) (d : Option Dict) : Except Err Unit :=
  match cols with
  | none => .ok ()
  | some l =>
    match d with
    | none => .error .mappingRequired
    | some d => if sameSet (d.map Prod.fst) l then .ok () else .error .mappingKeys

/-- `[d[c] for c in cols]`. -/
def channelsOf (d : Dict) (cols : Option (List String)) : Except Err (List String) :=
  match cols with
  | none => .error .typeError
  | some l => l.mapM fun c =>
    match d.lookup c with
    | none => .error .typeError
    | some x => .ok x

/-- The check of two mappings, `meridian/data/load.py:625-655, 688-713`. -/
def checkPair (c1 c2 : Option (List String)) (d1 d2 : Option Dict) : Except Err Unit :=
  match d1, d2 with
  | some d1, some d2 =>
    if ¬ sameSet (d1.map Prod.snd) (d2.map Prod.snd) then .error .channelSets
    else do
      let n1 ← channelsOf d1 c1
      let n2 ← channelsOf d2 c2
      if n1 ≠ n2 then .error .channelOrder else .ok ()
  | _, _ => .ok ()

/-- The check of the reach and frequency mappings, `meridian/data/load.py:657-686`.  The chained
comparison `a != b != c` is false as soon as one of the two holds not. -/
def checkTriple (c1 c2 c3 : Option (List String)) (d1 d2 d3 : Option Dict) : Except Err Unit :=
  match d1, d2, d3 with
  | some d1, some d2, some d3 =>
    if ¬ sameSet (d1.map Prod.snd) (d2.map Prod.snd) ∧ ¬ sameSet (d2.map Prod.snd) (d3.map Prod.snd)
    then .error .channelSets
    else do
      let n1 ← channelsOf d1 c1
      let n2 ← channelsOf d2 c2
      let n3 ← channelsOf d3 c3
      if ¬ (n1 = n2 ∧ n2 = n3) then .error .channelOrder else .ok ()
  | _, _, _ => .ok ()

/-- `DataFrameDataLoader.__post_init__`, `meridian/data/load.py:596-713`. -/
def Loader.check (L : Loader) : Except Err Unit := do
  checkMapping L.cols.media L.media
  checkMapping L.cols.mediaSpend L.mediaSpend
  checkMapping L.cols.reach L.reach
  checkMapping L.cols.frequency L.frequency
  checkMapping L.cols.rfSpend L.rfSpend
  checkMapping L.cols.organicReach L.organicReach
  checkMapping L.cols.organicFrequency L.organicFrequency
  checkPair L.cols.media L.cols.mediaSpend L.media L.mediaSpend
  checkTriple L.cols.reach L.cols.frequency L.cols.rfSpend L.reach L.frequency L.rfSpend
  checkPair L.cols.organicReach L.cols.organicFrequency L.organicReach L.organicFrequency

/-- A component whose channels are its columns: `with_controls`, `with_non_media_treatments` and
`with_organic_media`, `meridian/data/data_frame_input_data_builder.py:163-212, 498-565, 656-711`;
nothing is added for an empty list (`meridian/data/load.py:732, 740, 805`). -/
def plainPart (L : Loader) (c : Comp) (cols : Option (List String)) :
    Except Err (List (Comp × DA)) :=
  match cols with
  | none => .ok []
  | some l =>
    if l.isEmpty then .ok []
    else do
      validCols L.df (l ++ [L.cols.time]) [L.cols.geo]
      validTimes (withGeo L.df L.cols.geo)
      if c = .organicMedia then validChannels l [l] else .ok ()
      .ok [(c, pivot (withGeo L.df L.cols.geo) (l.map fun x => (x, x)))]

/-- `with_kpi`, `meridian/data/data_frame_input_data_builder.py:120-161`. -/
def kpiPart (L : Loader) : Except Err (List (Comp × DA)) := do
  validCols L.df [L.cols.kpi, L.cols.time] [L.cols.geo]
  validTimes (withGeo L.df L.cols.geo)
  .ok [(.kpi, pivot (withGeo L.df L.cols.geo) [(L.cols.kpi, "kpi")])]

/-- `with_population`, `meridian/data/data_frame_input_data_builder.py:214-256`, called if the
column exists (`meridian/data/load.py:727-730`). -/
def populationPart (L : Loader) : Except Err (List (Comp × DA)) :=
  if L.cols.population ∈ L.df.columns then do
    validCols L.df [L.cols.population] [L.cols.geo]
    .ok [(.population, population (withGeo L.df L.cols.geo) L.cols.population)]
  else .ok []

/-- `with_revenue_per_kpi`, `meridian/data/data_frame_input_data_builder.py:258-311`; for a KPI
that is revenue all values are replaced by one (lines 755-764). -/
def revenuePart (L : Loader) : Except Err (List (Comp × DA)) :=
  match L.cols.revenuePerKpi with
  | none => .ok []
  | some col =>
    if col = "" then .ok []
    else do
      validCols L.df [col, L.cols.time] [L.cols.geo]
      validTimes (withGeo L.df L.cols.geo)
      let rows := (withGeo L.df L.cols.geo).map fun r =>
        if L.isRevenue then { r with cell := fun c => if c = col then some 1 else r.cell c } else r
      .ok [(.revenuePerKpi, pivot rows [(col, "revenue_per_kpi")])]

/-- `with_media`, `meridian/data/data_frame_input_data_builder.py:313-391`, called if both mappings
are given (`meridian/data/load.py:756-777`). -/
def mediaPart (L : Loader) : Except Err (List (Comp × DA)) :=
  match L.media, L.mediaSpend with
  | some d, some _ => do
    let names ← channelsOf d L.cols.media
    match L.cols.media, L.cols.mediaSpend with
    | some m, some s =>
      if m.isEmpty || s.isEmpty || names.isEmpty then .error .noMedia
      else do
        validCols L.df (m ++ [L.cols.time]) [L.cols.geo]
        validCols L.df (s ++ [L.cols.time]) [L.cols.geo]
        validTimes (withGeo L.df L.cols.geo)
        validChannels names [m, s]
        .ok [(.media, pivot (withGeo L.df L.cols.geo) (m.zip names)),
          (.mediaSpend, pivot (withGeo L.df L.cols.geo) (s.zip names))]
    | _, _ => .error .typeError
  | _, _ => .ok []

/-- `with_reach`, `meridian/data/data_frame_input_data_builder.py:393-496`, called if the three
mappings are given (`meridian/data/load.py:779-803`). -/
def rfPart (L : Loader) : Except Err (List (Comp × DA)) :=
  match L.reach, L.frequency, L.rfSpend with
  | some d, some _, some _ => do
    let names ← channelsOf d L.cols.reach
    match L.cols.reach, L.cols.frequency, L.cols.rfSpend with
    | some r, some f, some s =>
      if r.isEmpty || f.isEmpty || s.isEmpty || names.isEmpty then .error .noMedia
      else do
        validCols L.df (r ++ f ++ s ++ [L.cols.time]) [L.cols.geo]
        validTimes (withGeo L.df L.cols.geo)
        validChannels names [r, f, s]
        .ok [(.reach, pivot (withGeo L.df L.cols.geo) (r.zip names)),
          (.frequency, pivot (withGeo L.df L.cols.geo) (f.zip names)),
          (.rfSpend, pivot (withGeo L.df L.cols.geo) (s.zip names))]
    | _, _, _ => .error .typeError
  | _, _, _ => .ok []

/-- `with_organic_reach`, `meridian/data/data_frame_input_data_builder.py:567-654`, called if both
mappings are given (`meridian/data/load.py:814-836`). -/
def organicPart (L : Loader) : Except Err (List (Comp × DA)) :=
  match L.organicReach, L.organicFrequency with
  | some d, some _ => do
    let names ← channelsOf d L.cols.organicReach
    match L.cols.organicReach, L.cols.organicFrequency with
    | some r, some f =>
      if r.isEmpty || f.isEmpty || names.isEmpty then .error .noMedia
      else do
        validCols L.df (r ++ f ++ [L.cols.time]) [L.cols.geo]
        validTimes (withGeo L.df L.cols.geo)
        validChannels names [r, f]
        .ok [(.organicReach, pivot (withGeo L.df L.cols.geo) (r.zip names)),
          (.organicFrequency, pivot (withGeo L.df L.cols.geo) (f.zip names))]
    | _, _ => .error .typeError
  | _, _ => .ok []

/-- The components the loader sets, in order, `meridian/data/load.py:715-841`. -/
def parts (L : Loader) : Except Err (List (Comp × DA)) := do
  L.cols.check
  L.check
  let a ← kpiPart L
  let b ← populationPart L
  let c ← plainPart L .controls L.cols.controls
  let d ← plainPart L .nonMedia L.cols.nonMedia
  let e ← revenuePart L
  let f ← mediaPart L
  let g ← rfPart L
  let h ← plainPart L .organicMedia L.cols.organicMedia
  let i ← organicPart L
  .ok (a ++ (b ++ (c ++ (d ++ (e ++ (f ++ (g ++ (h ++ i))))))))

/-- Creating a loader and loading. -/
def load {κ : Type} [LE κ] [DecidableRel (α := κ) (· ≤ ·)] (env : Env κ) (L : Loader) :
    Except Err (Comp → Option DA) :=
  match parts L with
  | .error e => .error e
  | .ok l =>
    match buildFrom env l with
    | .error e => .error (.builder e)
    | .ok b => .ok b

end Verif.DataFrame

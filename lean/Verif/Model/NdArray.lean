import Verif.Model.Builder
import Verif.Model.InputData

/-!
# Input data from arrays without labels

`NDArrayInputDataBuilder`, `meridian/data/nd_array_input_data_builder.py`: the user assigns the
coordinates, then hands over arrays, and builds an `InputData`.  The setters of the base class are those
of `Verif.Model.Builder`, the checks of `InputData` those of `Verif.Model.InputData`.  A session ends with
the first exception.  Warnings are left out.
-/

namespace Verif.NdArray

open Verif Verif.Builder

/-- `numpy.ndarray`: the shape and the value at an index. -/
structure Nd where
  shape : List ℕ
  val : List ℕ → Num

/-- Errors. -/
inductive Err where
  | mediaTimesFirst | timesFirst | namesNotUnique | shape
  | base (e : Builder.Err)
  | input (e : InputData.Err)

/-- The name each array gets, `meridian/data/nd_array_input_data_builder.py:67, 103, 130, 164, 213, 227,
283, 297, 311, 352, 396, 410, 447`. -/
def arrayName : Comp → String
  | .kpi => "kpi"
  | .controls => "controls"
  | .population => "population"
  | .revenuePerKpi => "revenue_per_kpi"
  | .media => "media"
  | .mediaSpend => "media_spend"
  | .reach => "reach"
  | .frequency => "frequency"
  | .rfSpend => "rf_spend"
  | .organicMedia => "organic_media"
  | .organicReach => "organic_reach"
  | .organicFrequency => "organic_reach"
  | .nonMedia => "non_media_treatments"

/-- The dimension of the channels, if the array has one; lines as for the dimensions below. -/
def channelDim : Comp → Option String
  | .kpi => none
  | .population => none
  | .revenuePerKpi => none
  | .controls => some "control_variable"
  | .media => some "media_channel"
  | .mediaSpend => some "media_channel"
  | .reach => some "rf_channel"
  | .frequency => some "rf_channel"
  | .rfSpend => some "rf_channel"
  | .organicMedia => some "organic_media_channel"
  | .organicReach => some "organic_rf_channel"
  | .organicFrequency => some "organic_rf_channel"
  | .nonMedia => some "non_media_channel"

/-- The dimension of the times. -/
def timeDim : TimeKind → List String
  | .noTime => []
  | .time => ["time"]
  | .mediaTime => ["media_time"]

/-- The dimensions of each array, `meridian/data/nd_array_input_data_builder.py:62, 97, 128, 159, 203-207,
217-221, 273-277, 287-291, 301-305, 342-346, 386-390, 400-404, 441`. -/
def arrayDims (c : Comp) : List String := "geo" :: (timeDim c.kind ++ (channelDim c).toList)

/-- `_validate_coords`, `meridian/data/nd_array_input_data_builder.py:451-469`, with the setter of the
geos. -/
def needCoords (k : TimeKind) (s : St) : Except Err St :=
  match k, s.mediaTimes, s.times with
  | .mediaTime, none, _ => .error .mediaTimesFirst
  | .time, _, none => .error .timesFirst
  | _, _, _ => match s.geos with
    | some _ => .ok s
    | none => match setGeos s [nationalGeo] with
      | .error e => .error (.base e)
      | .ok s' => .ok s'

/-- Several calls of `_validate_coords`. -/
def needAll : List TimeKind → St → Except Err St
  | [], s => .ok s
  | k :: ks, s => match needCoords k s with
    | .error e => .error e
    | .ok s' => needAll ks s'

/-- The times an array of this kind is labelled with. -/
def timesOf (k : TimeKind) (s : St) : List String :=
  match k with
  | .noTime => []
  | .time => s.times.getD []
  | .mediaTime => s.mediaTimes.getD []

/-- `_validate_shape`, `meridian/data/nd_array_input_data_builder.py:471-498`. -/
def checkShape (k : TimeKind) (chs : Option (List String)) (nd : Nd) (s : St) : Except Err Unit :=
  match k with
  | .noTime => if [(s.geos.getD []).length] ≠ nd.shape then .error .shape else .ok ()
  | k => match chs with
    | none =>
      if [(s.geos.getD []).length, (timesOf k s).length] ≠ nd.shape then .error .shape else .ok ()
    | some l =>
      if ¬ l.Nodup then .error .namesNotUnique
      else if [(s.geos.getD []).length, (timesOf k s).length, l.length] ≠ nd.shape then .error .shape
      else .ok ()

/-- Several calls of `_validate_shape`. -/
def checkShapes (chs : Option (List String)) (s : St) : List (Comp × Nd) → Except Err Unit
  | [] => .ok ()
  | x :: l => match checkShape x.1.kind chs x.2 s with
    | .error e => .error e
    | .ok () => checkShapes chs s l

/-- The index of a value. -/
def index (c : Comp) (i j k : ℕ) : List ℕ :=
  match c.kind, channelDim c with
  | .noTime, _ => [i]
  | _, none => [i, j]
  | _, some _ => [i, j, k]

/-- `xr.DataArray(nd, dims=…, coords=…)` with the coordinates of the builder,
`meridian/data/nd_array_input_data_builder.py:60-68` and at the other lines cited for the dimensions. -/
def label (c : Comp) (chs : Option (List String)) (nd : Nd) (s : St) : DA where
  geos := s.geos.getD []
  times := timesOf c.kind s
  channels := chs.getD []
  vals := fun i j k => nd.val (index c i j k)

variable {κ : Type}

/-- Setting the arrays one after another. -/
def setAll (env : Env κ) (chs : Option (List String)) : List (Comp × Nd) → St → Except Err St
  | [], s => .ok s
  | x :: l, s => match Builder.set env x.1 (label x.1 chs x.2 s) s with
    | (some e, _) => .error (.base e)
    | (none, s') => setAll env chs l s'

/-- What all methods do: check the coordinates, check the shapes, set the arrays. -/
def add (env : Env κ) (needs : List TimeKind) (chs : Option (List String)) (parts : List (Comp × Nd))
    (s : St) : Except Err St :=
  match needAll needs s with
  | .error e => .error e
  | .ok s' => match checkShapes chs s' parts with
    | .error e => .error e
    | .ok () => setAll env chs parts s'

/-- The methods that take arrays. -/
inductive Call where
  | kpi (nd : Nd)
  | controls (nd : Nd) (names : List String)
  | population (nd : Nd)
  | revenuePerKpi (nd : Nd)
  | media (m spend : Nd) (channels : List String)
  | reach (r f spend : Nd) (channels : List String)
  | organicMedia (nd : Nd) (channels : List String)
  | organicReach (r f : Nd) (channels : List String)
  | nonMedia (nd : Nd) (channels : List String)

/-- `np.ones(nd.shape)`. -/
def onesLike (nd : Nd) : Nd := ⟨nd.shape, fun _ => some 1⟩

/-- `_check_revenue_per_kpi_defaults`, `meridian/data/nd_array_input_data_builder.py:500-509`. -/
def revenueDefault (kpiType : String) (nd : Nd) : Nd := if kpiType = "revenue" then onesLike nd else nd

/-- The methods, `meridian/data/nd_array_input_data_builder.py:39-449`. -/
def call (env : Env κ) (kpiType : String) : Call → St → Except Err St
  | .kpi nd, s => add env [.time] none [(.kpi, nd)] s
  | .controls nd names, s => add env [.time] (some names) [(.controls, nd)] s
  | .population nd, s => add env [.noTime] none [(.population, nd)] s
  | .revenuePerKpi nd, s => add env [.time] none [(.revenuePerKpi, revenueDefault kpiType nd)] s
  | .media m spend chs, s =>
    add env [.mediaTime, .time] (some chs) [(.media, m), (.mediaSpend, spend)] s
  | .reach r f spend chs, s =>
    add env [.mediaTime, .time] (some chs) [(.reach, r), (.frequency, f), (.rfSpend, spend)] s
  | .organicMedia nd chs, s => add env [.mediaTime] (some chs) [(.organicMedia, nd)] s
  | .organicReach r f chs, s =>
    add env [.mediaTime] (some chs) [(.organicReach, r), (.organicFrequency, f)] s
  | .nonMedia nd chs, s => add env [.time] (some chs) [(.nonMedia, nd)] s

/-- What a user does with a builder before building. -/
inductive Op where
  | geos (l : List String)
  | times (l : List String)
  | mediaTimes (l : List String)
  | call (c : Call)

/-- A result of the base class. -/
def lift {α : Type} : Except Builder.Err α → Except Err α
  | .error e => .error (.base e)
  | .ok a => .ok a

/-- One step: the setters `geos`, `time_coords` and `media_time_coords` of the base class,
`meridian/data/input_data_builder.py:95-155`, or a method. -/
def step (env : Env κ) (kpiType : String) : Op → St → Except Err St
  | .geos l, s => lift (setGeos s l)
  | .times l, s => lift (setTimes env s l)
  | .mediaTimes l, s => lift (setMediaTimes env s l)
  | .call c, s => call env kpiType c s

/-- A session. -/
def run (env : Env κ) (kpiType : String) : List Op → St → Except Err St
  | [], s => .ok s
  | o :: l, s => match step env kpiType o s with
    | .error e => .error e
    | .ok s' => run env kpiType l s'

/-- The coordinates of a built array by dimension. -/
def coordOf (c : Comp) (d : DA) (dim : String) : List String :=
  if dim = "geo" then d.geos
  else if dim ∈ timeDim c.kind then d.times
  else if channelDim c = some dim then d.channels
  else []

/-- All values of a built array. -/
def valuesOf (c : Comp) (d : DA) : List Num :=
  (List.range d.geos.length).flatMap fun i =>
    (List.range (if c.kind = .noTime then 1 else d.times.length)).flatMap fun j =>
      (List.range (if channelDim c = none then 1 else d.channels.length)).map fun k => d.vals i j k

/-- An array handed to `InputData`. -/
def toArr (c : Comp) (d : DA) : InputData.Arr where
  name := arrayName c
  dims := arrayDims c
  coord := coordOf c d
  vals := valuesOf c d

/-- The argument list of `InputData`, `meridian/data/input_data_builder.py:642-657`. -/
def toInput (kpiType : String) (kpi population : DA) (b : Comp → Option DA) : InputData.Input where
  kpi := toArr .kpi kpi
  kpiType := kpiType
  population := toArr .population population
  controls := (b .controls).map (toArr .controls)
  revenuePerKpi := (b .revenuePerKpi).map (toArr .revenuePerKpi)
  media := (b .media).map (toArr .media)
  mediaSpend := (b .mediaSpend).map (toArr .mediaSpend)
  reach := (b .reach).map (toArr .reach)
  frequency := (b .frequency).map (toArr .frequency)
  rfSpend := (b .rfSpend).map (toArr .rfSpend)
  organicMedia := (b .organicMedia).map (toArr .organicMedia)
  organicReach := (b .organicReach).map (toArr .organicReach)
  organicFrequency := (b .organicFrequency).map (toArr .organicFrequency)
  nonMedia := (b .nonMedia).map (toArr .nonMedia)

/-- `build`, `meridian/data/input_data_builder.py:613-657`, with the checks of `InputData`. -/
def build [LE κ] [DecidableRel (α := κ) (· ≤ ·)] (env : Env κ) (kpiType : String) (s : St) :
    Except Err InputData.Input :=
  match Builder.build env s with
  | .error e => .error (.base e)
  | .ok r => match r.1 .kpi, r.1 .population with
    | some k, some p => match InputData.validate env.isDate env.regular (toInput kpiType k p r.1) with
      | .error e => .error (.input e)
      | .ok d => .ok d
    | _, _ => .error (.base .typeError)

/-- A whole session on a new builder. -/
def session [LE κ] [DecidableRel (α := κ) (· ≤ ·)] (env : Env κ) (kpiType : String) (ops : List Op) :
    Except Err InputData.Input :=
  match run env kpiType ops St.init with
  | .error e => .error e
  | .ok s => build env kpiType s

end Verif.NdArray

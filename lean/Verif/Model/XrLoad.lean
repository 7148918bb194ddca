import Verif.Model.Builder

/-!
# Loading an xarray dataset

`XrDatasetDataLoader` (`meridian/data/load.py:50-329`): the mapping of names, the geo dimension added
to a national dataset, the split of `time` into `time` and `media_time`, and the components handed to
the builder (`Verif.Model.Builder`).  Every dimension of the dataset has labels; arrays have at most
one geo-like, one time-like and one channel-like dimension, in this order (the checks of `InputData`
refuse other orders).  All errors of the loader itself that come from a missing dimension are
`Err.dims`.  The checks of `InputData` are in `Verif.Model.InputData`.
-/

namespace Verif.XrLoad

open Verif Verif.Builder

/-- Array names, `meridian/constants.py:61-75`. -/
def nameOf : Comp → String
  | .kpi => "kpi"
  | .controls => "controls"
  | .population => "population"
  | .revenuePerKpi => "revenue_per_kpi"
  | .media => "media"
  | .mediaSpend => "media_spend"
  | .reach => "reach"
  | .frequency => "frequency"
  | .rfSpend => "rf_spend"
  | .organicMedia => "organic_media"
  | .organicReach => "organic_reach"
  | .organicFrequency => "organic_frequency"
  | .nonMedia => "non_media_treatments"

/-- The channel dimension of an array, `meridian/data/load.py:97-115`. -/
def channelDim : Comp → Option String
  | .kpi | .population | .revenuePerKpi => none
  | .controls => some "control_variable"
  | .media | .mediaSpend => some "media_channel"
  | .reach | .frequency | .rfSpend => some "rf_channel"
  | .organicMedia => some "organic_media_channel"
  | .organicReach | .organicFrequency => some "organic_rf_channel"
  | .nonMedia => some "non_media_channel"

/-- The time dimension of an array once the dataset has media times. -/
def timeDim (c : Comp) : Option String :=
  match c.kind with
  | .noTime => none
  | .time => some "time"
  | .mediaTime => some "media_time"

/-- `POSSIBLE_INPUT_DATA_COORDS_AND_ARRAYS_SET`, `meridian/constants.py:80-106, 155-178`. -/
def possible : List String :=
  ["geo", "time", "media_time", "control_variable", "organic_media_channel", "organic_rf_channel",
    "non_media_channel", "media_channel", "rf_channel"] ++ allComps.map nameOf

/-- An array: the names of its dimensions, and its values by position. -/
structure Arr where
  geo : Option String
  time : Option String
  chan : Option String
  vals : ℕ → ℕ → ℕ → Num

/-- A dataset: its dimensions with their labels, and its arrays. -/
structure Ds where
  dims : List (String × List String)
  vars : List (String × Arr)

/-- Errors of the loader. -/
inductive Err where
  | target
  | source
  | conflict
  | noKpi
  | dims
  | duplicates
  | builder (e : Verif.Builder.Err)
deriving DecidableEq

/-- The labels of a dimension. -/
def Ds.labels (s : Ds) (n : String) : Option (List String) := (s.dims.find? (·.1 = n)).map (·.2)

/-- The array of a component. -/
def Ds.var (s : Ds) (c : Comp) : Option Arr := (s.vars.find? (·.1 = nameOf c)).map (·.2)

/-- All names. -/
def Ds.names (s : Ds) : List String := s.dims.map (·.1) ++ s.vars.map (·.1)

/-- The new name of a dimension or array. -/
def ren (m : List (String × String)) (n : String) : String :=
  match m.find? (·.1 = n) with
  | some p => p.2
  | none => n

/-- `Dataset.rename`. -/
def Ds.rename (m : List (String × String)) (s : Ds) : Ds where
  dims := s.dims.map fun d => (ren m d.1, d.2)
  vars := s.vars.map fun v => (ren m v.1,
    { v.2 with geo := v.2.geo.map (ren m), time := v.2.time.map (ren m), chan := v.2.chan.map (ren m) })

/-- The mapping of names, `meridian/data/load.py:180-204`; `rename` refuses a name used twice. -/
def applyMapping (m : Option (List (String × String))) (s : Ds) : Except Err Ds :=
  match m with
  | none => .ok s
  | some m =>
    if ¬ m.all fun p => decide (p.2 ∈ possible) then .error .target
    else if ¬ m.all fun p => decide (p.1 ∈ s.names) then .error .source
    else if ¬ (s.rename m).names.Nodup then .error .conflict
    else .ok (s.rename m)

/-- The geo dimension of a national dataset, `meridian/data/load.py:206-208`: all arrays get it. -/
def Ds.withGeo (s : Ds) : Ds :=
  if (s.labels "geo").isSome then s
  else
    { dims := s.dims ++ [("geo", ["0"])]
      vars := s.vars.map fun v => (v.1, { v.2 with geo := match v.2.geo with
        | none => some "geo"
        | some g => some g }) }

/-- The arrays that decide about the lagged period, `meridian/data/load.py:211-244`. -/
def lagComps : List Comp := [.kpi, .controls, .nonMedia, .revenuePerKpi, .mediaSpend, .rfSpend]

/-- Whether an array has the dimensions of its component, with the given time dimension. -/
def fits (c : Comp) (t : Option String) (a : Arr) : Bool :=
  decide (a.geo = some "geo" ∧ a.chan = channelDim c ∧ a.time = t)

/-- The number of channels of an array. -/
def Ds.width (s : Ds) (c : Comp) : ℕ :=
  match channelDim c with
  | none => 1
  | some n => ((s.labels n).getD []).length

/-- `isnull().any(dim=[GEO, ..])` at one time. -/
def Ds.anyNull (s : Ds) (c : Comp) (a : Arr) (j : ℕ) : Bool :=
  (List.range ((s.labels "geo").getD []).length).any fun i =>
    (List.range (s.width c)).any fun k => (a.vals i j k).isNone

/-- `na_mask`, `meridian/data/load.py:211-244`. -/
def Ds.naMask (s : Ds) (j : ℕ) : Bool :=
  lagComps.any fun c =>
    match s.var c with
    | none => false
    | some a => s.anyNull c a j

/-- The positions that a mask leaves. -/
def positions (n : ℕ) (mask : ℕ → Bool) : List ℕ := (List.range n).filter fun j => !mask j

/-- `dropna(dim=TIME).rename({TIME: new_time})` assigned to the dataset, which aligns it with the
labels `period` of the new dimension, `meridian/data/load.py:256-293`. -/
def Ds.shorten (s : Ds) (times period : List String) (c : Comp) (a : Arr) : Arr :=
  let own := positions times.length (s.anyNull c a)
  { a with
    time := some "time"
    vals := fun i j k =>
      match position (own.map fun q => times.getD q "") period[j]? with
      | none => none
      | some p => a.vals i (own.getD p 0) k }

/-- What happens to an array in the split: shortened, or moved to the media times. -/
def Ds.splitVar (s : Ds) (times period : List String) (v : String × Arr) : String × Arr :=
  match lagComps.find? fun c => v.1 = nameOf c with
  | some c => (v.1, s.shorten times period c v.2)
  | none => (v.1, { v.2 with time := if v.2.time = some "time" then some "media_time" else v.2.time })

/-- The split of the times, `meridian/data/load.py:210-297`.  Labels that are used twice cannot be
aligned. -/
def Ds.split (s : Ds) : Except Err Ds :=
  if (s.var .kpi).isNone then .error .noKpi
  else if ¬ lagComps.all fun c => (s.var c).all (fits c (some "time")) then .error .dims
  else
    match s.labels "time" with
    | none => .error .dims
    | some times =>
      if ¬ times.Nodup then .error .duplicates
      else
        let period := (positions times.length s.naMask).map fun j => times.getD j ""
        .ok { dims := (s.dims.map fun d => (if d.1 = "time" then "media_time" else d.1, d.2)) ++
                [("time", period)]
              vars := s.vars.map (s.splitVar times period) }

/-- The array handed to the builder: an error unless it has the dimensions of its component. -/
def Ds.array (s : Ds) (c : Comp) (a : Arr) : Option DA :=
  if ¬ fits c (timeDim c) a then none
  else
    match s.labels "geo", (match timeDim c with | none => some [] | some n => s.labels n),
      (match channelDim c with | none => some [] | some n => s.labels n) with
    | some g, some t, some k => some ⟨g, t, k, a.vals⟩
    | _, _, _ => none

/-- The order in which `load` sets the components, `meridian/data/load.py:299-329`. -/
def loadOrder : List Comp :=
  [.kpi, .population, .controls, .revenuePerKpi, .media, .mediaSpend, .reach, .frequency, .rfSpend,
   .nonMedia, .organicMedia, .organicReach, .organicFrequency]

/-- The components set, `meridian/data/load.py:299-329`. -/
def Ds.components (s : Ds) : List Comp → Except Err (List (Comp × DA))
  | [] => .ok []
  | c :: l =>
    match s.var c with
    | none => s.components l
    | some a =>
      match s.array c a with
      | none => .error .dims
      | some d =>
        match s.components l with
        | .error e => .error e
        | .ok r => .ok ((c, d) :: r)

variable {κ : Type} [LE κ] [DecidableRel (α := κ) (· ≤ ·)]

/-- `load`, `meridian/data/load.py:299-329`. -/
def Ds.finish (env : Env κ) (s : Ds) : Except Err (Comp → Option DA) :=
  if (s.var .kpi).isNone then .error .noKpi
  else
    match s.components loadOrder with
    | .error e => .error e
    | .ok l =>
      match buildFrom env l with
      | .error e => .error (.builder e)
      | .ok b => .ok b

/-- The constructor without the mapping: `meridian/data/load.py:206-297`. -/
def Ds.prepare (s : Ds) : Except Err Ds :=
  if (s.withGeo.labels "media_time").isSome then .ok s.withGeo else s.withGeo.split

/-- Constructing the loader and loading, `meridian/data/load.py:75-329`. -/
def load (env : Env κ) (m : Option (List (String × String))) (s : Ds) :
    Except Err (Comp → Option DA) :=
  match applyMapping m s with
  | .error e => .error e
  | .ok s1 =>
    match s1.prepare with
    | .error e => .error e
    | .ok s2 => s2.finish env

end Verif.XrLoad

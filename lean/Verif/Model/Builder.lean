import Mathlib.Data.String.Basic
import Mathlib.Data.List.Sort
import Verif.Model.Num

/-!
# The input data builder

`meridian/data/input_data_builder.py`: the component setters, the final checks and the alignment
of the components.  Modelled are the base class and what its setters leave behind when they raise.
Arrays always carry the dimensions their component requires, time labels given as `datetime64`
are taken to be rendered as strings already, and the `InputData` object itself (whose checks are
in `Verif.Model.InputData`) is represented by the arrays it is given.
-/

namespace Verif.Builder

open Verif

/-- The settable components, `meridian/data/input_data_builder.py:62-74`. -/
inductive Comp where
  | kpi | controls | population | revenuePerKpi | media | mediaSpend | reach | frequency | rfSpend
  | organicMedia | organicReach | organicFrequency | nonMedia
deriving DecidableEq

/-- All components. -/
def allComps : List Comp :=
  [.kpi, .controls, .population, .revenuePerKpi, .media, .mediaSpend, .reach, .frequency, .rfSpend,
   .organicMedia, .organicReach, .organicFrequency, .nonMedia]

/-- The time dimension of a component. -/
inductive TimeKind where
  | noTime | time | mediaTime
deriving DecidableEq

/-- The time dimension each setter uses, `meridian/data/input_data_builder.py:157-611`. -/
def Comp.kind : Comp → TimeKind
  | .population => .noTime
  | .kpi | .controls | .revenuePerKpi | .mediaSpend | .rfSpend | .nonMedia => .time
  | .media | .reach | .frequency | .organicMedia | .organicReach | .organicFrequency => .mediaTime

/-- The components whose channel labels must match, `meridian/data/input_data_builder.py:309-311,
347-349, 382-384, 419-421, 456-458, 524-526, 563-565`. -/
def Comp.peers : Comp → List Comp
  | .media => [.mediaSpend]
  | .mediaSpend => [.media]
  | .reach => [.frequency, .rfSpend]
  | .frequency => [.reach, .rfSpend]
  | .rfSpend => [.reach, .frequency]
  | .organicReach => [.organicFrequency]
  | .organicFrequency => [.organicReach]
  | _ => []

/-- A labelled array: labels of the three dimensions and the values by position (dimensions a
component does not have are ignored: no times for the population, one channel for the KPI). -/
structure DA where
  geos : List String
  times : List String
  channels : List String
  vals : ℕ → ℕ → ℕ → Num

/-- What the builder calls outside the repository: whether a string is a date in the required
format, whether `TimeCoordinates.from_dates(…).interval_days` accepts a list of dates, and the key
by which `natsort` sorts. -/
structure Env (κ : Type) where
  isDate : String → Bool
  regular : List String → Bool
  natKey : String → κ

/-- The errors raised. -/
inductive Err where
  | alreadySet | channelMismatch | timeFormat | geosNotUnique | geosMismatch | timesNotUnique
  | timesMismatch | timesNotSubset | mediaTimesNotUnique | mediaTimesMismatch
  | mediaTimesNotSuperset | laggedMedia | irregular
  | kpiRequired | populationRequired | mediaTogether | rfTogether | organicTogether | noMedia
  | typeError | duplicateLabels
deriving DecidableEq

/-- The state of a builder, `meridian/data/input_data_builder.py:56-75`. -/
structure St where
  comps : Comp → Option DA
  geos : Option (List String)
  times : Option (List String)
  mediaTimes : Option (List String)

/-- A new builder. -/
def St.init : St := ⟨fun _ => none, none, none, none⟩

/-- `set(a) != set(b)` is false. -/
def sameSet (a b : List String) : Bool := (a.all fun x => decide (x ∈ b)) && b.all fun x => decide (x ∈ a)

/-- `set(a).issubset(b)`. -/
def subset (a b : List String) : Bool := a.all fun x => decide (x ∈ b)

/-- Python's `sorted` (strings are compared by code points, as in Lean). -/
def sorted (l : List String) : List String := l.insertionSort (· ≤ ·)

/-- `_validate_lagged_media`, `meridian/data/input_data_builder.py:764-773`.  The set difference
of lists without repetitions is a filter. -/
def laggedOk (mediaTimes times : List String) : Bool :=
  let na := sorted (mediaTimes.filter fun m => decide (m ∉ times))
  decide (na = (sorted mediaTimes).take na.length)

/-- The setter `geos`, `meridian/data/input_data_builder.py:147-155`. -/
def setGeos (s : St) (v : List String) : Except Err St :=
  if ¬ v.Nodup then .error .geosNotUnique
  else if s.geos.any fun g => !sameSet g v then .error .geosMismatch
  else .ok { s with geos := some v }

variable {κ : Type}

/-- The setter `time_coords`, `meridian/data/input_data_builder.py:95-113`. -/
def setTimes (env : Env κ) (s : St) (v : List String) : Except Err St :=
  if ¬ v.Nodup then .error .timesNotUnique
  else if s.times.any fun t => !sameSet t v then .error .timesMismatch
  else if s.mediaTimes.any fun m => !subset v m then .error .timesNotSubset
  else if s.mediaTimes.any fun m => !laggedOk m v then .error .laggedMedia
  else if ¬ env.regular (sorted v) then .error .irregular
  else .ok { s with times := some v }

/-- The setter `media_time_coords`, `meridian/data/input_data_builder.py:119-141`. -/
def setMediaTimes (env : Env κ) (s : St) (v : List String) : Except Err St :=
  if ¬ v.Nodup then .error .mediaTimesNotUnique
  else if s.mediaTimes.any fun m => !sameSet m v then .error .mediaTimesMismatch
  else if s.times.any fun t => !subset t v then .error .mediaTimesNotSuperset
  else if s.times.any fun t => !laggedOk v t then .error .laggedMedia
  else if ¬ env.regular (sorted v) then .error .irregular
  else .ok { s with mediaTimes := some v }

/-- The label given to the only geo of a national model, `meridian/constants.py:218`. -/
def nationalGeo : String := "national_geo"

/-- The geo labels after `_normalize_coords`, `meridian/data/input_data_builder.py:695-704`. -/
def normGeos (g : List String) : List String := if g.length = 1 then [nationalGeo] else g

/-- The labels after `_normalize_coords`. -/
def normalize (d : DA) : DA := { d with geos := normGeos d.geos }

/-- Assigning one component of the state. -/
def St.put (s : St) (c : Comp) (d : Option DA) : St :=
  { s with comps := fun x => if x = c then d else s.comps x }

/-- Whether the channels agree with those of the peers set so far,
`meridian/data/input_data_builder.py:710-713` and `meridian/data/validator.py:54-65`. -/
def channelsOk (s : St) (c : Comp) (d : DA) : Bool :=
  c.peers.all fun p => (s.comps p).all fun e => decide (e.channels = d.channels)

/-- The time part of a setter. -/
def setKind (env : Env κ) (s : St) (c : Comp) (d : DA) : Except Err St :=
  match c.kind with
  | .noTime => .ok s
  | .time => setTimes env s d.times
  | .mediaTime => setMediaTimes env s d.times

/-- A component setter, `meridian/data/input_data_builder.py:157-611`: what it raises, if
anything, and the state it leaves behind. -/
def set (env : Env κ) (c : Comp) (d : DA) (s : St) : Option Err × St :=
  if (s.comps c).isSome then (some .alreadySet, s)
  else if ¬ channelsOk s c d then (some .channelMismatch, s)
  else if c.kind ≠ .noTime ∧ ¬ d.times.all env.isDate then (some .timeFormat, s)
  else
    let s1 := s.put c (some (normalize d))
    match setGeos s1 (normalize d).geos with
    | .error e => (some e, s1)
    | .ok s2 =>
      match setKind env s2 c (normalize d) with
      | .error e => (some e, s2)
      | .ok s3 => (none, s3)

/-- Setting components one after another until a setter raises. -/
def run (env : Env κ) : List (Comp × DA) → St → Except Err St
  | [], s => .ok s
  | x :: l, s =>
    match set env x.1 x.2 s with
    | (some e, _) => .error e
    | (none, s') => run env l s'

/-- The population of a national model, `meridian/data/input_data_builder.py:720-733` and
`meridian/constants.py:219`. -/
def onesPopulation (geos : List String) : DA := ⟨geos, [], [], fun _ _ _ => some 1⟩

/-- The missing components, `meridian/data/input_data_builder.py:734-762`. -/
def missing (has : Comp → Bool) : Option Err :=
  if !has .population then some .populationRequired
  else if has .media != has .mediaSpend then some .mediaTogether
  else if (has .reach || has .frequency || has .rfSpend) &&
      (!has .reach || !has .frequency || !has .rfSpend) then some .rfTogether
  else if has .organicReach != has .organicFrequency then some .organicTogether
  else if !has .reach && !has .frequency && !has .rfSpend && !has .mediaSpend && !has .media then
    some .noMedia
  else none

/-- The components after the population of a national model was replaced,
`meridian/data/input_data_builder.py:720-733`. -/
def St.withPopulation (s : St) (g : List String) : St :=
  if g.length = 1 then s.put .population (some (onesPopulation g)) else s

/-- `_validate_required_components`, `meridian/data/input_data_builder.py:715-762`: the state
changes, as the population of a national model is replaced (also if a later check raises; that
state is not modelled). -/
def required (s : St) : Except Err St :=
  if (s.comps .kpi).isNone then .error .kpiRequired
  else match s.geos with
  | none => .error .typeError
  | some g =>
    match missing fun c => ((s.withPopulation g).comps c).isSome with
    | some e => .error e
    | none => .ok (s.withPopulation g)

/-- `natsort.natsorted`: a stable sort by the key. -/
def natsorted [LE κ] [DecidableRel (α := κ) (· ≤ ·)] (env : Env κ) (l : List String) :
    List String :=
  l.insertionSort fun a b => env.natKey a ≤ env.natKey b

/-- The position of a label. -/
def position (l : List String) (x : Option String) : Option ℕ :=
  match x with
  | none => none
  | some x => if x ∈ l then some (l.idxOf x) else none

/-- `DataArray.reindex`: values at labels the array does not have are NaN. -/
def reindex (d : DA) (geos times : List String) (timed : Bool) : DA where
  geos := geos
  times := if timed then times else d.times
  channels := d.channels
  vals := fun i j k =>
    match position d.geos geos[i]?,
      (if timed then position d.times times[j]? else some j) with
    | some i', some j' => d.vals i' j' k
    | _, _ => none

/-- The labels on which an array is aligned. -/
def align (geos times mediaTimes : List String) (c : Comp) (d : DA) : DA :=
  match c.kind with
  | .noTime => reindex d geos [] false
  | .time => reindex d geos times true
  | .mediaTime => reindex d geos mediaTimes true

/-- An array with repeated labels cannot be reindexed. -/
def reindexable (c : Comp) (d : DA) : Bool :=
  decide d.geos.Nodup && (decide (c.kind = .noTime) || decide d.times.Nodup)

/-- `build`, `meridian/data/input_data_builder.py:613-657`: the arrays given to `InputData`, and
the state of the builder afterwards. -/
def build [LE κ] [DecidableRel (α := κ) (· ≤ ·)] (env : Env κ) (s : St) :
    Except Err ((Comp → Option DA) × St) :=
  match required s with
  | .error e => .error e
  | .ok s1 =>
    match s1.geos, s1.times, s1.mediaTimes with
    | some g, some t, some m =>
      if allComps.all fun c => (s1.comps c).all fun d => reindexable c d then
        .ok (fun c => (s1.comps c).map
          (align (natsorted env g) (natsorted env t) (natsorted env m) c), s1)
      else .error .duplicateLabels
    | _, _, _ => .error .typeError

/-- Setting components on a new builder and building. -/
def buildFrom [LE κ] [DecidableRel (α := κ) (· ≤ ·)] (env : Env κ) (l : List (Comp × DA)) :
    Except Err (Comp → Option DA) :=
  match run env l St.init with
  | .error e => .error e
  | .ok s => (build env s).map Prod.fst

end Verif.Builder

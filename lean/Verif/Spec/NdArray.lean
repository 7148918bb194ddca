import Verif.Model.NdArray
import Verif.Spec.Builder
import Verif.Spec.InputData

/-!
# What a user expects of the builder for arrays without labels

The usual session: the coordinates first, then the arrays.
-/

namespace Verif.NdArray.Wanted

open Verif Verif.Builder

variable {κ : Type}

/-- A session: the labels of the geos, unless the data are national, of the times and of the media times,
and the arrays. -/
structure Plan where
  geos : Option (List String)
  times : List String
  mediaTimes : List String
  calls : List Call

/-- The steps of the session. -/
def Plan.ops (p : Plan) : List Op :=
  p.geos.toList.map .geos ++ .times p.times :: .mediaTimes p.mediaTimes :: p.calls.map .call

/-- The labels of the geos. -/
def Plan.labels (p : Plan) : List String := p.geos.getD ["national_geo"]

/-- One array with the names of its channels. -/
structure Given where
  comp : Comp
  nd : Nd
  channels : List String

/-- The arrays of a call. -/
def arrays (kpiType : String) : Call → List Given
  | .kpi nd => [⟨.kpi, nd, []⟩]
  | .controls nd names => [⟨.controls, nd, names⟩]
  | .population nd => [⟨.population, nd, []⟩]
  | .revenuePerKpi nd => [⟨.revenuePerKpi, if kpiType = "revenue" then ⟨nd.shape, fun _ => some 1⟩ else nd, []⟩]
  | .media m spend chs => [⟨.media, m, chs⟩, ⟨.mediaSpend, spend, chs⟩]
  | .reach r f spend chs => [⟨.reach, r, chs⟩, ⟨.frequency, f, chs⟩, ⟨.rfSpend, spend, chs⟩]
  | .organicMedia nd chs => [⟨.organicMedia, nd, chs⟩]
  | .organicReach r f chs => [⟨.organicReach, r, chs⟩, ⟨.organicFrequency, f, chs⟩]
  | .nonMedia nd chs => [⟨.nonMedia, nd, chs⟩]

/-- All arrays of a session. -/
def Plan.arrays (p : Plan) (kpiType : String) : List Given := p.calls.flatMap (Wanted.arrays kpiType)

/-- Whether an array has a dimension for channels (or control variables). -/
def hasChannels (c : Comp) : Prop := c ≠ .kpi ∧ c ≠ .population ∧ c ≠ .revenuePerKpi

instance (c : Comp) : Decidable (hasChannels c) := inferInstanceAs (Decidable (_ ∧ _))

/-- The times an array is about. -/
def Plan.timesOf (p : Plan) (c : Comp) : List String :=
  if c ∈ [.media, .reach, .frequency, .organicMedia, .organicReach, .organicFrequency] then p.mediaTimes
  else p.times

/-- The shape an array must have: geos by times by channels. -/
def Plan.shape (p : Plan) (a : Given) : List ℕ :=
  if a.comp = .population then [p.labels.length]
  else if hasChannels a.comp then [p.labels.length, (p.timesOf a.comp).length, a.channels.length]
  else [p.labels.length, (p.timesOf a.comp).length]

/-- An index within a shape. -/
def Within (shape : List ℕ) (ix : List ℕ) : Prop := List.Forall₂ (· < ·) ix shape

/-- The names of the channels of an array that was handed over. -/
def Plan.namesOf (p : Plan) (kpiType : String) (c : Comp) : List String :=
  ((p.arrays kpiType).filter fun a => decide (a.comp = c)).flatMap Given.channels

/-- The names of all channels that have an effect. -/
def Plan.channels (p : Plan) (kpiType : String) : List String :=
  p.namesOf kpiType .media ++ p.namesOf kpiType .reach ++ p.namesOf kpiType .organicMedia ++
    p.namesOf kpiType .nonMedia

/-- An array that is used: the population of a national model is not. -/
def Plan.Used (p : Plan) (kpiType : String) (a : Given) : Prop :=
  a ∈ p.arrays kpiType ∧ ¬ (a.comp = .population ∧ p.labels.length = 1)

/-- When a session leads to input data. -/
structure Acceptable (env : Env κ) (kpiType : String) (p : Plan) : Prop where
  /-- the labels -/
  geosOnce : p.labels.Nodup
  national : p.labels.length = 1 → p.labels = ["national_geo"]
  timesOnce : p.times.Nodup
  mediaTimesOnce : p.mediaTimes.Nodup
  dates : ∀ t, t ∈ p.times ∨ t ∈ p.mediaTimes → env.isDate t = true
  regular : env.regular (sorted p.times) = true ∧ env.regular (sorted p.mediaTimes) = true
  lagged : Builder.Spec.Lagged p.mediaTimes p.times
  /-- the arrays -/
  once : ((p.arrays kpiType).map Given.comp).Nodup
  shapes : ∀ a ∈ p.arrays kpiType, a.nd.shape = p.shape a ∧ a.channels.Nodup
  kpi : ∃ nd, .kpi nd ∈ p.calls
  population : p.labels.length ≠ 1 → ∃ nd, .population nd ∈ p.calls
  paid : (∃ m s chs, .media m s chs ∈ p.calls) ∨ ∃ r f s chs, .reach r f s chs ∈ p.calls
  noOrganicReach : ∀ r f chs, .organicReach r f chs ∉ p.calls
  /-- the values -/
  kind : kpiType = "revenue" ∨ kpiType = "non_revenue"
  numbers : ∀ a, p.Used kpiType a → ∀ ix, Within a.nd.shape ix → a.nd.val ix ≠ none
  nonNegative : ∀ a, p.Used kpiType a →
    a.comp ∈ [.kpi, .revenuePerKpi, .mediaSpend, .rfSpend, .reach, .frequency] →
    ∀ ix, Within a.nd.shape ix → ∀ q, a.nd.val ix = some q → 0 ≤ q
  revenue : ∀ a ∈ p.arrays kpiType, a.comp = .revenuePerKpi → ∃ ix, Within a.nd.shape ix ∧ a.nd.val ix ≠ some 0
  channelsOnce : (p.channels kpiType).Nodup

/-- The documented names. -/
def name : Comp → String
  | .kpi => "kpi"
  | .controls => "controls"
  | .population => "population"
  | .revenuePerKpi => "revenue_per_kpi"
  | .media => "media"
  | .mediaSpend => "media_spend"
  | .reach => "reach"
  | .frequency => "frequency"
  | .rfSpend => "rf_spend"
  | .organicMedia => "organic_media"
  | .organicReach => "organic_reach"
  | .organicFrequency => "organic_frequency"
  | .nonMedia => "non_media_treatments"

/-- The name of the dimension of the channels. -/
def channelName : Comp → String
  | .controls => "control_variable"
  | .media | .mediaSpend => "media_channel"
  | .reach | .frequency | .rfSpend => "rf_channel"
  | .organicMedia => "organic_media_channel"
  | .organicReach | .organicFrequency => "organic_rf_channel"
  | .nonMedia => "non_media_channel"
  | _ => ""

/-- The name of the dimension of the times. -/
def timeName (c : Comp) : String :=
  if c ∈ [.media, .reach, .frequency, .organicMedia, .organicReach, .organicFrequency] then "media_time" else "time"

/-- The dimensions with their labels, where `geos` and `times` are in the order of the result. -/
def axes (c : Comp) (geos times channels : List String) : List (String × List String) :=
  if c = .population then [("geo", geos)]
  else if hasChannels c then [("geo", geos), (timeName c, times), (channelName c, channels)]
  else [("geo", geos), (timeName c, times)]

/-- An array of the input data: every value is the one at the position of its labels. -/
structure Holds (p : Plan) (geos times : List String) (a : Given) (r : InputData.Arr) : Prop where
  name : r.name = Wanted.name a.comp
  dims : r.dims = (axes a.comp geos times a.channels).map Prod.fst
  coords : ∀ x ∈ axes a.comp geos times a.channels, r.coord x.1 = x.2
  values : r.vals =
    if a.comp = .population then geos.map fun g => a.nd.val [p.labels.idxOf g]
    else if hasChannels a.comp then
      geos.flatMap fun g => times.flatMap fun t => a.channels.map fun c =>
        a.nd.val [p.labels.idxOf g, (p.timesOf a.comp).idxOf t, a.channels.idxOf c]
    else geos.flatMap fun g => times.map fun t => a.nd.val [p.labels.idxOf g, (p.timesOf a.comp).idxOf t]

/-- The arrays of the input data. -/
def component (d : InputData.Input) : Comp → Option InputData.Arr
  | .kpi => some d.kpi
  | .controls => d.controls
  | .population => some d.population
  | .revenuePerKpi => d.revenuePerKpi
  | .media => d.media
  | .mediaSpend => d.mediaSpend
  | .reach => d.reach
  | .frequency => d.frequency
  | .rfSpend => d.rfSpend
  | .organicMedia => d.organicMedia
  | .organicReach => d.organicReach
  | .organicFrequency => d.organicFrequency
  | .nonMedia => d.nonMedia

/-- The natural order of date labels is the alphabetic one. -/
def DatesOrdered [LT κ] (env : Env κ) (p : Plan) : Prop :=
  ∀ a b, (a ∈ p.times ∨ a ∈ p.mediaTimes) → (b ∈ p.times ∨ b ∈ p.mediaTimes) → a < b →
    env.natKey a < env.natKey b

end Verif.NdArray.Wanted

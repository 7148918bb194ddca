import Verif.Spec.Builder
import Verif.Model.XrLoad

/-!
# Specification: what a dataset says, and what may be loaded

In terms of the labels and values of the dataset and of the arrays of the result.
-/

namespace Verif.XrLoad.Spec

open Verif Verif.Builder Verif.Builder.Spec Verif.XrLoad

variable {κ : Type}

/-- The documented names of the arrays and of their channel dimensions. -/
def documented : List (Comp × String × Option String) :=
  [(.kpi, "kpi", none), (.revenuePerKpi, "revenue_per_kpi", none), (.population, "population", none),
    (.controls, "controls", some "control_variable"), (.media, "media", some "media_channel"),
    (.mediaSpend, "media_spend", some "media_channel"), (.reach, "reach", some "rf_channel"),
    (.frequency, "frequency", some "rf_channel"), (.rfSpend, "rf_spend", some "rf_channel"),
    (.organicMedia, "organic_media", some "organic_media_channel"),
    (.organicReach, "organic_reach", some "organic_rf_channel"),
    (.organicFrequency, "organic_frequency", some "organic_rf_channel"),
    (.nonMedia, "non_media_treatments", some "non_media_channel")]

/-- A dataset as xarray guarantees it: the dimensions of the arrays are dimensions of the dataset. -/
structure Wf (s : Ds) : Prop where
  geo : ∀ v ∈ s.vars, ∀ n, v.2.geo = some n → n ∈ s.dims.map (·.1)
  time : ∀ v ∈ s.vars, ∀ n, v.2.time = some n → n ∈ s.dims.map (·.1)
  chan : ∀ v ∈ s.vars, ∀ n, v.2.chan = some n → n ∈ s.dims.map (·.1)

/-- The array of component `c` has value `v` at geo `g`, at the label `t` of dimension `n`, and at
channel position `k`. -/
def Value (s : Ds) (n : String) (c : Comp) (g t : String) (k : ℕ) (v : Num) : Prop :=
  ∃ a i j G T, s.var c = some a ∧ s.labels "geo" = some G ∧ G[i]? = some g ∧
    s.labels n = some T ∧ T[j]? = some t ∧ v = a.vals i j k

/-- At time `t` a value is missing in one of the arrays other than media. -/
def Incomplete (s : Ds) (t : String) : Prop :=
  ∃ c g k, c.kind = .time ∧ k < s.width c ∧ Value s "time" c g t k none

/-- The array has the documented dimensions, with the given time dimension. -/
structure Shaped (c : Comp) (time : Option String) (a : Arr) : Prop where
  geo : a.geo = some "geo"
  chan : a.chan = channelDim c
  time : a.time = time

/-- The rules for geos, times, media times and the arrays that are there. -/
structure Rules (env : Env κ) (geos times mediaTimes : List String) (has : Comp → Prop) : Prop where
  distinctGeos : (normGeos geos).Nodup
  dates : ∀ t ∈ times, env.isDate t = true
  mediaDates : ∀ t ∈ mediaTimes, env.isDate t = true
  distinct : times.Nodup
  mediaDistinct : mediaTimes.Nodup
  regular : env.regular (sorted times) = true
  mediaRegular : env.regular (sorted mediaTimes) = true
  lagged : Lagged mediaTimes times
  complete : Complete has (geos.length = 1)

/-- The result holds the arrays of the dataset: for each array the geos, the channels, the times
that are kept, and under the same labels the same values; nothing else, except for the population of
a national model, which is one. -/
structure Loaded (s : Ds) (geos : List String) (times : Comp → List String)
    (kept : Comp → String → Prop) (b : Comp → Option DA) : Prop where
  array : ∀ c a, s.var c = some a → (c = .population → geos.length ≠ 1) → ∃ d, b c = some d ∧
    (∀ g, g ∈ d.geos ↔ g ∈ normGeos geos) ∧
    (∀ n, channelDim c = some n → s.labels n = some d.channels) ∧
    (c.kind ≠ .noTime → ∀ t, t ∈ d.times ↔ kept c t) ∧
    ∀ (i i' j j' k : ℕ) (g t : String), d.geos[i]? = some g → (normGeos geos)[i']? = some g →
      (c.kind = .noTime → j = j') →
      (c.kind ≠ .noTime → d.times[j]? = some t ∧ (times c)[j']? = some t) →
      d.vals i j k = a.vals i' j' k
  only : ∀ c d, b c = some d → (∃ a, s.var c = some a) ∨ c = .population ∧ geos.length = 1
  national : geos.length = 1 → ∃ d, b .population = some d ∧ d.geos = [nationalGeo] ∧
    ∀ j k, d.vals 0 j k = some 1

/-- The dataset `s'` is the dataset `s` with one more dimension: a single geo. -/
structure Expanded (s s' : Ds) (g : String) : Prop where
  geo : s'.labels "geo" = some [g]
  labels : ∀ n, n ≠ "geo" → s'.labels n = s.labels n
  arrays : ∀ c, s'.var c = (s.var c).map fun a => { a with geo := some "geo" }

/-- The dataset with other names. -/
def renamed (f : String → String) (s : Ds) : Ds where
  dims := s.dims.map fun d => (f d.1, d.2)
  vars := s.vars.map fun v => (f v.1, ⟨v.2.geo.map f, v.2.time.map f, v.2.chan.map f, v.2.vals⟩)

end Verif.XrLoad.Spec

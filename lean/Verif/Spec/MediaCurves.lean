import Verif.Spec.Summary
import Verif.Spec.Adstock
import Verif.Model.MediaCurves

/-!
# What the adstock decay table and the Hill curve table should say
-/

namespace Verif.MediaCurves.Spec

open Verif.Mmm Verif.Adstock

/-- The statistic a column is named after. -/
def titled : Col → Verif.Summary.Stat
  | .mean => .mean
  | .ciLo => .ciLo
  | .ciHi => .ciHi

/-- Effect retained after a time `l` that need not be a whole number of periods, relative to time 0. -/
noncomputable def retainedAt (d : Decay) (α : ℝ) (W : ℕ) (l : ℝ) : ℝ :=
  match d with
  | .geometric => α ^ l
  | .binomial => if α = 0 then (if l = 0 then 1 else 0) else (1 - l / W) ^ (1 / α - 1)

/-- What one person was exposed to in a geo and period: media units per head, or the frequency. -/
noncomputable def perPerson (ctx : Ctx) (kd : Kind) (x : T3) (g t c : ℕ) : ℝ :=
  match kd with
  | .media | .organicMedia => x g t c / ctx.population g
  | .rf | .organicRf => x g t c

/-- The data of the model. -/
def dataOf (ctx : Ctx) : Kind → T3
  | .media => ctx.data.media
  | .rf => ctx.data.frequency
  | .organicMedia => ctx.data.organicMedia
  | .organicRf => ctx.data.organicFrequency

/-- The saturation the model applies to media or frequency `x`, before or after adstock. -/
noncomputable def saturation (ctx : Ctx) (kd : Kind) (p : Params) (x : T3) : T3 :=
  match kd with
  | .media => hillForward p.media.ec p.media.slope (scaleMedia ctx ctx.media x)
  | .rf => hillForward p.rf.ec p.rf.slope x
  | .organicMedia => hillForward p.organicMedia.ec p.organicMedia.slope (scaleMedia ctx ctx.organicMedia x)
  | .organicRf => hillForward p.organicRf.ec p.organicRf.slope x

/-- What was observed in some geo and period. -/
def observed (ctx : Ctx) (kd : Kind) (c : ℕ) : Set ℝ :=
  {v | ∃ g < ctx.nGeos, ∃ t < ctx.nMediaTimes, v = perPerson ctx kd (dataOf ctx kd) g t c}

/-- All observations, geo by geo. -/
noncomputable def observedList (ctx : Ctx) (kd : Kind) (c : ℕ) : List ℝ :=
  (List.range ctx.nGeos).flatMap fun g =>
    (List.range ctx.nMediaTimes).map fun t => perPerson ctx kd (dataOf ctx kd) g t c

/-- Medians of media per head are positive, as are populations; there are data. -/
structure Usable (ctx : Ctx) : Prop where
  pop : ∀ g, 0 < ctx.population g
  median : ∀ c, 0 < ctx.media.median c
  organicMedian : ∀ c, 0 < ctx.organicMedia.median c
  geos : 0 < ctx.nGeos
  times : 0 < ctx.nMediaTimes

/-- No two channels have the same name. -/
def UniqueNames (ctx : Ctx) (names : Kind → ℕ → String) : Prop :=
  ∀ kd c kd' c', c < (kindOf ctx kd).n → c' < (kindOf ctx kd').n → names kd c = names kd' c' →
    kd = kd' ∧ c = c'

/-- The order of rows: by channel, then by time, the posterior before the prior. -/
def Earlier (r r' : DecayRow) : Prop :=
  r.channel < r'.channel ∨ (r.channel = r'.channel ∧ (r.time < r'.time ∨
    (r.time = r'.time ∧ r.dist = .posterior ∧ r'.dist = .prior)))

open Classical in
/-- The share of the observations between `a` (included) and `b` (included only if `closed`). -/
noncomputable def shareIn (data : List ℝ) (a b : ℝ) (closed : Prop) : ℝ :=
  ((data.filter fun x => a ≤ x ∧ (x < b ∨ closed ∧ x = b)).length : ℝ) / data.length

/-- The saturation is switched off for the channel. -/
def Unsaturated (k : MediaKind) (c : ℕ) : Prop :=
  match k.sat with
  | .inl s => s = .none
  | .inr l => l[c]? = some .none

end Verif.MediaCurves.Spec

import Verif.Spec.Mmm
import Verif.Model.Sampler

/-!
# What it means that a treatment prior is honoured
-/

namespace Verif.Sampler.Spec

open Verif.Mmm Verif.Mmm.Spec Verif.Transformers Finset

/-- Total difference between the expected outcomes (revenue if known, else KPI) of two data sets. -/
noncomputable def change (ctx : Ctx) (p : Params) (d d' : Data) : ℝ :=
  ∑ g ∈ range ctx.nGeos, ∑ t ∈ range ctx.nTimes,
    (expectedOutcome ctx p d true false g t - expectedOutcome ctx p d' true false g t)

/-- The same parameters with all treatment coefficients one. -/
def unitCoef (p : Params) : Params :=
  { p with
    media := { p.media with beta := fun _ _ => 1 }
    rf := { p.rf with beta := fun _ _ => 1 }
    organicMedia := { p.organicMedia with beta := fun _ _ => 1 }
    organicRf := { p.organicRf with beta := fun _ _ => 1 }
    gammaN := fun _ _ => 1 }

/-- The media times of the calibration period of a channel: all times if no period is given. -/
def period (cal : Option (ℕ → ℕ → Bool)) (c t : ℕ) : Bool :=
  match cal with
  | none => true
  | some k => k t c

/-- The spend of a channel in its calibration period, in the time window of the KPI. -/
noncomputable def spendIn (ctx : Ctx) (spend : T3) (cal : Option (ℕ → ℕ → Bool)) (c : ℕ) : ℝ :=
  ∑ g ∈ range ctx.nGeos,
    ∑ t ∈ range ctx.nTimes with period cal c (ctx.nMediaTimes - ctx.nTimes + t) = true, spend g t c

/-- The outcome that was observed. -/
noncomputable def observedOutcome (s : Setup) : ℝ :=
  ∑ g ∈ range s.ctx.nGeos, ∑ t ∈ range s.ctx.nTimes,
    s.kpi g t * (s.ctx.data.revenuePerKpi.getD fun _ _ => 1) g t

/-- The channel has the Hill saturation. -/
def HasHill (k : MediaKind) (c : ℕ) : Prop :=
  k.sat = .inl .hill ∨ ∃ l, k.sat = .inr l ∧ l[c]? = some .hill

/-- Data in its domain. -/
structure Ok (s : Setup) : Prop where
  wf : WF s.ctx
  kpiPop : s.ctx.kpiT.pop = s.ctx.population
  kpiStd : 0 ≤ s.ctx.kpiT.std
  media : ∀ g t c, 0 ≤ s.ctx.data.media g t c
  reach : ∀ g t c, 0 ≤ s.ctx.data.reach g t c
  frequency : ∀ g t c, 0 ≤ s.ctx.data.frequency g t c
  organicMedia : ∀ g t c, 0 ≤ s.ctx.data.organicMedia g t c
  organicReach : ∀ g t c, 0 ≤ s.ctx.data.organicReach g t c
  organicFrequency : ∀ g t c, 0 ≤ s.ctx.data.organicFrequency g t c
  mediaMedian : ∀ c, 0 ≤ s.ctx.media.median c
  rfMedian : ∀ c, 0 ≤ s.ctx.rf.median c
  organicMediaMedian : ∀ c, 0 ≤ s.ctx.organicMedia.median c
  organicRfMedian : ∀ c, 0 ≤ s.ctx.organicRf.median c
  revenue : ∀ r, s.ctx.data.revenuePerKpi = some r → ∀ g t, 0 ≤ r g t

/-- Adstock and Hill parameters in their domain. -/
structure KindOk (l : KindDraw) : Prop where
  alpha : ∀ c, 0 ≤ l.alpha c
  ec : ∀ c, 0 < l.ec c
  slope : ∀ c, 0 < l.slope c

/-- All parameters in their domain. -/
structure DrawOk (l : Draw) : Prop where
  media : KindOk l.media
  rf : KindOk l.rf
  organicMedia : KindOk l.organicMedia
  organicRf : KindOk l.organicRf

/-- The Gaussian log density. -/
noncomputable def logGauss (mean sd x : ℝ) : ℝ :=
  Real.log (1 / (sd * Real.sqrt (2 * Real.pi)) * Real.exp (-(x - mean) ^ 2 / (2 * sd ^ 2)))

/-- The cell takes part in the likelihood. -/
def Observed (holdout : Option (ℕ → ℕ → Bool)) (g t : ℕ) : Prop :=
  ∀ h, holdout = some h → h g t = false

end Verif.Sampler.Spec

import Verif.Model.Mmm
import Verif.Spec.Adstock

/-!
# The published model equation

The mean of the outcome as the documentation of Meridian states it, written cell by cell: no
concatenation of channels, no windows, no tensors of coefficients.
-/

namespace Verif.Equation.Spec

open Verif.Mmm Verif.Adstock Verif.Adstock.Spec Finset

/-- The saturation function of a channel. -/
def satOf (k : MediaKind) (c : ℕ) : Sat :=
  match k.sat with
  | .inl s => s
  | .inr l => l.getD c .none

/-- Saturation: the Hill curve with half saturation `ec` and slope `slope`, or nothing. -/
noncomputable def saturate (s : Sat) (ec slope x : ℝ) : ℝ :=
  match s with
  | .hill => x ^ slope / (x ^ slope + ec ^ slope)
  | .none => x

/-- Media units per capita over the channel's median. -/
noncomputable def perCapita (ctx : Ctx) (k : MediaKind) (x : T3) (g t c : ℕ) : ℝ :=
  x g t c / (ctx.population g * k.median c)

/-- A treatment or control variable, divided by the population of the geo if it is scaled by
population, then centred and scaled; a constant one is zero. -/
noncomputable def standardised (cs : Transformers.CS) (g : ℕ) (x : ℝ) : ℝ :=
  let v := match cs.factors with
    | some f => x / f g
    | none => x
  if cs.std = 0 then 0 else (v - cs.mean) / cs.std

/-- The values of a variable over the media periods. -/
def overTime (n : ℕ) (x : ℕ → ℝ) : List ℝ := (List.range n).map x

/-- The effect of lagged values in the `t`-th of the last `nTimes` periods. -/
noncomputable def lagged (ctx : Ctx) (k : MediaKind) (alpha : ℝ) (c : ℕ) (x : List ℝ) (t : ℕ) : ℝ :=
  adstockAt (decayOf k.decay c) alpha (min (ctx.maxLag + 1) x.length) x
    ((x.length : ℤ) - ctx.nTimes + t)

/-- The effect of a media channel before its coefficient: saturation of the lagged units, or with
`hill_before_adstock` the lagged effect of the saturated units. -/
noncomputable def mediaEffect (ctx : Ctx) (k : MediaKind) (p : MediaParams) (nIn : ℕ) (x : T3)
    (g t c : ℕ) : ℝ :=
  if ctx.hillBeforeAdstock then
    lagged ctx k (p.alpha c) c
      (overTime nIn fun s => saturate (satOf k c) (p.ec c) (p.slope c) (perCapita ctx k x g s c)) t
  else
    saturate (satOf k c) (p.ec c) (p.slope c)
      (lagged ctx k (p.alpha c) c (overTime nIn fun s => perCapita ctx k x g s c) t)

/-- The effect of a reach and frequency channel before its coefficient: the lagged effect of reach
times the saturated frequency. -/
noncomputable def rfEffect (ctx : Ctx) (k : MediaKind) (p : MediaParams) (nIn : ℕ)
    (reach frequency : T3) (g t c : ℕ) : ℝ :=
  lagged ctx k (p.alpha c) c (overTime nIn fun s =>
    perCapita ctx k reach g s c * saturate (satOf k c) (p.ec c) (p.slope c) (frequency g s c)) t

/-- The mean on the scale of the model: time effect, geo effect, controls, non-media treatments, and
the four kinds of media. -/
noncomputable def equation (ctx : Ctx) (p : Params) (d : Data) (g t : ℕ) : ℝ :=
  p.mu t + p.tau g
    + ∑ c ∈ range ctx.nControls, p.gammaC g c * standardised (ctx.controlsT c) g (d.controls g t c)
    + ∑ c ∈ range ctx.nNonMedia, p.gammaN g c * standardised (ctx.nonMediaT c) g (d.nonMedia g t c)
    + ∑ c ∈ range ctx.media.n,
        p.media.beta g c * mediaEffect ctx ctx.media p.media d.nMediaTimes d.media g t c
    + ∑ c ∈ range ctx.rf.n,
        p.rf.beta g c * rfEffect ctx ctx.rf p.rf d.nMediaTimes d.reach d.frequency g t c
    + ∑ c ∈ range ctx.organicMedia.n, p.organicMedia.beta g c *
        mediaEffect ctx ctx.organicMedia p.organicMedia d.nMediaTimes d.organicMedia g t c
    + ∑ c ∈ range ctx.organicRf.n, p.organicRf.beta g c *
        rfEffect ctx ctx.organicRf p.organicRf d.nMediaTimes d.organicReach d.organicFrequency g t c

end Verif.Equation.Spec

import Verif.Model.Mmm

/-!
# What an incremental outcome means

The documentation of `Analyzer.incremental_outcome`: the expected outcome when the execution of ONE
channel is multiplied by a factor during the selected times, everything else as observed; a
non-media treatment is at its observed values or at its baseline.
-/

namespace Verif.Mmm.Spec

open Verif.Mmm

/-- A treatment channel. -/
inductive Chan where
  | media (c : ℕ)
  | rf (c : ℕ)
  | organicMedia (c : ℕ)
  | organicRf (c : ℕ)
  | nonMedia (c : ℕ)

/-- The channel exists. -/
def Chan.Valid (ctx : Ctx) : Chan → Prop
  | .media c => c < ctx.media.n
  | .rf c => c < ctx.rf.n
  | .organicMedia c => c < ctx.organicMedia.n
  | .organicRf c => c < ctx.organicRf.n
  | .nonMedia c => c < ctx.nNonMedia

/-- Position of a channel on the channel axis of the results: media, reach and frequency, organic
media, organic reach and frequency, non-media. -/
def Chan.pos (ctx : Ctx) : Chan → ℕ
  | .media c => c
  | .rf c => ctx.media.n + c
  | .organicMedia c => ctx.media.n + ctx.rf.n + c
  | .organicRf c => ctx.media.n + ctx.rf.n + ctx.organicMedia.n + c
  | .nonMedia c => ctx.media.n + ctx.rf.n + ctx.organicMedia.n + ctx.organicRf.n + c

/-- Multiply channel `c` of `x` by `s` at the selected times. -/
noncomputable def scaleOne (c : ℕ) (s : ℝ) (sel : ℕ → Bool) (x : T3) : T3 := fun g t c' =>
  if c' = c ∧ sel t = true then x g t c' * s else x g t c'

/-- The data with the execution of one channel multiplied by `s` at the selected times (reach for
`byReach`, else frequency).  Non-media channels are not multiplied, see `atBaseline`. -/
noncomputable def treat (d : Data) (ch : Chan) (s : ℝ) (sel : ℕ → Bool) (byReach : Bool) :
    Data :=
  match ch with
  | .media c => { d with media := scaleOne c s sel d.media }
  | .rf c => if byReach then { d with reach := scaleOne c s sel d.reach }
      else { d with frequency := scaleOne c s sel d.frequency }
  | .organicMedia c => { d with organicMedia := scaleOne c s sel d.organicMedia }
  | .organicRf c => if byReach then { d with organicReach := scaleOne c s sel d.organicReach }
      else { d with organicFrequency := scaleOne c s sel d.organicFrequency }
  | .nonMedia _ => d

/-- The data with one non-media channel at its baseline (given on the scale of the population-scaled
values), everything else untouched. -/
def atBaseline (ctx : Ctx) (d : Data) (c : ℕ) (baseline : ℕ → ℝ) : Data :=
  { d with nonMedia := fun g t c' => if c' = c then baseline c * nonMediaFactor ctx g c
                                     else d.nonMedia g t c' }

/-- What input validation and `ModelContext` guarantee: a revenue KPI has a revenue per KPI (all ones,
`InputData._validate_kpi`), populations are positive, the non-media transformer scales by population
exactly the channels of `non_media_population_scaling_id`, and the stored data has all media times. -/
structure WF (ctx : Ctx) : Prop where
  rev : ctx.kpiIsRevenue = true → ctx.data.revenuePerKpi.isSome
  pop : ∀ g, 0 < ctx.population g
  factors : ∀ c, (ctx.nonMediaT c).factors
    = ctx.nonMediaPopScaling.map fun f g => if f c then ctx.population g else 1
  times : ctx.data.nMediaTimes = ctx.nMediaTimes

/-- All Hill slopes are positive (the documented domain of the parameter). -/
def SlopesPos (ctx : Ctx) (p : Params) : Prop :=
  (∀ c < ctx.media.n, 0 < p.media.slope c) ∧ (∀ c < ctx.rf.n, 0 < p.rf.slope c) ∧
  (∀ c < ctx.organicMedia.n, 0 < p.organicMedia.slope c) ∧
  ∀ c < ctx.organicRf.n, 0 < p.organicRf.slope c

end Verif.Mmm.Spec

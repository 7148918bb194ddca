import Mathlib.Data.Rat.Floor
import Mathlib.Data.List.MinMax
import Verif.Model.Interval
import Verif.Model.Review
import Verif.Model.Eda

/-!
# The calibration checks of the model review

`ImplausibleROICheck.run`, `HighVarianceCheck.run` and `PotentialBiasCheck.run`
(`meridian/analysis/review/checks.py:919-1236`) with their results
(`meridian/analysis/review/results.py:610-885`) and configurations
(`meridian/analysis/review/configs.py:203-249`).  `az.hdi`, `scipy.stats.pearsonr`, `np.median` and
`np.nanmax` are modelled from the documentation and source of those packages.  Numbers are exact; the
draws are finite.  Shapes that the code would refuse or broadcast (a spend array whose length is not
the number of channels) are not modelled: the lists are zipped.  Messages are left out.
-/

namespace Verif.Calibration

open Verif.Interval (sorted medianFin meanFin)
open Verif.Review (spendShare plausCase PlausCase)

/-- Errors. -/
inductive Err where
  | noRoi
  | missingVariable
  | hdiProb
  | tooFewDraws
  | noPaidChannels
  | tooShort
deriving DecidableEq

/-- The part of the posterior for one kind of paid channel: the names on its channel coordinate, and
the ROI variable (`roi_m` or `roi_rf`) if there is one, as the draws of every channel over all the
chains. -/
structure Kind where
  names : List String
  roi : Option (List (List ℚ))

/-- The posterior: `none` if the channel coordinate is missing. -/
structure Posterior where
  media : Option Kind
  rf : Option Kind

/-- Reading the channels and the draws of one kind, `meridian/analysis/review/checks.py:963-970`. -/
def Kind.read (k : Kind) : Except Err (List (String × List ℚ)) :=
  match k.roi with
  | none => .error .missingVariable
  | some d => .ok (k.names.zip d)

/-- Step 2 of both ROI checks, `meridian/analysis/review/checks.py:960-976, 1063-1080`: the names and
draws of the media channels, then those of the reach and frequency channels. -/
def Posterior.read (p : Posterior) : Except Err (List (String × List ℚ)) :=
  match p.media, p.rf with
  | none, none => .error .noRoi
  | some m, none => m.read
  | none, some r => r.read
  | some m, some r =>
    match m.read, r.read with
    | .ok a, .ok b => .ok (a ++ b)
    | _, _ => .error .missingVariable

/-! ## Implausible ROI -/

/-- `ImplausibleROIConfig`, `meridian/analysis/review/configs.py:205-218`. -/
structure PlausConfig where
  upper : ℚ
  lower : ℚ

/-- `ImplausibleROIChannelResult`, `meridian/analysis/review/results.py:649-673`. -/
structure PlausChannel where
  name : String
  case : PlausCase
  share : ℚ
  mean : ℚ
  weighted : ℚ
deriving DecidableEq

/-- `ImplausibleROICheckResult`, `meridian/analysis/review/results.py:676-702`, with the bounds it
reports. -/
structure PlausResult where
  review : Bool
  channels : List PlausChannel
  high : List String
  low : List String
  reported : ℚ × ℚ
deriving DecidableEq

/-- One channel, `meridian/analysis/review/checks.py:977-1017`. -/
def plausChannel (c : PlausConfig) (x : (String × List ℚ) × ℚ) : PlausChannel :=
  { name := x.1.1
    case := plausCase c.upper c.lower (meanFin x.1.2) x.2
    share := x.2
    mean := meanFin x.1.2
    weighted := meanFin x.1.2 * x.2 }

/-- `ImplausibleROICheck.run`, `meridian/analysis/review/checks.py:955-1046`.  The result is built
without the bounds of the configuration, so it reports the default bounds (`results.py:695-696`). -/
def implausible (c : PlausConfig) (p : Posterior) (spend : List ℚ) : Except Err PlausResult :=
  match p.read with
  | .error e => .error e
  | .ok chs =>
    let rows := (chs.zip (spendShare spend)).map (plausChannel c)
    let high := (rows.filter fun r => r.case = .high).map (·.name)
    let low := (rows.filter fun r => r.case = .low).map (·.name)
    .ok ⟨!high.isEmpty || !low.isEmpty, rows, high, low, (20, 1 / 2)⟩

/-! ## High variance -/

/-- The interval of `az.hdi` for one channel (`_hdi` of `arviz/stats/stats.py`), called at
`meridian/analysis/review/checks.py:1083`: of the intervals from a sorted draw to the one `k` places
further, `k = floor(prob * n)`, the first of least width; an error (`none`) if there is none. -/
def hdi (prob : ℚ) (x : List ℚ) : Option (ℚ × ℚ) :=
  let k : ℕ := ⌊prob * x.length⌋.toNat
  ((List.range (x.length - k)).argmin fun i => (sorted x).getD (i + k) 0 - (sorted x).getD i 0).map
    fun i => ((sorted x).getD i 0, (sorted x).getD (i + k) 0)

/-- `HighVarianceConfig`, `meridian/analysis/review/configs.py:221-238`. -/
structure VarConfig where
  threshold : ℚ
  priorWidth : ℚ
  prob : ℚ

/-- `HighVarianceChannelResult`, `meridian/analysis/review/results.py:746-768`. -/
structure VarChannel where
  name : String
  flagged : Bool
  share : ℚ
  ratio : ℚ
deriving DecidableEq

/-- `HighVarianceCheckResult`, `meridian/analysis/review/results.py:771-797`, with the prior width it
reports. -/
structure VarResult where
  review : Bool
  channels : List VarChannel
  flagged : List String
  reported : ℚ
deriving DecidableEq

/-- `rel_width_post`, `meridian/analysis/review/checks.py:1086-1091`: zero if the median is zero. -/
def relWidth (w med : ℚ) : ℚ := if med ≠ 0 then w / |med| else 0

/-- `relative_width_ratio`, `meridian/analysis/review/checks.py:1094-1099`: zero if the prior width
is zero. -/
def widthRatio (c : VarConfig) (rel : ℚ) : ℚ := if c.priorWidth ≠ 0 then rel / c.priorWidth else 0

/-- One channel, `meridian/analysis/review/checks.py:1081-1120`. -/
def varChannel (c : VarConfig) (x : (String × List ℚ) × ℚ) : Except Err VarChannel :=
  match hdi c.prob x.1.2 with
  | none => .error .tooFewDraws
  | some (lo, hi) =>
    let ratio := widthRatio c (relWidth (hi - lo) (medianFin x.1.2))
    .ok { name := x.1.1
          flagged := decide (c.threshold < ratio * x.2)
          share := x.2
          ratio := ratio }

/-- All channels, in order. -/
def varChannels (c : VarConfig) : List ((String × List ℚ) × ℚ) → Except Err (List VarChannel)
  | [] => .ok []
  | x :: l =>
    match varChannel c x with
    | .error e => .error e
    | .ok r =>
      match varChannels c l with
      | .error e => .error e
      | .ok rs => .ok (r :: rs)

/-- The default of `prior_relative_hdi_width`, `meridian/analysis/review/constants.py:58`. -/
def defaultPriorWidth : ℚ := 20687 / 10000

/-- `HighVarianceCheck.run`, `meridian/analysis/review/checks.py:1058-1132`.  `az.hdi` refuses a
probability outside `(0, 1]`.  The result is built without the prior width of the configuration, so
it reports the default (`results.py:785-787`). -/
def highVariance (c : VarConfig) (p : Posterior) (spend : List ℚ) : Except Err VarResult :=
  match p.read with
  | .error e => .error e
  | .ok chs =>
    if ¬ (0 < c.prob ∧ c.prob ≤ 1) then .error .hdiProb
    else
      match varChannels c (chs.zip (spendShare spend)) with
      | .error e => .error e
      | .ok rows =>
        let flagged := (rows.filter (·.flagged)).map (·.name)
        .ok ⟨!flagged.isEmpty, rows, flagged, defaultPriorWidth⟩

/-! ## Potential bias -/

/-- The inputs of the potential-bias check: media and RF data have `lead + T` media times, the
controls the last `T` of them. -/
structure Data (G lead T : ℕ) where
  media : Option (List (String × (Fin G → Fin (lead + T) → ℝ)))
  rf : Option (List (String × (Fin G → Fin (lead + T) → ℝ) × (Fin G → Fin (lead + T) → ℝ)))
  controls : Option (List (String × (Fin G → Fin T → ℝ)))

variable {G lead T : ℕ}

/-- Reach times frequency, `meridian/data/input_data.py:1077-1088`. -/
def impressions (x : String × (Fin G → Fin (lead + T) → ℝ) × (Fin G → Fin (lead + T) → ℝ)) :
    String × (Fin G → Fin (lead + T) → ℝ) :=
  (x.1, fun g t => x.2.1 g t * x.2.2 g t)

/-- `get_all_paid_channels` with `get_all_media_and_rf`, `meridian/data/input_data.py:961-979` and
`1067-1092`: `none` (an error) without paid channels. -/
def Data.paid (d : Data G lead T) : Option (List (String × (Fin G → Fin (lead + T) → ℝ))) :=
  match d.media, d.rf with
  | some m, some r => some (m ++ r.map impressions)
  | none, some r => some (r.map impressions)
  | some m, none => some m
  | none, none => none

/-- One number of the correlation matrix, `meridian/analysis/review/checks.py:1176-1191`: the last
`T` media times of a channel against a control in the same geo; `pearsonr` gives NaN if one of them
is constant. -/
noncomputable def corrAt (x : Fin G → Fin (lead + T) → ℝ) (z : Fin G → Fin T → ℝ) (g : Fin G) :
    Option ℝ :=
  Verif.Eda.corr (fun t => x g (Fin.natAdd lead t)) (fun t => z g t)

/-- `np.nanmax(np.abs(..), axis=(0, 2))` for one channel, `meridian/analysis/review/checks.py:1192`:
NaN if all are. -/
noncomputable def maxAbs (zs : List (String × (Fin G → Fin T → ℝ)))
    (x : Fin G → Fin (lead + T) → ℝ) : Option ℝ :=
  ((List.finRange G).flatMap fun g => zs.filterMap fun z => (corrAt x z.2 g).map (|·|)).argmax id

/-- `PotentialBiasAggregateCases`, `meridian/analysis/review/results.py:814-848`. -/
inductive BiasCase where
  | pass
  | review
  | noControls
deriving DecidableEq

/-- `PotentialBiasChannelResult`, `meridian/analysis/review/results.py:851-863`. -/
structure BiasChannel where
  name : String
  low : Bool
  maxAbs : Option ℝ

/-- `PotentialBiasCheckResult`, `meridian/analysis/review/results.py:866-886`.  The matrix is
labelled by channel, control and geo. -/
structure BiasResult (G : ℕ) where
  case : BiasCase
  channels : List BiasChannel
  low : List String
  matrix : List (String × List (String × (Fin G → Option ℝ)))
  reported : ℝ

open Classical in
/-- One channel, `meridian/analysis/review/checks.py:1197-1211`; a comparison with NaN is false. -/
noncomputable def biasChannel (threshold : ℝ) (zs : List (String × (Fin G → Fin T → ℝ)))
    (x : String × (Fin G → Fin (lead + T) → ℝ)) : BiasChannel :=
  { name := x.1
    low := match maxAbs zs x.2 with
      | none => false
      | some m => decide (m < threshold)
    maxAbs := maxAbs zs x.2 }

/-- `PotentialBiasCheck.run`, `meridian/analysis/review/checks.py:1144-1236`.  `pearsonr` refuses
fewer than two times.  The result is built without the threshold of the configuration, so it reports
the default (`results.py:870-872`). -/
noncomputable def potentialBias (threshold : ℝ) (d : Data G lead T) : Except Err (BiasResult G) :=
  match d.paid with
  | none => .error .noPaidChannels
  | some xs =>
    match d.controls with
    | none => .ok ⟨.noControls, [], [], xs.map fun x => (x.1, []), 1 / 10⟩
    | some [] => .ok ⟨.noControls, [], [], xs.map fun x => (x.1, []), 1 / 10⟩
    | some (z :: zs) =>
      if T < 2 then .error .tooShort
      else
        let rows := xs.map (biasChannel threshold (z :: zs))
        let low := (rows.filter (·.low)).map (·.name)
        .ok ⟨if low.isEmpty then .pass else .review, rows, low,
          xs.map fun x => (x.1, (z :: zs).map fun c => (c.1, corrAt x.2 c.2)), 1 / 10⟩

end Verif.Calibration

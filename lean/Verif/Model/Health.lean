import Mathlib.Analysis.SpecialFunctions.Exp
import Mathlib.Analysis.SpecialFunctions.Pow.Real
import Verif.Model.Review

/-!
# The health score

`meridian/analysis/review/reviewer.py:49-199, 315-349` and the constants of
`meridian/analysis/review/constants.py:73-80`, over the reals; `none` is NaN.
-/

namespace Verif.Health

open Verif.Accuracy (Fl)
open Verif.Review

/-- `numpy.clip(x, 0, 1)`. -/
noncomputable def clip01 (x : ℝ) : ℝ := min 1 (max 0 x)

/-- `_get_baseline_score`, `meridian/analysis/review/reviewer.py:49-66`.  Equal thresholds divide by
zero: the quotient is an infinity, or NaN if the probability equals the thresholds. -/
noncomputable def baselineScore (c : BaselineConfig) (p : ℚ) : Option ℝ :=
  if c.fail = c.review then
    if p < c.review then some 100 else if c.review < p then some 0 else none
  else some (100 * (1 - clip01 (((p - c.review) / (c.fail - c.review) : ℚ) : ℝ)))

/-- `_get_bayesian_ppp_score`, `meridian/analysis/review/reviewer.py:69-76`. -/
noncomputable def pppScore (thr p : ℚ) : ℝ := if thr < p then 100 else 0

/-- `_get_gof_score`, `meridian/analysis/review/reviewer.py:79-90`; of the R-squared of all data. -/
noncomputable def gofScore : Fl → Option ℝ
  | .nan => none
  | .pinf => some 100
  | .ninf => some 0
  | .fin r => some (100 / (1 + Real.exp (-15 * ((r : ℝ) - 1 / 2))))

/-- `100 * (1 - clip(ratio)) ** 0.4` with the ratio of the failing channels,
`meridian/analysis/review/reviewer.py:105-114, 128-139`. -/
noncomputable def ratioScore (failing total : ℕ) : ℝ :=
  if total = 0 then 100
  else 100 * (1 - clip01 ((failing : ℝ) / total)) ^ (2 / 5 : ℝ)

/-- The status of the ROI consistency of a channel, `meridian/analysis/review/results.py:453-465`. -/
def roiPass : RoiCase → Bool
  | .pass => true
  | _ => false

/-- The components in the order of the table, each with its weight in hundredths,
`meridian/analysis/review/reviewer.py:164-200`, `meridian/analysis/review/constants.py:76-80`. -/
def weights : List (CheckId × ℚ) :=
  [(.baseline, 30 / 100), (.ppp, 30 / 100), (.gof, 10 / 100), (.pps, 15 / 100), (.roi, 15 / 100)]

/-- The score of a result; other results are no components. -/
noncomputable def score : Result → Option ℝ
  | .baseline _ c p => baselineScore c p
  | .ppp _ thr p => some (pppScore thr p)
  | .gof _ r => gofScore r.all
  | .pps _ l ns => some (ratioScore ns.length l.length)
  | .roi _ l => some (ratioScore (l.countP fun p => !roiPass p.2) l.length)
  | _ => none

/-- The result of a check: the last one stored under its class. -/
def lookup (rs : List Result) (i : CheckId) : Option Result :=
  (rs.filter fun r => r.id == i).getLast?

/-- `scores_and_weights`, `meridian/analysis/review/reviewer.py:335-344`. -/
noncomputable def scoresAndWeights (rs : List Result) : List (Option ℝ × ℚ) :=
  weights.filterMap fun iw => (lookup rs iw.1).map fun r => (score r, iw.2)

/-- The sum, with NaN. -/
noncomputable def sumScore : List (Option ℝ × ℚ) → Option ℝ
  | [] => some 0
  | (s, w) :: l =>
    match s, sumScore l with
    | some x, some y => some (x * w + y)
    | _, _ => none

/-- The weighted mean, `meridian/analysis/review/reviewer.py:346-349`. -/
noncomputable def weightedMean (l : List (Option ℝ × ℚ)) : Option ℝ :=
  if (l.map Prod.snd).sum = 0 then some 0
  else (sumScore l).map fun s => s / ((l.map Prod.snd).sum : ℚ)

/-- The result of a convergence check that stops the review. -/
def stopped : Result → Bool
  | .convergence c => c.case == .notConverged
  | _ => false

/-- The health score of a summary: zero if the model did not converge
(`meridian/analysis/review/reviewer.py:363-376`), otherwise `_compute_health_score`
(`meridian/analysis/review/reviewer.py:315-349`). -/
noncomputable def health (s : Summary) : Option ℝ :=
  if s.results.any stopped then some 0
  else weightedMean (scoresAndWeights s.results)

end Verif.Health

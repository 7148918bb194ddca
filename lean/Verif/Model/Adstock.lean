import Mathlib.Analysis.SpecialFunctions.Pow.Real

/-!
# Adstock and Hill

`meridian/model/adstock_hill.py` and the TensorFlow `adstock_process` of
`meridian/backend/__init__.py`, for one batch entry, one geo and one channel (every operation acts
pointwise on those axes).  The time axis is a list, oldest period first.
-/

namespace Verif.Adstock

open Real

/-- The two decay functions, `constants.ADSTOCK_DECAY_FUNCTIONS`
(`meridian/model/adstock_hill.py:93-99`). -/
inductive Decay where
  | geometric
  | binomial
deriving DecidableEq

/-- Errors of `_validate_arguments`, `meridian/model/adstock_hill.py:208-234`, and of stacking
slices of unequal length. -/
inductive Err where
  | outputTooLong
  | outputNotPositive
  | maxLagNegative
  | stackShape
deriving DecidableEq

/-- `_map_alpha_for_binomial_decay`, `meridian/model/adstock_hill.py:297-301`.  `none` is `+inf`
(the value of `1 / 0 - 1`). -/
noncomputable def mapAlphaBinomial (x : ℝ) : Option ℝ := if x = 0 then none else some (1 / x - 1)

/-- Power with exponent possibly `+inf`, for a base in `[0, 1]`: IEEE `pow(1, inf) = 1`,
`pow(x, inf) = 0` for `|x| < 1`. -/
noncomputable def powExt (b : ℝ) : Option ℝ → ℝ
  | none => if b = 1 then 1 else 0
  | some e => b ^ e

/-- The unnormalised weight at lag `l`, `meridian/model/adstock_hill.py:194-198`. -/
noncomputable def rawWeight (d : Decay) (alpha : ℝ) (windowSize l : ℕ) : ℝ :=
  match d with
  | .geometric => alpha ^ l
  | .binomial => powExt (1 - (l : ℝ) / windowSize) (mapAlphaBinomial alpha)

/-- `_compute_single_decay_function_weights`, `meridian/model/adstock_hill.py:167-205`. -/
noncomputable def decayWeights (d : Decay) (alpha : ℝ) (lRange : List ℕ) (windowSize : ℕ)
    (normalize : Bool) : List ℝ :=
  let weights := lRange.map (rawWeight d alpha windowSize)
  if normalize then weights.map fun w => w / weights.sum else weights

/-- `compute_decay_weights` for channel `c`: one decay function for all channels (`none`) or one
per channel, `meridian/model/adstock_hill.py:135-158` (the `where` on `is_binomial`). -/
noncomputable def computeDecayWeights (single : Decay ⊕ List Decay) (c : ℕ) (alpha : ℝ)
    (lRange : List ℕ) (windowSize : ℕ) (normalize : Bool) : List ℝ :=
  match single with
  | .inl d => decayWeights d alpha lRange windowSize normalize
  | .inr ds =>
    if ds[c]? = some .binomial then decayWeights .binomial alpha lRange windowSize normalize
    else decayWeights .geometric alpha lRange windowSize normalize

/-- Python slice `xs[i:j]` for `0 <= i <= j`. -/
def slice {α : Type} (xs : List α) (i j : ℕ) : List α := (xs.drop i).take (j - i)

/-- `_tf_adstock_process`, `meridian/backend/__init__.py:1217-1248`: the windows
`media[i : i + n_times_output]` are stacked and contracted with the weights.  `stack` raises when
the windows differ in length. -/
noncomputable def tfAdstockProcess (media weights : List ℝ) (nOut : ℕ) : Except Err (List ℝ) :=
  let windows := (List.range weights.length).map fun i => slice media i (i + nOut)
  if ∃ w ∈ windows, w.length ≠ nOut then .error .stackShape
  else .ok ((List.range nOut).map fun t =>
    ((List.zipWith (fun w win => w * win.getD t 0) weights windows)).sum)

/-- Truncation or zero padding of the media history, `meridian/model/adstock_hill.py:256-281`. -/
def fitHistory (media : List ℝ) (required : ℕ) : List ℝ :=
  if required < media.length then media.drop (media.length - required)
  else if media.length < required then List.replicate (required - media.length) 0 ++ media
  else media

/-- `_adstock`, `meridian/model/adstock_hill.py:237-294`.  `maxLag` and `nOut` are Python integers;
the shape checks between batch and channel axes are not modelled (one series). -/
noncomputable def adstock (single : Decay ⊕ List Decay) (c : ℕ) (media : List ℝ) (alpha : ℝ)
    (maxLag nOut : ℤ) : Except Err (List ℝ) :=
  if (media.length : ℤ) < nOut then .error .outputTooLong
  else if nOut ≤ 0 then .error .outputNotPositive
  else if maxLag < 0 then .error .maxLagNegative
  else
    let windowSize := min (maxLag.toNat + 1) media.length
    let required := nOut.toNat + windowSize - 1
    let media' := fitHistory media required
    let lRange := (List.range windowSize).reverse
    tfAdstockProcess media' (computeDecayWeights single c alpha lRange windowSize true) nOut.toNat

/-- `_hill` for one value, `meridian/model/adstock_hill.py:304-328`. -/
noncomputable def hill (media ec slope : ℝ) : ℝ := media ^ slope / (media ^ slope + ec ^ slope)

/-- `HillTransformer.forward` on a series, `meridian/model/adstock_hill.py:422-439`. -/
noncomputable def hillSeries (media : List ℝ) (ec slope : ℝ) : List ℝ :=
  media.map fun m => hill m ec slope

end Verif.Adstock

import Verif.Model.Num
import Mathlib.Data.List.Basic

/-!
# Arguments by channel, the model specification and its use with data

`meridian/data/arg_builder.py`, `meridian/model/spec.py`, the parts of `meridian/model/context.py`
that check the specification against the data and map functions to channels, and
`compute_non_media_treatments_baseline` of `meridian/model/equations.py`.

A Python dictionary is an association list, the first entry of a key counts.
-/

namespace Verif.Options

inductive Err
  | unexpectedArgument | coordinates | unknownChannel | noChannels | decayFunction
  | effectsDist | paidPriorType | mediaPriorType | rfPriorType | organicMediaPriorType
  | organicRfPriorType | nonMediaPriorType | calibrationPrior | calibrationDims | knotsIntegers
  | knotsEmpty | knotsZero | knotsAks | knotsType | saturation | saturationType | shape
  | baselineLength | baselineValue | noValues
  deriving DecidableEq, Repr

/-- `set(a) == set(b)`. -/
def sameSet (a b : List String) : Bool :=
  (a.all fun x => b.contains x) && b.all fun x => a.contains x

/-! ### Arguments by channel -/

/-- `kwargs.get(c, default)`; `none` is `None`. -/
def getArg {α : Type} (kwargs : List (String × α)) (default : Option α) (c : String) : Option α :=
  match kwargs.lookup c with
  | some v => some v
  | none => default

/-- `OrderedListArgumentBuilder.__call__`, `meridian/data/arg_builder.py:89-107`.  Python itself
refuses a keyword `self`, the name of the first parameter. -/
def buildArgs {α : Type} (coords : List String) (default : Option α) (kwargs : List (String × α)) :
    Except Err (List (Option α)) :=
  if (kwargs.map Prod.fst).contains "self" then .error .unexpectedArgument
  else if default.isNone && !sameSet (kwargs.map Prod.fst) coords then .error .coordinates
  else .ok (coords.map (getArg kwargs default))

/-! ### Decay and saturation functions by channel -/

/-- The channels of the input data that are transformed by adstock and Hill, `none` where there is
no array of the type. -/
structure Channels where
  media : Option (List String) := none
  rf : Option (List String) := none
  organicMedia : Option (List String) := none
  organicRf : Option (List String) := none

/-- `get_all_adstock_hill_channels`, `meridian/data/input_data.py:981-1005`. -/
def allChannels (c : Channels) : Except Err (List String) :=
  match [c.media, c.rf, c.organicMedia, c.organicRf].filterMap id with
  | [] => .error .noChannels
  | l => .ok l.flatten

/-- One function for all channels of the type, or a list of functions. -/
inductive Funs
  | one (f : String)
  | each (l : List (Option String))
  deriving DecidableEq, Repr

/-- `AdstockDecaySpec`, `meridian/model/adstock_hill.py:52-55`, and `SaturationSpec`,
`meridian/model/context.py:79-82`. -/
structure FunSpec where
  media : Funs
  rf : Funs
  organicMedia : Funs
  organicRf : Funs
  deriving DecidableEq, Repr

/-- One of the four blocks `if ... is not None: builder(**map) else: default`,
`meridian/model/context.py:966-1000` and 1041-1073. -/
def typeFuns (default : String) (m : List (String × String)) : Option (List String) → Except Err Funs
  | none => .ok (.one default)
  | some cs =>
    match buildArgs cs (some default) m with
    | .error e => .error e
    | .ok l => .ok (.each l)

/-- The check of the names, `meridian/model/context.py:962-964` and 1037-1039. -/
def namesKnown (c : Channels) : List (String × String) → Except Err Unit
  | [] => .ok ()
  | (ch, _) :: m =>
    match allChannels c with
    | .error e => .error e
    | .ok l => if l.contains ch then namesKnown c m else .error .unknownChannel

/-- `_create_adstock_decay_functions_from_channel_map` and
`_create_saturation_functions_from_channel_map`, `meridian/model/context.py:957-1007` and
1032-1080. -/
def fromMap (default : String) (c : Channels) (m : List (String × String)) :
    Except Err FunSpec := do
  namesKnown c m
  let media ← typeFuns default m c.media
  let rf ← typeFuns default m c.rf
  let organicMedia ← typeFuns default m c.organicMedia
  let organicRf ← typeFuns default m c.organicRf
  return { media, rf, organicMedia, organicRf }

/-- A string for all channels or a mapping. -/
inductive Choice
  | all (f : String)
  | byChannel (m : List (String × String))
  | other

/-- `_validate_adstock_decay_function`, `meridian/model/adstock_hill.py:93-99`. -/
def validDecay (f : String) : Bool := f == "geometric" || f == "binomial"

/-- One step of `__post_init__`, `meridian/model/adstock_hill.py:85-90`. -/
def funsValid : Funs → Bool
  | .one f => validDecay f
  | .each l => l.all fun o => (o.map validDecay).getD false

/-- `AdstockDecaySpec.__post_init__`, `meridian/model/adstock_hill.py:77-90`. -/
def decaySpec (s : FunSpec) : Except Err FunSpec :=
  if [s.media, s.rf, s.organicMedia, s.organicRf].all funsValid then .ok s
  else .error .decayFunction

/-- `ModelContext.adstock_decay_spec`, `meridian/model/context.py:937-955`. -/
def adstockDecaySpec (c : Channels) : Choice → Except Err FunSpec
  | .all f => decaySpec ⟨.one f, .one f, .one f, .one f⟩
  | .byChannel m =>
    match fromMap "geometric" c m with
    | .error e => .error e
    | .ok s => decaySpec s
  | .other => .error .unexpectedArgument

/-- `ModelContext.saturation_spec`, `meridian/model/context.py:1009-1030`; the functions have been
checked by the model specification. -/
def saturationSpec (c : Channels) : Choice → Except Err FunSpec
  | .all f => .ok ⟨.one f, .one f, .one f, .one f⟩
  | .byChannel m => fromMap "hill" c m
  | .other => .error .unexpectedArgument

/-- `_get_decay`, `meridian/model/context.py:60-61`: the function of the channel of an index. -/
def funAt : Funs → ℕ → Option String
  | .one f, _ => some f
  | .each l, i => (l[i]?).join

/-! ### The model specification -/

/-- The argument `knots`. -/
inductive Knots
  | none
  | int (k : ℤ)
  /-- a collection; `none` is an element that is not an integer -/
  | coll (l : List (Option ℤ))
  | other

/-- `ModelSpec`, `meridian/model/spec.py:232-257`, without the fields that are not checked at
construction except `max_lag`.  The calibration periods are given by their shapes. -/
structure Spec where
  mediaEffectsDist : String := "log_normal"
  maxLag : ℤ := 8
  mediaPriorType : Option String := none
  rfPriorType : Option String := none
  paidMediaPriorType : Option String := none
  roiCalibration : Option (List ℕ) := none
  rfRoiCalibration : Option (List ℕ) := none
  organicMediaPriorType : String := "contribution"
  organicRfPriorType : String := "contribution"
  nonMediaPriorType : String := "contribution"
  knots : Knots := .none
  saturation : Choice := .all "hill"
  enableAks : Bool := false

/-- `effective_media_prior_type`, `meridian/model/spec.py:395-409`. -/
def effectiveMedia (s : Spec) : String :=
  match s.mediaPriorType with
  | some t => t
  | none =>
    match s.paidMediaPriorType with
    | some t => t
    | none => "roi"

/-- `effective_rf_prior_type`, `meridian/model/spec.py:411-425`. -/
def effectiveRf (s : Spec) : String :=
  match s.rfPriorType with
  | some t => t
  | none =>
    match s.paidMediaPriorType with
    | some t => t
    | none => "roi"

/-- `PAID_TREATMENT_PRIOR_TYPES`, `meridian/constants.py`. -/
def paidTypes : List String := ["roi", "mroi", "coefficient", "contribution"]

/-- `NON_PAID_TREATMENT_PRIOR_TYPES`, `meridian/constants.py`. -/
def nonPaidTypes : List String := ["coefficient", "contribution"]

/-- `_validate_roi_calibration_period`, `meridian/model/spec.py:36-55`: `none` if accepted. -/
def calibrationErr (shape : Option (List ℕ)) (priorType : String) : Option Err :=
  match shape with
  | none => none
  | some sh =>
    if priorType != "roi" then some .calibrationPrior
    else if sh.length != 2 then some .calibrationDims
    else none

/-- The checks of `knots`, `meridian/model/spec.py:355-373`. -/
def knotsErr (k : Knots) (enableAks : Bool) : Option Err :=
  match k with
  | .none => none
  | .int k =>
    if k == 0 then some .knotsZero
    else if enableAks then some .knotsAks
    else none
  | .coll l =>
    if !l.all Option.isSome then some .knotsIntegers
    else if l.isEmpty then some .knotsEmpty
    else if enableAks then some .knotsAks
    else none
  | .other => if enableAks then some .knotsAks else some .knotsType

/-- The checks of `saturation_spec`, `meridian/model/spec.py:375-393`. -/
def saturationErr : Choice → Option Err
  | .all f => if ["hill", "none"].contains f then none else some .saturation
  | .byChannel m =>
    if m.all fun x => ["hill", "none"].contains x.2 then none else some .saturation
  | .other => some .saturationType

/-- `ModelSpec.__post_init__`, `meridian/model/spec.py:259-393`: `none` if accepted. -/
def specErr (s : Spec) : Option Err :=
  if !["normal", "log_normal"].contains s.mediaEffectsDist then some .effectsDist
  else if s.paidMediaPriorType.isSome && (s.mediaPriorType.isSome || s.rfPriorType.isSome) then
    some .paidPriorType
  else if !paidTypes.contains (effectiveMedia s) then some .mediaPriorType
  else if !paidTypes.contains (effectiveRf s) then some .rfPriorType
  else if !nonPaidTypes.contains s.organicMediaPriorType then some .organicMediaPriorType
  else if !nonPaidTypes.contains s.organicRfPriorType then some .organicRfPriorType
  else if !nonPaidTypes.contains s.nonMediaPriorType then some .nonMediaPriorType
  else
    match calibrationErr s.roiCalibration (effectiveMedia s) with
    | some e => some e
    | none =>
      match calibrationErr s.rfRoiCalibration (effectiveRf s) with
      | some e => some e
      | none =>
        match knotsErr s.knots s.enableAks with
        | some e => some e
        | none => saturationErr s.saturation

/-! ### The specification and the data -/

/-- Sizes of the data. -/
structure Sizes where
  nGeos : ℕ
  nTimes : ℕ
  nMediaTimes : ℕ
  nMedia : ℕ
  nRf : ℕ
  nControls : ℕ
  nNonMedia : ℕ

/-- Shapes of the options that depend on the data. -/
structure Shapes where
  roiCalibration : Option (List ℕ) := none
  rfRoiCalibration : Option (List ℕ) := none
  holdout : Option (List ℕ) := none
  controlScaling : Option (List ℕ) := none
  nonMediaScaling : Option (List ℕ) := none

/-- `x is not None and x.shape != expected`. -/
def badShape (x : Option (List ℕ)) (expected : List ℕ) : Bool :=
  match x with
  | none => false
  | some sh => sh != expected

/-- `_validate_data_dependent_model_spec`, `meridian/model/context.py:113-184`; the checks of
`_validate_model_spec_shapes` (183-232) are the same again.  `is_national` is `n_geos == 1`. -/
def shapesOk (z : Sizes) (s : Shapes) : Bool :=
  if badShape s.roiCalibration [z.nMediaTimes, z.nMedia] then false
  else if badShape s.rfRoiCalibration [z.nMediaTimes, z.nRf] then false
  else if z.nGeos == 1 && badShape s.holdout [z.nTimes] then false
  else if !(z.nGeos == 1) && badShape s.holdout [z.nGeos, z.nTimes] then false
  else if badShape s.controlScaling [z.nControls] then false
  else if badShape s.nonMediaScaling [z.nNonMedia] then false
  else true

/-! ### Baselines of the non-media treatments -/

/-- An element of `non_media_baseline_values`. -/
inductive Baseline
  | str (s : String)
  | num (q : ℚ)

/-- Values of a channel over all geos and times. -/
def values (x : ℕ → ℕ → ℚ) (G T : ℕ) : List ℚ :=
  (List.range G).flatMap fun g => (List.range T).map fun t => x g t

/-- `divide_no_nan`. -/
def divideNoNan (a b : ℚ) : ℚ := if b = 0 then 0 else a / b

/-- `non_media_treatments_population_scaled`, `meridian/model/equations.py:237-251`. -/
def populationScaled (x : ℕ → ℕ → ℕ → ℚ) (population : ℕ → ℚ) (scalingId : Option (ℕ → Bool))
    (g t c : ℕ) : ℚ :=
  divideNoNan (x g t c) (match scalingId with
    | none => 1
    | some id => if id c then population g else 1)

/-- `reduce_min`, `reduce_max` or the number, `meridian/model/equations.py:274-292`. -/
def baselineOf (x : ℕ → ℕ → ℚ) (G T : ℕ) : Baseline → Except Err ℚ
  | .str s =>
    if s == "min" then
      match (values x G T).min? with
      | some q => .ok q
      | none => .error .noValues
    else if s == "max" then
      match (values x G T).max? with
      | some q => .ok q
      | none => .error .noValues
    else .error .baselineValue
  | .num q => .ok q

/-- The loop over the channels, `meridian/model/equations.py:272-294`. -/
def baselineList (x : ℕ → ℕ → ℕ → ℚ) (G T : ℕ) : ℕ → List Baseline → Except Err (List ℚ)
  | _, [] => .ok []
  | c, b :: bs =>
    match baselineOf (fun g t => x g t c) G T b with
    | .error e => .error e
    | .ok q =>
      match baselineList x G T (c + 1) bs with
      | .error e => .error e
      | .ok qs => .ok (q :: qs)

/-- `compute_non_media_treatments_baseline`, `meridian/model/equations.py:210-296`: `C` channels;
`given` is the argument, `spec` the value of the model specification. -/
def nonMediaBaseline (x : ℕ → ℕ → ℕ → ℚ) (G T C : ℕ) (population : ℕ → ℚ)
    (scalingId : Option (ℕ → Bool)) (given spec : Option (List Baseline)) :
    Except Err (List ℚ) :=
  let values := match given with
    | some l => some l
    | none => spec
  let filled := match values with
    | some l => l
    | none => List.replicate C (.str "min")
  if C != filled.length then .error .baselineLength
  else baselineList (populationScaled x population scalingId) G T 0 filled

end Verif.Options

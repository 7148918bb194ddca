import Mathlib.Data.List.Basic
import Mathlib.Algebra.Order.Field.Rat

/-!
# Checks and broadcasting of prior distributions

`PriorDistribution` (`meridian/model/prior_distribution.py`) and the checks of priors in
`ModelContext` (`meridian/model/context.py`).

A prior is one distribution or a batch with one dimension; batches with more dimensions are not
modelled.  Of a distribution the code reads its support and whether it puts mass at or below zero; a
tag stands for everything else.
-/

namespace Verif.Priors

/-- Floating point numbers: finite ones, infinities and NaN. -/
inductive E where
  | negInf
  | fin (q : ℚ)
  | posInf
  | nan
deriving DecidableEq

/-- `<` of floating point numbers. -/
def E.lt : E → E → Bool
  | .nan, _ => false
  | _, .nan => false
  | .negInf, .negInf => false
  | .negInf, _ => true
  | _, .negInf => false
  | .fin a, .fin b => a < b
  | .fin _, .posInf => true
  | .posInf, _ => false

/-- `==` of floating point numbers. -/
def E.eq : E → E → Bool
  | .nan, _ => false
  | _, .nan => false
  | a, b => a = b

/-- How `_validate_support` sees a distribution: `Deterministic`, `TruncatedNormal`, any other with
`quantile(0)` and `quantile(1)`, or without a `quantile` method. -/
inductive Shape where
  | deterministic (loc : E)
  | truncated (low high : E)
  | quantiles (lo hi : E)
  | noQuantile
deriving DecidableEq

/-- A scalar distribution; `massBelow` is `cdf(0) > 0`. -/
structure D where
  shape : Shape
  massBelow : Bool
  tag : ℕ
deriving DecidableEq

/-- A distribution with batch shape `[]` or `[n]`. -/
inductive Batch where
  | scalar (d : D)
  | vec (l : List D)
deriving DecidableEq

/-- The elements of the batch. -/
def Batch.elems : Batch → List D
  | .scalar d => [d]
  | .vec l => l

/-- The errors. -/
inductive Err where
  | pointMass
  | belowMinimum
  | aboveMaximum
  | customLength
  | shape
  | ambiguous
  | mroi
  | roi
  | negative
deriving DecidableEq

/-! ### Supports, `meridian/model/prior_distribution.py:1437-1553` -/

/-- The lower end of the support, lines 1464-1484. -/
def supportMin : D → E
  | ⟨.deterministic loc, _, _⟩ => loc
  | ⟨.truncated low _, _, _⟩ => low
  | ⟨.quantiles lo _, _, _⟩ => lo
  | ⟨.noQuantile, _, _⟩ => .nan

/-- The upper end of the support. -/
def supportMax : D → E
  | ⟨.deterministic loc, _, _⟩ => loc
  | ⟨.truncated _ high, _, _⟩ => high
  | ⟨.quantiles _ hi, _, _⟩ => hi
  | ⟨.noQuantile, _, _⟩ => .nan

/-- A point mass at `b`. -/
def massAt (b : E) : D → Bool
  | ⟨.deterministic loc, _, _⟩ => loc.eq b
  | _ => false

/-- A row of the tables `_parameter_space_bounds` and `_prevent_deterministic_prior_at_bounds`. -/
structure Bound where
  name : String
  lo : E
  hi : E
  preventLo : Bool
  preventHi : Bool

/-- `_validate_support`, `meridian/model/prior_distribution.py:1437-1504`. -/
def validateSupport (b : Bound) (x : Batch) : Except Err Unit :=
  if x.elems.any fun d => d.shape = .noQuantile then .ok ()
  else if b.preventLo && x.elems.any (massAt b.lo) then .error .pointMass
  else if b.preventHi && x.elems.any (massAt b.hi) then .error .pointMass
  else if x.elems.any fun d => (supportMin d).lt b.lo then .error .belowMinimum
  else if x.elems.any fun d => b.hi.lt (supportMax d) then .error .aboveMaximum
  else .ok ()

/-- The tables, `meridian/model/prior_distribution.py:1507-1553`. -/
def bounds : List Bound :=
  ["eta_m", "eta_rf", "eta_om", "eta_orf", "xi_c", "xi_n"].map (⟨·, .fin 0, .posInf, false, false⟩) ++
  ["alpha_m", "alpha_rf", "alpha_om", "alpha_orf"].map (⟨·, .fin 0, .fin 1, false, true⟩) ++
  ["ec_m", "ec_rf", "ec_om", "ec_orf"].map (⟨·, .fin 0, .posInf, true, false⟩) ++
  ["slope_m", "slope_rf", "slope_om", "slope_orf"].map (⟨·, .fin 0, .posInf, true, false⟩) ++
  [⟨"sigma", .fin 0, .posInf, false, false⟩]

/-- The loop of `__post_init__`, `meridian/model/prior_distribution.py:530-541` (the check of dtypes
is not modelled). -/
def validateAll (prior : String → Batch) : List Bound → Except Err Unit
  | [] => .ok ()
  | b :: rest =>
    match validateSupport b (prior b.name) with
    | .error e => .error e
    | .ok () => validateAll prior rest

/-- `__post_init__`. -/
def postInit (prior : String → Batch) : Except Err Unit := validateAll prior bounds

/-! ### Broadcasting, `meridian/model/prior_distribution.py:596-985` -/

/-- What a parameter has one value for. -/
inductive Kind where
  | media
  | rf
  | organicMedia
  | organicRf
  | control
  | nonMedia
  | knot
  | geo
  | sigma
deriving DecidableEq

/-- The sizes given to `broadcast`. -/
structure Sizes where
  geos : ℕ
  media : ℕ
  rf : ℕ
  organicMedia : ℕ
  organicRf : ℕ
  controls : ℕ
  nonMedia : ℕ
  knots : ℕ

/-- The parameters checked for their length, in this order, lines 641-770. -/
def channelParams : List (String × Kind) :=
  ["roi_m", "mroi_m", "contribution_m", "alpha_m", "ec_m", "slope_m", "eta_m", "beta_m"].map (·, .media) ++
  ["contribution_om", "alpha_om", "ec_om", "slope_om", "eta_om", "beta_om"].map (·, .organicMedia) ++
  ["contribution_orf", "alpha_orf", "ec_orf", "slope_orf", "eta_orf", "beta_orf"].map (·, .organicRf) ++
  ["roi_rf", "mroi_rf", "contribution_rf", "alpha_rf", "ec_rf", "slope_rf", "eta_rf", "beta_rf"].map (·, .rf) ++
  ["gamma_c", "xi_c"].map (·, .control) ++
  ["contribution_n", "gamma_n", "xi_n"].map (·, .nonMedia)

/-- The hierarchical parameters, set to zero in national models. -/
def hierarchical : List String :=
  ["tau_g_excl_baseline", "eta_m", "eta_rf", "eta_om", "eta_orf", "xi_c", "xi_n"]

/-- The number of values of a parameter; `none` for the batch shape `[]`, lines 772-938. -/
def Sizes.of (s : Sizes) (uniqueSigma : Bool) : Kind → Option ℕ
  | .media => some s.media
  | .rf => some s.rf
  | .organicMedia => some s.organicMedia
  | .organicRf => some s.organicRf
  | .control => some s.controls
  | .nonMedia => some s.nonMedia
  | .knot => some s.knots
  | .geo => some (s.geos - 1)
  | .sigma => if s.geos > 1 && uniqueSigma then some s.geos else none

/-- `_validate_..._custom_priors`. -/
def checkLength (n : ℕ) : Batch → Except Err Unit
  | .scalar _ => .ok ()
  | .vec l => if l.length = n then .ok () else .error .customLength

/-- The checks of the lengths, lines 641-770. -/
def checkLengths (s : Sizes) (prior : String → Batch) : List (String × Kind) → Except Err Unit
  | [] => .ok ()
  | (x, k) :: rest =>
    match checkLength ((s.of false k).getD 0) (prior x) with
    | .error e => .error e
    | .ok () => checkLengths s prior rest

/-- `tfd.BatchBroadcast(x, n)`: the batch shape is broadcast with `[n]`, or with `[]` for `none`. -/
def batchBroadcast (x : Batch) : Option ℕ → Except Err Batch
  | none => .ok x
  | some n =>
    match x with
    | .scalar d => .ok (.vec (List.replicate n d))
    | .vec l =>
      if l.length = n then .ok (.vec l)
      else if n = 1 then .ok (.vec l)
      else
        match l with
        | [d] => .ok (.vec (List.replicate n d))
        | _ => .error .shape

/-- `Deterministic(0)`. -/
def zero : D := ⟨.deterministic (.fin 0), true, 0⟩

/-- A `Deterministic` distribution at zero. -/
def isZero : D → Bool
  | ⟨.deterministic loc, _, _⟩ => loc.eq (.fin 0)
  | _ => false

/-- A `Deterministic` distribution. -/
def isDeterministic : D → Bool
  | ⟨.deterministic _, _, _⟩ => true
  | _ => false

/-- `_convert_to_deterministic_0_distribution`, `meridian/model/prior_distribution.py:1371-1401`: the
comparison of a batch of locations with zero has no truth value unless there is exactly one. -/
def convertToZero : Batch → Except Err Batch
  | .scalar d => if isZero d then .ok (.scalar d) else .ok (.scalar zero)
  | .vec l =>
    match l with
    | [d] => if isZero d then .ok (.vec [d]) else .ok (.scalar zero)
    | l => if l.all isDeterministic then .error .ambiguous else .ok (.scalar zero)

/-- The options of `broadcast` besides the sizes; `total` is the total media contribution prior, if it
is to be set (lines 940-949). -/
structure Opts where
  uniqueSigma : Bool
  national : Bool
  total : Option D

/-- One parameter of the result, lines 772-969. -/
def broadcastOne (s : Sizes) (o : Opts) (prior : String → Batch) (x : String) (k : Kind) :
    Except Err Batch :=
  let src : Except Err Batch :=
    if o.national && x ∈ hierarchical then convertToZero (prior x)
    else if x ∈ ["roi_m", "roi_rf"] then
      match o.total with
      | some d => .ok (.scalar d)
      | none => .ok (prior x)
    else .ok (prior x)
  match src with
  | .error e => .error e
  | .ok b => batchBroadcast b (s.of o.uniqueSigma k)

/-- All parameters with what they have one value for. -/
def allParams : List (String × Kind) :=
  [("knot_values", .knot), ("tau_g_excl_baseline", .geo)] ++ channelParams ++ [("sigma", .sigma)]

/-- All parameters of the result. -/
def broadcastAll (s : Sizes) (o : Opts) (prior : String → Batch) :
    List (String × Kind) → Except Err (List (String × Batch))
  | [] => .ok []
  | (x, k) :: rest =>
    match broadcastOne s o prior x k with
    | .error e => .error e
    | .ok b =>
      match broadcastAll s o prior rest with
      | .error e => .error e
      | .ok l => .ok ((x, b) :: l)

/-- `PriorDistribution.broadcast`, `meridian/model/prior_distribution.py:596-985`, with the checks of
the supports of the result. -/
def broadcast (s : Sizes) (o : Opts) (prior : String → Batch) : Except Err (String → Batch) :=
  match checkLengths s prior channelParams with
  | .error e => .error e
  | .ok () =>
    match broadcastAll s o prior allParams with
    | .error e => .error e
    | .ok l =>
      let r := fun x => (l.lookup x).getD (prior x)
      match postInit r with
      | .error e => .error e
      | .ok () => .ok r

/-! ### Checks in the context, `meridian/model/context.py:729-906` -/

/-- Prior types of paid channels. -/
inductive PriorType where
  | roi
  | mroi
  | contribution
  | coefficient
deriving DecidableEq

/-- What the checks read of the data and the specification.  The flags `default…` say whether
`distributions_are_equal` holds for the prior and the default prior. -/
structure Setup where
  revenue : Bool
  nMedia : ℕ
  nRf : ℕ
  nOrganicMedia : ℕ
  nOrganicRf : ℕ
  national : Bool
  logNormal : Bool
  givenMediaType : Option PriorType
  mediaType : PriorType
  rfType : PriorType
  defaultRoiM : Bool
  defaultRoiRf : Bool
  defaultMroiM : Bool
  defaultMroiRf : Bool
  prior : String → Batch

/-- `_validate_mroi_priors_non_revenue`, lines 729-765; `revenue` is false for a KPI that is not
revenue without revenue per KPI. -/
def mroiCheck (c : Setup) : Except Err Unit :=
  if !c.revenue then
    if c.nMedia > 0 && c.mediaType = .mroi && c.defaultMroiM then .error .mroi
    else if c.nRf > 0 && c.rfType = .mroi && c.defaultMroiRf then .error .mroi
    else .ok ()
  else .ok ()

/-- `_validate_roi_priors_non_revenue`, lines 767-818: whether the total media contribution prior is
set. -/
def roiCheck (c : Setup) : Except Err Bool :=
  if !c.revenue then
    let m := c.mediaType = .roi && c.defaultRoiM
    let rf := c.rfType = .roi && c.defaultRoiRf
    if (m && rf) || (c.nMedia = 0 && rf) || (c.nRf = 0 && m) then .ok true
    else if c.nMedia > 0 && m then .error .roi
    else if c.nRf > 0 && rf then .error .roi
    else .ok false
  else .ok false

/-- `_check_for_negative_support`, lines 875-906, where `media_effects_dist` is normal in national
models (lines 649-654). -/
def negativeSupport (c : Setup) (x : String) (t : PriorType) : Except Err Unit :=
  if c.givenMediaType = some t && (!c.national && c.logNormal) &&
      (c.prior x).elems.any (·.massBelow) then .error .negative
  else .ok ()

/-- `_check_media_prior_support`, lines 820-873: the calls of `_check_for_negative_support`. -/
def supportCalls (c : Setup) : List (String × PriorType) :=
  (if c.nMedia > 0 then [("roi_m", .roi), ("mroi_m", .mroi), ("contribution_m", .contribution)] else [])
  ++ (if c.nRf > 0 then [("roi_rf", .roi), ("mroi_rf", .mroi), ("contribution_rf", .contribution)] else [])
  ++ (if c.nOrganicMedia > 0 then [("contribution_om", .contribution)] else [])
  ++ (if c.nOrganicRf > 0 then [("contribution_orf", .contribution)] else [])

/-- The calls in turn. -/
def runCalls (c : Setup) : List (String × PriorType) → Except Err Unit
  | [] => .ok ()
  | (x, t) :: rest =>
    match negativeSupport c x t with
    | .error e => .error e
    | .ok () => runCalls c rest

/-- The checks of priors of `ModelContext.__init__`, lines 103-107. -/
def contextCheck (c : Setup) : Except Err Bool :=
  match mroiCheck c with
  | .error e => .error e
  | .ok () =>
    match roiCheck c with
    | .error e => .error e
    | .ok b =>
      match runCalls c (supportCalls c) with
      | .error e => .error e
      | .ok () => .ok b

end Verif.Priors

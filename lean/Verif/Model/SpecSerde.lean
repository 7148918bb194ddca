import Verif.Model.Options
import Verif.Model.Knots

/-!
# Saving and loading the hyperparameters

`meridian/schema/serde/hyperparameters.py` and `meridian/schema/utils/proto_enum_converter.py`, with
the fields of `proto/mmm/v1/model/meridian/meridian_model.proto:366-531`.

An enum value of the protocol is its name.  `τ` is the type of tensor messages and `α` that of arrays,
with `make_tensor_proto` and `make_ndarray` as parameters.  `f32` rounds to a 32-bit float.
Maps are association lists, their order (which protocol maps do not keep) is kept by the model.
-/

namespace Verif.SpecSerde

open Verif.Options (Choice)

inductive Err
  | unmatched | unknownEnum | range | unsupportedBaseline
  | spec (e : Options.Err)
  deriving DecidableEq, Repr

/-! ### Enums -/

/-- `ProtoEnumConverter`, `meridian/schema/utils/proto_enum_converter.py:27-53`. -/
structure Converter where
  mapping : List (String × String)
  unspecified : String
  default : Option String

/-- `to_proto`, `meridian/schema/utils/proto_enum_converter.py:55-90`; the names of the mapping are
names of the enum. -/
def Converter.toProto (c : Converter) : Option String → Except Err String
  | none => .ok c.unspecified
  | some s =>
    match c.mapping.lookup s with
    | some n => .ok n
    | none => .error .unmatched

/-- `from_proto`, `meridian/schema/utils/proto_enum_converter.py:92-130`. -/
def Converter.fromProto (c : Converter) (n : String) : Except Err (Option String) :=
  if n = c.unspecified then .ok c.default
  else
    match (c.mapping.map Prod.swap).lookup n with
    | some s => .ok (some s)
    | none => .error .unknownEnum

/-- `meridian/schema/serde/hyperparameters.py:37-46`. -/
def effectsConverter : Converter where
  mapping := [("log_normal", "LOG_NORMAL"), ("normal", "NORMAL")]
  unspecified := "MEDIA_EFFECTS_DISTRIBUTION_UNSPECIFIED"
  default := some "log_normal"

/-- `meridian/schema/serde/hyperparameters.py:48-59`. -/
def paidConverter : Converter where
  mapping := [("roi", "ROI"), ("mroi", "MROI"), ("coefficient", "COEFFICIENT"),
    ("contribution", "CONTRIBUTION")]
  unspecified := "PAID_MEDIA_PRIOR_TYPE_UNSPECIFIED"
  default := none

/-- `meridian/schema/serde/hyperparameters.py:61-74`. -/
def nonPaidConverter : Converter where
  mapping := [("coefficient", "NON_PAID_TREATMENTS_PRIOR_TYPE_COEFFICIENT"),
    ("contribution", "NON_PAID_TREATMENTS_PRIOR_TYPE_CONTRIBUTION")]
  unspecified := "NON_PAID_TREATMENTS_PRIOR_TYPE_UNSPECIFIED"
  default := some "contribution"

/-! ### The specification and the message -/

/-- `knots` after construction: `ModelSpec` turns every collection into a list of integers,
`meridian/model/spec.py:355-359`. -/
inductive Knots
  | none
  | int (k : ℤ)
  | list (l : List ℤ)
  deriving DecidableEq, Repr

/-- `baseline_geo`; `other` is anything that is neither `str` nor `int`, like a numpy integer. -/
inductive Geo
  | none
  | int (k : ℤ)
  | str (s : String)
  | other (k : ℤ)
  deriving DecidableEq, Repr

/-- A value of `non_media_baseline_values`; `num` is a `float` or `int`, `other` anything else, like a
32-bit numpy float. -/
inductive Base
  | str (s : String)
  | num (q : ℚ)
  | other (q : ℚ)
  deriving DecidableEq, Repr

/-- The fields of `ModelSpec` without the prior, `meridian/model/spec.py:232-257`. -/
structure Spec (α : Type) where
  effects : String := "log_normal"
  hillBeforeAdstock : Bool := false
  maxLag : Option ℤ := some 8
  uniqueSigma : Bool := false
  mediaPrior : Option String := none
  rfPrior : Option String := none
  paidPrior : Option String := none
  roiCalibration : Option α := none
  rfRoiCalibration : Option α := none
  organicMediaPrior : String := "contribution"
  organicRfPrior : String := "contribution"
  nonMediaPrior : String := "contribution"
  baselines : Option (List Base) := none
  knots : Knots := .none
  baselineGeo : Geo := .none
  holdout : Option α := none
  controlScaling : Option α := none
  nonMediaScaling : Option α := none
  adstock : Choice := .all "geometric"
  saturation : Choice := .all "hill"
  enableAks : Bool := false

/-- `NonMediaBaselineValue`, `meridian_model.proto:357-373`; `unset` has no member of the oneof. -/
inductive ProtoBase
  | unset
  | value (q : ℚ)
  | min
  | max
  | unspecified
  deriving DecidableEq, Repr

/-- The message `Hyperparameters`, `meridian_model.proto:376-531`. -/
structure Proto (τ : Type) where
  effects : String
  hillBeforeAdstock : Bool
  maxLag : Option ℤ
  uniqueSigma : Bool
  mediaPrior : String
  rfPrior : String
  paidPrior : String
  roiCalibration : Option τ
  rfRoiCalibration : Option τ
  organicMediaPrior : String
  organicRfPrior : String
  nonMediaPrior : String
  baselines : List ProtoBase
  knots : List ℤ
  baselineGeo : Option (ℤ ⊕ String)
  holdout : Option τ
  controlScaling : Option τ
  nonMediaScaling : Option τ
  adstock : Option Choice
  saturation : Option Choice
  enableAks : Bool

/-! ### Saving -/

def fitsInt32 (k : ℤ) : Bool := decide (-2147483648 ≤ k) && decide (k ≤ 2147483647)
def fitsUint32 (k : ℤ) : Bool := decide (0 ≤ k) && decide (k ≤ 4294967295)

/-- `meridian/schema/serde/hyperparameters.py:115-116`: the protocol refuses a value out of range. -/
def saveLag : Option ℤ → Except Err (Option ℤ)
  | none => .ok none
  | some k => if fitsUint32 k then .ok (some k) else .error .range

/-- `meridian/schema/serde/hyperparameters.py:118-121`. -/
def saveKnots : Knots → Except Err (List ℤ)
  | .none => .ok []
  | .int k => if fitsInt32 k then .ok [k] else .error .range
  | .list l => if l.all fitsInt32 then .ok l else .error .range

/-- `meridian/schema/serde/hyperparameters.py:123-126`. -/
def saveGeo : Geo → Except Err (Option (ℤ ⊕ String))
  | .none => .ok none
  | .other _ => .ok none
  | .str s => .ok (some (.inr s))
  | .int k => if fitsInt32 k then .ok (some (.inl k)) else .error .range

/-- `meridian/schema/serde/hyperparameters.py:151-163`: an empty mapping sets no member of the
oneof. -/
def saveChoice : Choice → Option Choice
  | .all f => some (.all f)
  | .byChannel [] => none
  | .byChannel m => some (.byChannel m)
  | .other => none

/-- `meridian/schema/serde/hyperparameters.py:165-174`. -/
def saveBase (f32 : ℚ → ℚ) : Base → ProtoBase
  | .str s =>
    if s.toLower = "min" then .min else if s.toLower = "max" then .max else .unset
  | .num q => .value (f32 q)
  | .other _ => .unset

/-- `HyperparametersSerde.serialize`, `meridian/schema/serde/hyperparameters.py:87-176`. -/
def serialize {α τ : Type} (mk : α → τ) (f32 : ℚ → ℚ) (s : Spec α) : Except Err (Proto τ) := do
  let effects ← effectsConverter.toProto (some s.effects)
  let mediaPrior ← paidConverter.toProto s.mediaPrior
  let rfPrior ← paidConverter.toProto s.rfPrior
  let paidPrior ← paidConverter.toProto s.paidPrior
  let organicMediaPrior ← nonPaidConverter.toProto (some s.organicMediaPrior)
  let organicRfPrior ← nonPaidConverter.toProto (some s.organicRfPrior)
  let nonMediaPrior ← nonPaidConverter.toProto (some s.nonMediaPrior)
  let maxLag ← saveLag s.maxLag
  let knots ← saveKnots s.knots
  let baselineGeo ← saveGeo s.baselineGeo
  return {
    effects, mediaPrior, rfPrior, paidPrior, organicMediaPrior, organicRfPrior, nonMediaPrior,
    maxLag, knots, baselineGeo
    hillBeforeAdstock := s.hillBeforeAdstock
    uniqueSigma := s.uniqueSigma
    enableAks := s.enableAks
    roiCalibration := s.roiCalibration.map mk
    rfRoiCalibration := s.rfRoiCalibration.map mk
    holdout := s.holdout.map mk
    controlScaling := s.controlScaling.map mk
    nonMediaScaling := s.nonMediaScaling.map mk
    adstock := saveChoice s.adstock
    saturation := saveChoice s.saturation
    baselines := (s.baselines.getD []).map (saveBase f32) }

/-! ### Loading -/

/-- `meridian/schema/serde/hyperparameters.py:204-209`. -/
def loadKnots : List ℤ → Knots
  | [] => .none
  | [k] => .int k
  | l => .list l

/-- `meridian/schema/serde/hyperparameters.py:197-202`. -/
def loadGeo : Option (ℤ ⊕ String) → Geo
  | none => .none
  | some (.inl k) => .int k
  | some (.inr s) => .str s

/-- `meridian/schema/serde/hyperparameters.py:246-271`, one value. -/
def loadBase : ProtoBase → Except Err Base
  | .value q => .ok (.num q)
  | .min => .ok (.str "min")
  | .max => .ok (.str "max")
  | .unspecified => .ok (.str "min")
  | .unset => .error .unsupportedBaseline

/-- The loop over the baseline values. -/
def loadBases : List ProtoBase → Except Err (List Base)
  | [] => .ok []
  | b :: rest =>
    match loadBase b with
    | .error e => .error e
    | .ok x =>
      match loadBases rest with
      | .error e => .error e
      | .ok l => .ok (x :: l)

/-- `meridian/schema/serde/hyperparameters.py:242-271`: an empty field is `None`. -/
def loadBaselines : List ProtoBase → Except Err (Option (List Base))
  | [] => .ok none
  | l =>
    match loadBases l with
    | .error e => .error e
    | .ok x => .ok (some x)

/-- `meridian/schema/serde/hyperparameters.py:273-291`. -/
def loadChoice (default : String) : Option Choice → Choice
  | none => .all default
  | some c => c

/-- The part of the specification that is checked at construction. -/
def Knots.toOptions : Knots → Options.Knots
  | .none => .none
  | .int k => .int k
  | .list l => .coll (l.map some)

/-- The specification as the model of `ModelSpec.__post_init__` sees it. -/
def toOptions {α : Type} (shape : α → List ℕ) (s : Spec α) : Options.Spec where
  mediaEffectsDist := s.effects
  maxLag := s.maxLag.getD 0
  mediaPriorType := s.mediaPrior
  rfPriorType := s.rfPrior
  paidMediaPriorType := s.paidPrior
  roiCalibration := s.roiCalibration.map shape
  rfRoiCalibration := s.rfRoiCalibration.map shape
  organicMediaPriorType := s.organicMediaPrior
  organicRfPriorType := s.organicRfPrior
  nonMediaPriorType := s.nonMediaPrior
  knots := s.knots.toOptions
  saturation := s.saturation
  enableAks := s.enableAks

/-- `ModelSpec(...)`: the checks of `__post_init__`, `meridian/model/spec.py:259-393`. -/
def construct {α : Type} (shape : α → List ℕ) (s : Spec α) : Except Err (Spec α) :=
  match Options.specErr (toOptions shape s) with
  | some e => .error (.spec e)
  | none => .ok s

/-- `HyperparametersSerde.deserialize`, `meridian/schema/serde/hyperparameters.py:178-329`.  A field
that must be a string gets the default of its converter, `""` stands for a missing one. -/
def deserialize {α τ : Type} (rd : τ → α) (shape : α → List ℕ) (p : Proto τ) :
    Except Err (Spec α) := do
  let baselines ← loadBaselines p.baselines
  let effects ← effectsConverter.fromProto p.effects
  let mediaPrior ← paidConverter.fromProto p.mediaPrior
  let rfPrior ← paidConverter.fromProto p.rfPrior
  let paidPrior ← paidConverter.fromProto p.paidPrior
  let organicMediaPrior ← nonPaidConverter.fromProto p.organicMediaPrior
  let organicRfPrior ← nonPaidConverter.fromProto p.organicRfPrior
  let nonMediaPrior ← nonPaidConverter.fromProto p.nonMediaPrior
  construct shape {
    effects := effects.getD ""
    hillBeforeAdstock := p.hillBeforeAdstock
    maxLag := p.maxLag
    uniqueSigma := p.uniqueSigma
    mediaPrior, rfPrior, paidPrior
    roiCalibration := p.roiCalibration.map rd
    rfRoiCalibration := p.rfRoiCalibration.map rd
    organicMediaPrior := organicMediaPrior.getD ""
    organicRfPrior := organicRfPrior.getD ""
    nonMediaPrior := nonMediaPrior.getD ""
    baselines
    knots := loadKnots p.knots
    baselineGeo := loadGeo p.baselineGeo
    holdout := p.holdout.map rd
    controlScaling := p.controlScaling.map rd
    nonMediaScaling := p.nonMediaScaling.map rd
    adstock := loadChoice "geometric" p.adstock
    saturation := loadChoice "hill" p.saturation
    enableAks := p.enableAks }

/-- Saving and loading. -/
def roundTrip {α τ : Type} (mk : α → τ) (rd : τ → α) (shape : α → List ℕ) (f32 : ℚ → ℚ) (s : Spec α) :
    Except Err (Spec α) :=
  match serialize mk f32 s with
  | .error e => .error e
  | .ok p => deserialize rd shape p

/-- The knots as an argument of `get_knot_info`. -/
def Knots.toArg : Knots → Verif.Knots.KnotArg
  | .none => .none
  | .int k => .int k
  | .list l => .list l

end Verif.SpecSerde

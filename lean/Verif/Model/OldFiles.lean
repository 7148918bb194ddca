import Verif.Model.DistSerde

/-!
# Priors and thresholds of saved models, files of earlier versions among them

Three parts of saved models: the enumerated prior messages of earlier versions
(`meridian/schema/serde/distribution.py:380-543`), the EDA specification with its thresholds
(`meridian/schema/serde/eda_spec.py`), and the pickled form of `PriorDistribution`
(`meridian/model/prior_distribution.py:543-589`).

Numbers of messages are 64-bit floats (`Dbl`); the conversion to the float type of the backend is a
parameter.  The constructors of the distributions and bijectors keep their arguments; their own checks are
not modelled, nor is the check of the supports by `PriorDistribution`.
-/

namespace Verif.OldFiles

open Verif.Registry (Fn Reg Aggregation)

/-! ### Prior messages of earlier versions -/

/-- A 64-bit float, without the sign of zero. -/
inductive Dbl where
  | fin (x : ℚ)
  | inf (positive : Bool)
  | nan
deriving DecidableEq, Repr

/-- `if x:` of a float. -/
def Dbl.truthy : Dbl → Bool
  | .fin x => x ≠ 0
  | _ => true

/-- What is passed to a constructor: `None`, a number or a list. -/
inductive Param where
  | missing
  | scalar (x : Dbl)
  | vector (l : List Dbl)
deriving DecidableEq, Repr

/-- `_deserialize_sequence` and `_cast_if_numeric`, `meridian/schema/serde/distribution.py:528-543`. -/
def sequence (cast : Dbl → Dbl) : List Dbl → Param
  | [] => .missing
  | [x] => .scalar (cast x)
  | x :: y :: l => .vector ((x :: y :: l).map cast)

/-- The message `Distribution.Bijector`, `proto/mmm/v1/model/meridian/meridian_model.proto:36-68`,
without its name, which is not read. -/
inductive BijMsg where
  | unset
  | shift (shifts : List Dbl)
  | scale (scales logScales : List Dbl)
  | reciprocal
deriving DecidableEq, Repr

/-- The message `Distribution`, `proto/mmm/v1/model/meridian/meridian_model.proto:32-186`.  A message
field that is not set reads as the empty message, `unset` here.  `low` and `high` have a presence. -/
inductive Msg where
  | unset (name : String)
  | batchBroadcast (name : String) (inner : Msg) (shape : List ℤ)
  | transformed (name : String) (inner : Msg) (bij : BijMsg)
  | deterministic (name : String) (locs : List Dbl)
  | halfNormal (name : String) (scales : List Dbl)
  | logNormal (name : String) (locs scales : List Dbl)
  | normal (name : String) (locs scales : List Dbl)
  | truncatedNormal (name : String) (locs scales : List Dbl) (low high : Option Dbl)
      (lows highs : List Dbl)
  | uniform (name : String) (low high : Option Dbl) (lows highs : List Dbl)
  | beta (name : String) (alpha beta : List Dbl)
deriving DecidableEq, Repr

/-- Bijectors of the backend. -/
inductive Bij where
  | shift (shift : Param)
  | scale (scale logScale : Param)
  | reciprocal
deriving DecidableEq, Repr

/-- Distributions of the backend. -/
inductive Dist where
  | batchBroadcast (name : String) (inner : Dist) (shape : List ℤ)
  | transformed (name : String) (inner : Dist) (bij : Bij)
  | deterministic (name : String) (loc : Param)
  | halfNormal (name : String) (scale : Param)
  | logNormal (name : String) (loc scale : Param)
  | normal (name : String) (loc scale : Param)
  | truncatedNormal (name : String) (loc scale low high : Param)
  | uniform (name : String) (low high : Param)
  | beta (name : String) (concentration1 concentration0 : Param)
deriving DecidableEq, Repr

/-- The `DeprecationWarning` of `_show_warning`, `meridian/schema/serde/distribution.py:512-518`: the
field and the distribution. -/
structure Warning where
  field : String
  dist : String
deriving DecidableEq, Repr

inductive Err where
  | bijectorType
  | distributionType
  | noPriors
  | tfp (e : DistSerde.PriorErr)
deriving DecidableEq

/-- `_from_legacy_bijector_proto`, `meridian/schema/serde/distribution.py:384-405`. -/
def bijOf (cast : Dbl → Dbl) : BijMsg → Except Err Bij
  | .unset => .error .bijectorType
  | .shift s => .ok (.shift (sequence cast s))
  | .scale s l => .ok (.scale (sequence cast s) (sequence cast l))
  | .reciprocal => .ok .reciprocal

/-- One bound of a truncated normal or uniform distribution with its warning,
`meridian/schema/serde/distribution.py:453-471` and `meridian/schema/serde/distribution.py:480-492`; a
deprecated field that is not set reads as 0. -/
def boundOf (cast : Dbl → Dbl) (field dist : String) (single : Option Dbl) (many : List Dbl) :
    Param × List Warning :=
  match many with
  | [] => (.scalar (cast (single.getD (.fin 0))), [])
  | x :: l => (sequence cast (x :: l),
      if (single.getD (.fin 0)).truthy then [⟨field, dist⟩] else [])

/-- `_from_legacy_distribution_proto`, `meridian/schema/serde/distribution.py:408-509`, with the warnings in
their order. -/
def distOf (cast : Dbl → Dbl) : Msg → Except Err (Dist × List Warning)
  | .unset _ => .error .distributionType
  | .batchBroadcast n m shape =>
    match distOf cast m with
    | .error e => .error e
    | .ok (d, w) => .ok (.batchBroadcast n d shape, w)
  | .transformed n m b =>
    match distOf cast m with
    | .error e => .error e
    | .ok (d, w) =>
      match bijOf cast b with
      | .error e => .error e
      | .ok b' => .ok (.transformed n d b', w)
  | .deterministic n locs => .ok (.deterministic n (sequence cast locs), [])
  | .halfNormal n scales => .ok (.halfNormal n (sequence cast scales), [])
  | .logNormal n locs scales => .ok (.logNormal n (sequence cast locs) (sequence cast scales), [])
  | .normal n locs scales => .ok (.normal n (sequence cast locs) (sequence cast scales), [])
  | .truncatedNormal n locs scales low high lows highs =>
    .ok (.truncatedNormal n (sequence cast locs) (sequence cast scales)
        (boundOf cast "low" "TruncatedNormal" low lows).1
        (boundOf cast "high" "TruncatedNormal" high highs).1,
      (boundOf cast "low" "TruncatedNormal" low lows).2 ++
        (boundOf cast "high" "TruncatedNormal" high highs).2)
  | .uniform n low high lows highs =>
    .ok (.uniform n (boundOf cast "low" "Uniform" low lows).1 (boundOf cast "high" "Uniform" high highs).1,
      (boundOf cast "low" "Uniform" low lows).2 ++ (boundOf cast "high" "Uniform" high highs).2)
  | .beta n a b => .ok (.beta n (sequence cast a) (sequence cast b), [])

/-- The loop of `deserialize` for `PriorDistributions`, `meridian/schema/serde/distribution.py:119-158`: the
keyword arguments and the warnings.  The fields of this message are those of `PriorTfpDistributions`
(`proto/mmm/v1/model/meridian/meridian_model.proto:203-240`). -/
def loadLoop (cast : Dbl → Dbl) (s : List (String × Msg)) :
    List String → Except Err (List (String × Dist) × List Warning)
  | [] => .ok ([], [])
  | x :: rest =>
    if x ∈ DistSerde.messageFields then
      match s.lookup x with
      | none => loadLoop cast s rest
      | some m =>
        match distOf cast m with
        | .error e => .error e
        | .ok (d, w) =>
          match loadLoop cast s rest with
          | .error e => .error e
          | .ok (l, w') => .ok ((x, d) :: l, w ++ w')
    else loadLoop cast s rest

/-- A prior of a loaded model: from a message of either kind, or the default of the container. -/
inductive Loaded (A : Type) where
  | default
  | legacy (d : Dist)
  | tfp (p : DistSerde.Prior A)

/-- The choice of the message in `MeridianSerde.deserialize`,
`meridian/schema/serde/meridian_serde.py:333-350`, and `DistributionSerde.deserialize`,
`meridian/schema/serde/distribution.py:86-158`, for either message.  The warnings are those of earlier
messages. -/
def loadPriors {A P : Type} (cast : Dbl → Dbl) (hash : String → String) (env : DistSerde.Env A P)
    (reg : Reg) (force : Bool) (legacy : Option (List (String × Msg)))
    (tfp : Option (DistSerde.Saved P)) : Except Err ((String → Loaded A) × List Warning) :=
  match legacy with
  | some s =>
    match loadLoop cast s DistSerde.allParameters with
    | .error e => .error e
    | .ok (l, w) =>
      .ok (fun x => match l.lookup x with | none => .default | some d => .legacy d, w)
  | none =>
    match tfp with
    | some s =>
      match DistSerde.loadPriors hash env reg force s DistSerde.allParameters with
      | .error e => .error (.tfp e)
      | .ok l => .ok (fun x => match l.lookup x with | none => .default | some p => .tfp p, [])
    | none => .error .noPriors

/-! ### The EDA specification -/

/-- `VIFSpec`, `meridian/model/eda/eda_spec.py:103-121`. -/
structure Vif where
  geo : ℚ := 1000
  overall : ℚ := 1000
  national : ℚ := 1000
  std : ℚ := 1 / 10000
deriving DecidableEq, Repr

/-- `PairwiseCorrSpec`, `meridian/model/eda/eda_spec.py:70-86`. -/
structure Pairwise where
  overall : ℚ := 999 / 1000
  geo : ℚ := 999 / 1000
  national : ℚ := 999 / 1000
deriving DecidableEq, Repr

/-- `KpiInvariabilitySpec`, `meridian/model/eda/eda_spec.py:58-67`. -/
structure Kpi where
  std : ℚ := 1 / 10000
deriving DecidableEq, Repr

/-- `StandardDeviationSpec`, `meridian/model/eda/eda_spec.py:88-101`. -/
structure Std where
  geo : ℚ := 1 / 10000
  national : ℚ := 1 / 10000
deriving DecidableEq, Repr

/-- `AggregationConfig`, `meridian/model/eda/eda_spec.py:36-56`, for functions or for function keys. -/
structure Agg (α : Type) where
  controls : Aggregation α := []
  nonMedia : Aggregation α := []
deriving DecidableEq, Repr

/-- `EDASpec`, `meridian/model/eda/eda_spec.py:124-154`. -/
structure Eda where
  agg : Agg Fn := {}
  kpi : Kpi := {}
  pairwise : Pairwise := {}
  std : Std := {}
  vif : Vif := {}
deriving DecidableEq, Repr

/-- The message `VIFSpec`, `proto/mmm/v1/model/meridian/eda/eda_spec.proto:58-67`: the first three
thresholds have no presence, an absent one is 0. -/
structure VifMsg where
  geo : ℚ := 0
  overall : ℚ := 0
  national : ℚ := 0
  std : Option ℚ := none
deriving DecidableEq, Repr

/-- The message `PairwiseCorrSpec`, `proto/mmm/v1/model/meridian/eda/eda_spec.proto:70-77`. -/
structure PairwiseMsg where
  overall : Option ℚ := none
  geo : Option ℚ := none
  national : Option ℚ := none
deriving DecidableEq, Repr

/-- The message `KpiInvariabilitySpec`, `proto/mmm/v1/model/meridian/eda/eda_spec.proto:44-47`. -/
structure KpiMsg where
  std : Option ℚ := none
deriving DecidableEq, Repr

/-- The message `StandardDeviationSpec`, `proto/mmm/v1/model/meridian/eda/eda_spec.proto:50-55`. -/
structure StdMsg where
  geo : Option ℚ := none
  national : Option ℚ := none
deriving DecidableEq, Repr

/-- The message `EDASpec`, `proto/mmm/v1/model/meridian/eda/eda_spec.proto:80-94`. -/
structure EdaMsg where
  agg : Option (Agg String) := none
  vif : Option VifMsg := none
  hashes : List (String × String) := []
  pairwise : Option PairwiseMsg := none
  kpi : Option KpiMsg := none
  std : Option StdMsg := none
deriving DecidableEq, Repr

/-- `_to_vif_spec_proto`, `meridian/schema/serde/eda_spec.py:46-55`. -/
def toVif (v : Vif) : VifMsg := ⟨v.geo, v.overall, v.national, some v.std⟩

/-- `_from_vif_spec_proto`, `meridian/schema/serde/eda_spec.py:58-67`. -/
def fromVif (m : VifMsg) : Vif :=
  match m.std with
  | none => { geo := m.geo, overall := m.overall, national := m.national }
  | some s => { geo := m.geo, overall := m.overall, national := m.national, std := s }

/-- `_to_pairwise_corr_spec_proto`, `meridian/schema/serde/eda_spec.py:70-78`. -/
def toPairwise (p : Pairwise) : PairwiseMsg := ⟨some p.overall, some p.geo, some p.national⟩

/-- A keyword argument of `_extract_if_present` (`meridian/schema/serde/eda_spec.py:33-43`), or the default
of the constructor. -/
def orDefault {α : Type} (field : Option α) (default : α) : α :=
  match field with
  | none => default
  | some x => x

/-- `_from_pairwise_corr_spec_proto`, `meridian/schema/serde/eda_spec.py:81-89`. -/
def fromPairwise (m : PairwiseMsg) : Pairwise :=
  ⟨orDefault m.overall ({} : Pairwise).overall, orDefault m.geo ({} : Pairwise).geo,
    orDefault m.national ({} : Pairwise).national⟩

/-- `_to_kpi_invariability_spec_proto`, `meridian/schema/serde/eda_spec.py:92-98`. -/
def toKpi (k : Kpi) : KpiMsg := ⟨some k.std⟩

/-- `_from_kpi_invariability_spec_proto`, `meridian/schema/serde/eda_spec.py:101-107`. -/
def fromKpi (m : KpiMsg) : Kpi := ⟨orDefault m.std ({} : Kpi).std⟩

/-- `_to_std_spec_proto`, `meridian/schema/serde/eda_spec.py:110-117`. -/
def toStd (s : Std) : StdMsg := ⟨some s.geo, some s.national⟩

/-- `_from_std_spec_proto`, `meridian/schema/serde/eda_spec.py:120-127`. -/
def fromStd (m : StdMsg) : Std :=
  ⟨orDefault m.geo ({} : Std).geo, orDefault m.national ({} : Std).national⟩

/-- `_to_aggregation_config_proto`, `meridian/schema/serde/eda_spec.py:222-239`. -/
def toAgg (r : Reg) (a : Agg Fn) : Except Registry.Err (Agg String) :=
  match Registry.toKeys r a.controls with
  | .error e => .error e
  | .ok c =>
    match Registry.toKeys r a.nonMedia with
    | .error e => .error e
    | .ok n => .ok ⟨c, n⟩

/-- `_from_aggregation_config_proto`, `meridian/schema/serde/eda_spec.py:255-270`. -/
def fromAgg (r : Reg) (a : Agg String) : Except Registry.Err (Agg Fn) :=
  match Registry.fromKeys r a.controls with
  | .error e => .error e
  | .ok c =>
    match Registry.fromKeys r a.nonMedia with
    | .error e => .error e
    | .ok n => .ok ⟨c, n⟩

/-- `EDASpecSerde.serialize`, `meridian/schema/serde/eda_spec.py:148-163`: the message and the registry
afterwards. -/
def saveEda (hash : String → String) (r : Reg) (e : Eda) : Except Registry.Err (EdaMsg × Reg) :=
  match toAgg r e.agg with
  | .error err => .error err
  | .ok a =>
    match Registry.hashedRegistry hash r with
    | .error err => .error err
    | .ok (h, r') =>
      .ok (⟨some a, some (toVif e.vif), h, some (toPairwise e.pairwise), some (toKpi e.kpi),
        some (toStd e.std)⟩, r')

/-- The aggregation functions, if the message has any, `meridian/schema/serde/eda_spec.py:203-207`. -/
def aggOf (r : Reg) : Option (Agg String) → Except Registry.Err (Agg Fn)
  | none => .ok {}
  | some a => fromAgg r a

/-- `EDASpecSerde.deserialize`, `meridian/schema/serde/eda_spec.py:165-220`. -/
def loadEda (hash : String → String) (r : Reg) (force : Bool) (m : EdaMsg) :
    Except Registry.Err Eda :=
  match (if force then .ok () else Registry.validate hash r m.hashes) with
  | .error e => .error e
  | .ok () =>
    match aggOf r m.agg with
    | .error e => .error e
    | .ok a =>
      .ok { agg := a
            kpi := orDefault (m.kpi.map fromKpi) {}
            pairwise := orDefault (m.pairwise.map fromPairwise) {}
            std := orDefault (m.std.map fromStd) {}
            vif := orDefault (m.vif.map fromVif) {} }

/-- The EDA specification of a loaded model, `meridian/schema/serde/meridian_serde.py:373-389`, and whether
the file is reported to have none. -/
def loadModelEda (hash : String → String) (r : Reg) (force : Bool) (m : Option EdaMsg) :
    Except Registry.Err (Eda × Bool) :=
  match m with
  | none => .ok ({}, true)
  | some m =>
    match loadEda hash r force m with
    | .error e => .error e
    | .ok e => .ok (e, false)

/-! ### Pickling of priors -/

mutual

/-- Python objects in the state of a pickled container: a distribution is its class and the parameters
of its constructor (`.parameters`), any other object but classes, dictionaries and lists is opaque. -/
inductive Obj where
  | opaque (id : ℕ)
  | cls (name : String)
  | dist (cls : String) (params : Params)
  | dict (items : Params)
  | list (items : Objs)

inductive Objs where
  | nil
  | cons (x : Obj) (l : Objs)

/-- A dictionary in its order. -/
inductive Params where
  | nil
  | cons (key : String) (x : Obj) (l : Params)

end

/-- `params[key] = x`: the place of a key that is present, otherwise the end. -/
def Params.set (key : String) (x : Obj) : Params → Params
  | .nil => .cons key x .nil
  | .cons k y l => if k = key then .cons k x l else .cons k y (l.set key x)

/-- `params.pop(key)`. -/
def Params.pop (key : String) : Params → Option (Obj × Params)
  | .nil => none
  | .cons k y l =>
    if k = key then some (y, l)
    else
      match l.pop key with
      | none => none
      | some (x, l') => some (x, .cons k y l')

mutual

/-- `_pack_distribution_params`, `meridian/model/prior_distribution.py:568-584`; anything but a distribution has
no `parameters`.  `dist.distribution` is the parameter of that name. -/
def pack : Obj → Option Obj
  | .dist c ps =>
    match packParams ps with
    | none => none
    | some ps' => some (.dict (ps'.set "distribution_type" (.cls c)))
  | _ => none

/-- The parameters `distribution` and `distributions` are packed, the others kept,
`meridian/model/prior_distribution.py:573-581`. -/
def packParams : Params → Option Params
  | .nil => some .nil
  | .cons k x l =>
    match (if k = "distribution" then pack x else if k = "distributions" then packList x else some x) with
    | none => none
    | some x' =>
      match packParams l with
      | none => none
      | some l' => some (.cons k x' l')

/-- The list comprehension, `meridian/model/prior_distribution.py:578-581`. -/
def packList : Obj → Option Obj
  | .list l =>
    match packAll l with
    | none => none
    | some l' => some (.list l')
  | _ => none

def packAll : Objs → Option Objs
  | .nil => some .nil
  | .cons x l =>
    match pack x with
    | none => none
    | some x' =>
      match packAll l with
      | none => none
      | some l' => some (.cons x' l')

end

mutual

/-- `_unpack_distribution_params`, `meridian/model/prior_distribution.py:545-558`. -/
def unpack : Obj → Option Obj
  | .dict ps =>
    match unpackParams ps with
    | none => none
    | some ps' =>
      match ps'.pop "distribution_type" with
      | some (.cls c, rest) => some (.dist c rest)
      | _ => none
  | _ => none

/-- `meridian/model/prior_distribution.py:548-556`. -/
def unpackParams : Params → Option Params
  | .nil => some .nil
  | .cons k x l =>
    match (if k = "distribution" then unpack x else if k = "distributions" then unpackList x else some x) with
    | none => none
    | some x' =>
      match unpackParams l with
      | none => none
      | some l' => some (.cons k x' l')

def unpackList : Obj → Option Obj
  | .list l =>
    match unpackAll l with
    | none => none
    | some l' => some (.list l')
  | _ => none

def unpackAll : Objs → Option Objs
  | .nil => some .nil
  | .cons x l =>
    match unpack x with
    | none => none
    | some x' =>
      match unpackAll l with
      | none => none
      | some l' => some (.cons x' l')

end

/-- `__getstate__`, `meridian/model/prior_distribution.py:566-589`: every attribute packed. -/
def getState : List (String × Obj) → Option (List (String × Obj))
  | [] => some []
  | (a, x) :: rest =>
    match pack x with
    | none => none
    | some x' =>
      match getState rest with
      | none => none
      | some l => some ((a, x') :: l)

/-- `__setstate__`, `meridian/model/prior_distribution.py:543-564`. -/
def setState : List (String × Obj) → Option (List (String × Obj))
  | [] => some []
  | (a, x) :: rest =>
    match unpack x with
    | none => none
    | some x' =>
      match setState rest with
      | none => none
      | some l => some ((a, x') :: l)

end Verif.OldFiles

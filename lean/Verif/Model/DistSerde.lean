import Verif.Model.Registry
import Mathlib.Algebra.Order.Field.Rat

/-!
# Saving and loading prior distributions

`DistributionSerde`, `meridian/schema/serde/distribution.py`.

A distribution or bijector is its class and the parameters of its constructor (`.parameters`);
constructing it from these parameters gives it back.  The constructors' own checks, among them the
check of the supports by `PriorDistribution`, are not modelled.
-/

namespace Verif.DistSerde

open Verif.Registry (Fn Reg)

/-- A class of `backend.tfd` (or one of the custom distributions) or of `backend.bijectors`. -/
inductive Cls where
  | dist (name : String)
  | bij (name : String)
deriving DecidableEq

mutual

/-- Parameter values as `_to_parameter_value_proto` tells them apart
(`meridian/schema/serde/distribution.py:201-277`).  Python `bool`s and numpy booleans are different
cases; `other` is anything else, with the result of `np.asarray` if it can be a tensor message
(a tuple of distributions, for instance, cannot).  Floats are finite. -/
inductive Val (A : Type) where
  | float (x : ℚ)
  | int (n : ℤ)
  | bool (b : Bool)
  | npBool (b : Bool)
  | str (s : String)
  | none
  | list (l : Vals A)
  | dict (l : Fields A)
  | dist (cls : String) (params : Fields A)
  | bij (cls : String) (params : Fields A)
  | reparam (full : Bool)
  | fn (f : Fn)
  | other (a : Option A)

/-- A list of values. -/
inductive Vals (A : Type) where
  | nil
  | cons (v : Val A) (l : Vals A)

/-- Names with their values. -/
inductive Fields (A : Type) where
  | nil
  | cons (key : String) (v : Val A) (l : Fields A)

end

mutual

/-- The message `TfpParameterValue`, `proto/mmm/v1/model/meridian/meridian_model.proto:656-712`. -/
inductive PVal (P : Type) where
  | scalar (x : ℚ)
  | int (n : ℤ)
  | bool (b : Bool)
  | str (s : String)
  | none
  | list (l : PVals P)
  | dict (l : PFields P)
  | tensor (p : P)
  | dist (cls : String) (params : PFields P)
  | bij (cls : String) (params : PFields P)
  | fullyReparameterized (b : Bool)
  | functionKey (key : String)
  | usesDefault (b : Bool)

/-- The message `TfpParameterValue.List`. -/
inductive PVals (P : Type) where
  | nil
  | cons (v : PVal P) (l : PVals P)

/-- A map from names to messages. -/
inductive PFields (P : Type) where
  | nil
  | cons (key : String) (v : PVal P) (l : PFields P)

end

/-- The errors. -/
inductive Err where
  | notRegistered
  | unsupported
  | intRange
  | unknownClass
  | noSuchParameter
  | noFunction
  | tensor
deriving DecidableEq

/-- What the code relies on: the classes of the backend, the defaults in the signatures of their
constructors (`none` if there is no such parameter), rounding to 32 bits, the float type of the
backend, and tensor messages (`Verif.Model.TensorProto` for JAX), reading with the cast of floats. -/
structure Env (A P : Type) where
  known : Cls → Bool
  default : Cls → String → Option (Val A)
  round32 : ℚ → ℚ
  toFloat : ℚ → ℚ
  make : A → Option P
  read : P → Option A

variable {A P : Type}

/-- `param.default is value` for a function. -/
def isDefault (env : Env A P) (cls : Cls) (param : String) (f : Fn) : Option Bool :=
  match env.default cls param with
  | none => none
  | some (.fn g) => some (decide (g.ident = f.ident))
  | some _ => some false

/-- The case of functions, `meridian/schema/serde/distribution.py:244-267`. -/
def functionProto (env : Env A P) (reg : Reg) (cls : Cls) (param : String) (f : Fn) :
    Except Err (PVal P) :=
  match isDefault env cls param f with
  | none => .error .noSuchParameter
  | some true => .ok (.usesDefault true)
  | some false =>
    match Registry.functionKey reg f with
    | some k => .ok (.functionKey k)
    | none => .error .notRegistered

mutual

/-- `_to_parameter_value_proto`, `meridian/schema/serde/distribution.py:193-277`. -/
def toProto (env : Env A P) (reg : Reg) (cls : Cls) (param : String) : Val A → Except Err (PVal P)
  | .float x => .ok (.scalar (env.round32 x))
  | .int n => if -2 ^ 31 ≤ n ∧ n < 2 ^ 31 then .ok (.int n) else .error .intRange
  | .bool b => .ok (.int (if b then 1 else 0))
  | .npBool b => .ok (.bool b)
  | .str s => .ok (.str s)
  | .none => .ok .none
  | .list l =>
    match listProto env reg cls param l with
    | .error e => .error e
    | .ok p => .ok (.list p)
  | .dict l =>
    match dictProto env reg cls param l with
    | .error e => .error e
    | .ok p => .ok (.dict p)
  | .dist c ps =>
    if env.known (.dist c) then
      match paramsProto env reg (.dist c) ps with
      | .error e => .error e
      | .ok p => .ok (.dist c p)
    else .error .unknownClass
  | .bij c ps =>
    if env.known (.bij c) then
      match paramsProto env reg (.bij c) ps with
      | .error e => .error e
      | .ok p => .ok (.bij c p)
    else .error .unknownClass
  | .reparam b => .ok (.fullyReparameterized b)
  | .fn f => functionProto env reg cls param f
  | .other a =>
    match a with
    | none => .error .unsupported
    | some a =>
      match env.make a with
      | none => .error .unsupported
      | some p => .ok (.tensor p)

/-- The items of a list: the name of the parameter stays the same, lines 221-229. -/
def listProto (env : Env A P) (reg : Reg) (cls : Cls) (param : String) :
    Vals A → Except Err (PVals P)
  | .nil => .ok .nil
  | .cons v l =>
    match toProto env reg cls param v with
    | .error e => .error e
    | .ok p =>
      match listProto env reg cls param l with
      | .error e => .error e
      | .ok ps => .ok (.cons p ps)

/-- The items of a dictionary: the name of the parameter stays the same, lines 230-237. -/
def dictProto (env : Env A P) (reg : Reg) (cls : Cls) (param : String) :
    Fields A → Except Err (PFields P)
  | .nil => .ok .nil
  | .cons k v l =>
    match toProto env reg cls param v with
    | .error e => .error e
    | .ok p =>
      match dictProto env reg cls param l with
      | .error e => .error e
      | .ok ps => .ok (.cons k p ps)

/-- The parameters of a distribution or bijector, lines 177-182 and 192-197. -/
def paramsProto (env : Env A P) (reg : Reg) (cls : Cls) : Fields A → Except Err (PFields P)
  | .nil => .ok .nil
  | .cons k v l =>
    match toProto env reg cls k v with
    | .error e => .error e
    | .ok p =>
      match paramsProto env reg cls l with
      | .error e => .error e
      | .ok ps => .ok (.cons k p ps)

end

/-- Reading a function, `meridian/schema/serde/distribution.py:358-373`: the two fields are a
`oneof`. -/
def functionOf (env : Env A P) (reg : Reg) (cls : Cls) (param : String) (key : Option String)
    (usesDefault : Bool) : Except Err (Val A) :=
  match key.bind fun k => reg.items.lookup k with
  | some f => .ok (.fn f)
  | none =>
    if usesDefault then
      match env.default cls param with
      | some v => .ok v
      | none => .error .noSuchParameter
    else .error .noFunction

mutual

/-- `_unpack_tfp_parameters`, `meridian/schema/serde/distribution.py:311-379`. -/
def fromProto (env : Env A P) (reg : Reg) (cls : Cls) (param : String) :
    PVal P → Except Err (Val A)
  | .scalar x => .ok (.float (env.toFloat x))
  | .int n => .ok (.int n)
  | .bool b => .ok (.npBool b)
  | .str s => .ok (.str s)
  | .none => .ok .none
  | .list l =>
    match listOf env reg cls param l with
    | .error e => .error e
    | .ok v => .ok (.list v)
  | .dict l =>
    match fieldsOf env reg cls l with
    | .error e => .error e
    | .ok v => .ok (.dict v)
  | .tensor p =>
    match env.read p with
    | none => .error .tensor
    | some a => .ok (.other (some a))
  | .dist c ps =>
    if env.known (.dist c) then
      match fieldsOf env reg (.dist c) ps with
      | .error e => .error e
      | .ok v => .ok (.dist c v)
    else .error .unknownClass
  | .bij c ps =>
    if env.known (.bij c) then
      match fieldsOf env reg (.bij c) ps with
      | .error e => .error e
      | .ok v => .ok (.bij c v)
    else .error .unknownClass
  | .fullyReparameterized b => .ok (.reparam b)
  | .functionKey k => functionOf env reg cls param (some k) false
  | .usesDefault b => functionOf env reg cls param none b

/-- The items of a list, lines 328-332. -/
def listOf (env : Env A P) (reg : Reg) (cls : Cls) (param : String) :
    PVals P → Except Err (Vals A)
  | .nil => .ok .nil
  | .cons p l =>
    match fromProto env reg cls param p with
    | .error e => .error e
    | .ok v =>
      match listOf env reg cls param l with
      | .error e => .error e
      | .ok vs => .ok (.cons v vs)

/-- The items of a dictionary, lines 333-338, and the parameters of a distribution or bijector, lines
279-283 and 299-303: the key is used as the name of the parameter. -/
def fieldsOf (env : Env A P) (reg : Reg) (cls : Cls) : PFields P → Except Err (Fields A)
  | .nil => .ok .nil
  | .cons k p l =>
    match fromProto env reg cls k p with
    | .error e => .error e
    | .ok v =>
      match fieldsOf env reg cls l with
      | .error e => .error e
      | .ok vs => .ok (.cons k v vs)

end

/-! ### The container -/

/-- `ALL_PRIOR_DISTRIBUTION_PARAMETERS`, `meridian/constants.py:400-469`. -/
def allParameters : List String :=
  ["knot_values"] ++
  ["roi_m", "mroi_m", "contribution_m", "beta_m", "eta_m", "alpha_m", "ec_m", "slope_m"] ++
  ["roi_rf", "mroi_rf", "contribution_rf", "beta_rf", "eta_rf", "alpha_rf", "ec_rf", "slope_rf"] ++
  ["contribution_om", "beta_om", "eta_om", "alpha_om", "ec_om", "slope_om"] ++
  ["contribution_orf", "beta_orf", "eta_orf", "alpha_orf", "ec_orf", "slope_orf"] ++
  ["contribution_n", "gamma_n", "xi_n"] ++ ["gamma_c", "xi_c"] ++ ["sigma"] ++
  ["tau_g_excl_baseline"] ++ ["mu_t"]

/-- The fields of `PriorDistribution`, `meridian/model/prior_distribution.py:277-512`. -/
def priorFields : List String :=
  ["knot_values", "tau_g_excl_baseline", "beta_m", "beta_rf", "beta_om", "beta_orf", "eta_m",
   "eta_rf", "eta_om", "eta_orf", "gamma_c", "gamma_n", "xi_c", "xi_n", "alpha_m", "alpha_rf",
   "alpha_om", "alpha_orf", "ec_m", "ec_rf", "ec_om", "ec_orf", "slope_m", "slope_rf", "slope_om",
   "slope_orf", "sigma", "roi_m", "roi_rf", "mroi_m", "mroi_rf", "contribution_m",
   "contribution_rf", "contribution_om", "contribution_orf", "contribution_n"]

/-- The fields of the message `PriorTfpDistributions`,
`proto/mmm/v1/model/meridian/meridian_model.proto:257-298`. -/
def messageFields : List String :=
  ["knot_values", "tau_g_excl_baseline", "beta_m", "beta_rf", "eta_m", "eta_rf", "gamma_c", "xi_c",
   "alpha_m", "alpha_rf", "ec_m", "ec_rf", "slope_m", "slope_rf", "sigma", "roi_m", "roi_rf",
   "mroi_m", "mroi_rf", "contribution_m", "contribution_rf", "contribution_om", "contribution_orf",
   "contribution_n", "beta_om", "beta_orf", "eta_om", "eta_orf", "gamma_n", "xi_n", "alpha_om",
   "alpha_orf", "ec_om", "ec_orf", "slope_om", "slope_orf"]

/-- A prior: the class of the distribution and its parameters. -/
structure Prior (A : Type) where
  cls : String
  params : Fields A

/-- `PriorTfpDistributions`. -/
structure Saved (P : Type) where
  priors : List (String × String × PFields P)
  hashes : List (String × String)

/-- `_to_distribution_proto`, `meridian/schema/serde/distribution.py:160-176`. -/
def distProto (env : Env A P) (reg : Reg) (d : Prior A) : Except Err (String × PFields P) :=
  if env.known (.dist d.cls) then
    match paramsProto env reg (.dist d.cls) d.params with
    | .error e => .error e
    | .ok p => .ok (d.cls, p)
  else .error .unknownClass

/-- `_from_distribution_proto`, `meridian/schema/serde/distribution.py:279-294`. -/
def distOf (env : Env A P) (reg : Reg) (cls : String) (ps : PFields P) : Except Err (Prior A) :=
  if env.known (.dist cls) then
    match fieldsOf env reg (.dist cls) ps with
    | .error e => .error e
    | .ok v => .ok ⟨cls, v⟩
  else .error .unknownClass

/-- The loop of `serialize`, `meridian/schema/serde/distribution.py:72-84`. -/
def savePriors (env : Env A P) (reg : Reg) (prior : String → Prior A) :
    List String → Except Err (List (String × String × PFields P))
  | [] => .ok []
  | x :: rest =>
    if x ∈ priorFields then
      match distProto env reg (prior x) with
      | .error e => .error e
      | .ok p =>
        match savePriors env reg prior rest with
        | .error e => .error e
        | .ok l => .ok ((x, p) :: l)
    else savePriors env reg prior rest

/-- Errors of the container: those of the priors, those of the registry. -/
inductive PriorErr where
  | value (e : Err)
  | registry (e : Registry.Err)
deriving DecidableEq

/-- `serialize`, `meridian/schema/serde/distribution.py:72-84`. -/
def save (hash : String → String) (env : Env A P) (reg : Reg) (prior : String → Prior A) :
    Except PriorErr (Saved P × Reg) :=
  match savePriors env reg prior allParameters with
  | .error e => .error (.value e)
  | .ok l =>
    match Registry.hashedRegistry hash reg with
    | .error e => .error (.registry e)
    | .ok (h, reg') => .ok (⟨l, h⟩, reg')

/-- The loop of `deserialize`, `meridian/schema/serde/distribution.py:119-158`, the keyword arguments
of `PriorDistribution`. -/
def loadPriors (hash : String → String) (env : Env A P) (reg : Reg) (force : Bool) (s : Saved P) :
    List String → Except PriorErr (List (String × Prior A))
  | [] => .ok []
  | x :: rest =>
    if x ∈ messageFields then
      match s.priors.lookup x with
      | none => loadPriors hash env reg force s rest
      | some (cls, ps) =>
        match (if force then .ok () else Registry.validate hash reg s.hashes) with
        | .error e => .error (.registry e)
        | .ok () =>
          match distOf env reg cls ps with
          | .error e => .error (.value e)
          | .ok v =>
            match loadPriors hash env reg force s rest with
            | .error e => .error e
            | .ok l => .ok ((x, v) :: l)
    else loadPriors hash env reg force s rest

/-- `deserialize`, `meridian/schema/serde/distribution.py:86-158`; fields that are not given have
their default. -/
def load (hash : String → String) (env : Env A P) (reg : Reg) (force : Bool)
    (defaults : String → Prior A) (s : Saved P) : Except PriorErr (String → Prior A) :=
  match loadPriors hash env reg force s allParameters with
  | .error e => .error e
  | .ok l => .ok fun x => (l.lookup x).getD (defaults x)

end Verif.DistSerde

import Mathlib.Data.List.Basic

/-!
# Registries of custom functions

`meridian/schema/serde/function_registry.py`, and the parts of
`meridian/schema/serde/eda_spec.py` that use it.

A Python dictionary is an association list, the first entry of a key counts.  A function is an object
with an identity and a source text (`none` if `inspect.getsource` raises).  The hash of a text is a
parameter.
-/

namespace Verif.Registry

inductive Err
  | missing (key : String)
  | source (key : String)
  | mismatch (key : String)
  | sourceRetrieval
  | notRegistered
  | emptyKey
  | unknownKey
  deriving DecidableEq, Repr

/-- A function object: what `is` compares, and what `inspect.getsource` returns. -/
structure Fn where
  ident : ℕ
  source : Option String
  deriving DecidableEq, Repr

/-- `FunctionRegistry`, `meridian/schema/serde/function_registry.py:69-97`: the items, and the value
cached by `functools.cached_property` under `hashed_registry`. -/
structure Reg where
  items : List (String × Fn)
  cache : Option (List (String × String)) := none
  deriving DecidableEq, Repr

/-- `registry[key] = function` of a Python dictionary. -/
def setEntry (items : List (String × Fn)) (key : String) (f : Fn) : List (String × Fn) :=
  match items with
  | [] => [(key, f)]
  | (k, g) :: rest => if k = key then (k, f) :: rest else (k, g) :: setEntry rest key f

/-- `registry[key] = function`: the cached value is kept. -/
def Reg.set (r : Reg) (key : String) (f : Fn) : Reg :=
  { r with items := setEntry r.items key f }

/-- The dictionary comprehension of `hashed_registry`,
`meridian/schema/serde/function_registry.py:91-97`. -/
def hashes (hash : String → String) : List (String × Fn) → Except Err (List (String × String))
  | [] => .ok []
  | (k, f) :: rest =>
    match f.source with
    | none => .error .sourceRetrieval
    | some src =>
      match hashes hash rest with
      | .error e => .error e
      | .ok l => .ok ((k, hash src) :: l)

/-- `hashed_registry`, `meridian/schema/serde/function_registry.py:91-97`: computed at the first
access and cached. The registry after the access is returned with the value. -/
def hashedRegistry (hash : String → String) (r : Reg) :
    Except Err (List (String × String) × Reg) :=
  match r.cache with
  | some l => .ok (l, r)
  | none =>
    match hashes hash r.items with
    | .error e => .error e
    | .ok l => .ok (l, { r with cache := some l })

/-- One round of the loop of `validate`, `meridian/schema/serde/function_registry.py:121-136`. -/
def checkEntry (hash : String → String) (r : Reg) (key stored : String) : Except Err Unit :=
  match r.items.lookup key with
  | none => .error (.missing key)
  | some f =>
    match f.source with
    | none => .error (.source key)
    | some src => if stored ≠ hash src then .error (.mismatch key) else .ok ()

/-- The loop of `validate`. -/
def checkAll (hash : String → String) (r : Reg) : List (String × String) → Except Err Unit
  | [] => .ok ()
  | (k, h) :: rest =>
    match checkEntry hash r k h with
    | .error e => .error e
    | .ok () => checkAll hash r rest

/-- `FunctionRegistry.validate`, `meridian/schema/serde/function_registry.py:99-136`; the warning
is not modelled. -/
def validate (hash : String → String) (r : Reg) (stored : List (String × String)) :
    Except Err Unit :=
  if stored.isEmpty && !r.items.isEmpty then .ok () else checkAll hash r stored

/-- `get_function_key`, `meridian/schema/serde/function_registry.py:138-143`. -/
def functionKey (r : Reg) (f : Fn) : Option String :=
  (r.items.find? fun e => e.2.ident = f.ident).map Prod.fst

/-! ### Aggregation functions of the EDA specification -/

/-- The variables of an aggregation configuration with their functions, or with their function keys. -/
abbrev Aggregation (α : Type) := List (String × α)

/-- `_to_aggregation_function_proto` for every variable, `meridian/schema/serde/eda_spec.py:226-253`. -/
def toKeys (r : Reg) : Aggregation Fn → Except Err (Aggregation String)
  | [] => .ok []
  | (v, f) :: rest =>
    match functionKey r f with
    | none => .error .notRegistered
    | some k =>
      match toKeys r rest with
      | .error e => .error e
      | .ok l => .ok ((v, k) :: l)

/-- `_from_aggregation_function_proto` for every variable, `meridian/schema/serde/eda_spec.py:259-287`. -/
def fromKeys (r : Reg) : Aggregation String → Except Err (Aggregation Fn)
  | [] => .ok []
  | (v, k) :: rest =>
    if k = "" then .error .emptyKey
    else
      match r.items.lookup k with
      | none => .error .unknownKey
      | some f =>
        match fromKeys r rest with
        | .error e => .error e
        | .ok l => .ok ((v, f) :: l)

/-- A saved aggregation configuration: the keys and the stored hashes. -/
structure SavedAggregation where
  keys : Aggregation String
  hashes : List (String × String)
  deriving DecidableEq, Repr

/-- `EDASpecSerde.serialize`, `meridian/schema/serde/eda_spec.py:148-163`, for the aggregation
functions: the saved form and the registry afterwards. -/
def saveAggregation (hash : String → String) (r : Reg) (a : Aggregation Fn) :
    Except Err (SavedAggregation × Reg) :=
  match toKeys r a with
  | .error e => .error e
  | .ok keys =>
    match hashedRegistry hash r with
    | .error e => .error e
    | .ok (h, r') => .ok ({ keys := keys, hashes := h }, r')

/-- `EDASpecSerde.deserialize`, `meridian/schema/serde/eda_spec.py:165-220`, for the aggregation
functions. -/
def loadAggregation (hash : String → String) (r : Reg) (force : Bool) (s : SavedAggregation) :
    Except Err (Aggregation Fn) :=
  match (if force then .ok () else validate hash r s.hashes) with
  | .error e => .error e
  | .ok () => fromKeys r s.keys

end Verif.Registry

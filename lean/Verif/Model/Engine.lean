import Mathlib.Data.List.Sort
import Mathlib.Data.String.Basic

/-!
# The computation backend and precision of a process

`meridian/backend/config.py`, the initialisation and the dtype rules of `meridian/backend/__init__.py`, what
`Meridian` and `MeridianSerde` record about them, and the JAX container for tensors.

A process has one module `meridian.backend.config` and one module `meridian.backend`; both have been run once when
the first statement of a user runs, because `meridian.backend.config` lies in the package `meridian.backend`, whose
`__init__` imports it (`meridian/backend/__init__.py:23`).  After that the user may call `set_backend`, reload
`meridian.backend`, and change the JAX setting for 64 bits.

Not modelled: the modules of Meridian that keep objects of the old `meridian.backend` after a reload.
-/

namespace Verif.Engine

/-- `Backend`, `meridian/backend/config.py:23-25`. -/
inductive Backend
  | tensorflow
  | jax
  deriving DecidableEq, Repr

/-- `ComputationBackend`, `meridian/backend/config.py:28-37`. -/
inductive CompBackend
  | unspecified
  | tensorflow
  | jax
  deriving DecidableEq, Repr

/-- `ComputationPrecision`, `meridian/backend/config.py:40-49`. -/
inductive Precision
  | unspecified
  | float32
  | float64
  deriving DecidableEq, Repr

/-- One character of `str.lower`, for the letters of the names in question; no other character of Unicode becomes
one of their letters. -/
def lowerChar (c : Char) : Char :=
  if 'A' ≤ c ∧ c ≤ 'Z' then Char.ofNat (c.toNat + 32) else c

/-- `str.lower()`. -/
def lower (s : String) : List Char := s.toList.map lowerChar

/-- `Backend(value)` of a string in small letters, `meridian/backend/config.py:23-25`; `none` is `ValueError`. -/
def byValue (v : List Char) : Option Backend :=
  if v = "tensorflow".toList then some .tensorflow
  else if v = "jax".toList then some .jax
  else none

/-- `_initialize_backend`, `meridian/backend/config.py:55-74`: the backend and whether there was a warning. -/
def initBackend (env : Option String) : Backend × Bool :=
  match env with
  | none => (.tensorflow, false)
  | some s =>
    if s.toList = [] then (.tensorflow, false)
    else
      match byValue (lower s) with
      | some b => (b, false)
      | none => (.tensorflow, true)

/-- Whether the configuration switches JAX to 64 bits, `meridian/backend/config.py:77-87`. -/
def enablesX64 (b : Backend) (envX64 : Option String) : Bool :=
  decide (b = .jax) &&
    (decide (lower (envX64.getD "false") = "1".toList) || decide (lower (envX64.getD "false") = "true".toList))

/-- What running the module `meridian.backend` fixes: the library of its tensors and the default float. -/
structure Loaded where
  backend : Backend
  defaultFloat : String
  deriving DecidableEq, Repr

/-- The branches on the backend, `meridian/backend/__init__.py:803-816`, `meridian/backend/__init__.py:1128-1130` and
`meridian/backend/__init__.py:1322-1324`. -/
def load (selected : Backend) (jaxX64 : Bool) : Loaded :=
  match selected with
  | .jax => ⟨.jax, if jaxX64 then "float64" else "float32"⟩
  | .tensorflow => ⟨.tensorflow, "float32"⟩

/-- A process. -/
structure Proc where
  /-- `config._BACKEND` -/
  selected : Backend
  /-- `jax.config.jax_enable_x64` -/
  jaxX64 : Bool
  /-- `meridian.backend` -/
  loaded : Loaded
  deriving DecidableEq, Repr

/-- The process when the first statement of the user runs, `meridian/backend/config.py:80-87` and then
`meridian/backend/__init__.py:803`; `jaxOwn` is JAX's own setting. -/
def start (env envX64 : Option String) (jaxOwn : Bool) : Proc :=
  { selected := (initBackend env).1
    jaxX64 := jaxOwn || enablesX64 (initBackend env).1 envX64
    loaded := load (initBackend env).1 (jaxOwn || enablesX64 (initBackend env).1 envX64) }

/-- The argument of `set_backend`. -/
inductive Arg
  | str (s : String)
  | enum (b : Backend)
  | other
  deriving DecidableEq, Repr

/-- The checks of `set_backend`, `meridian/backend/config.py:111-123`; `none` is `ValueError`. -/
def Arg.backend : Arg → Option Backend
  | .str s => byValue (lower s)
  | .enum b => some b
  | .other => none

/-- What a user does in a process. -/
inductive Ev
  /-- `config.set_backend(arg)` -/
  | set (a : Arg)
  /-- `importlib.reload(meridian.backend)` -/
  | reload
  /-- `jax.config.update("jax_enable_x64", on)` -/
  | x64 (on : Bool)
  deriving DecidableEq, Repr

/-- One step: `set_backend` (`meridian/backend/config.py:90-125`), a reload (`meridian/backend/__init__.py:803`, the module
`config` is not run again), a change of the JAX setting. -/
def step (p : Proc) : Ev → Proc
  | .set a =>
    match a.backend with
    | some b => { p with selected := b }
    | none => p
  | .reload => { p with loaded := load p.selected p.jaxX64 }
  | .x64 on => { p with jaxX64 := on }

/-- A history. -/
def run (p : Proc) (es : List Ev) : Proc := es.foldl step p

/-- `needle in hay` for strings. -/
def contains (needle : List Char) : List Char → Bool
  | [] => needle.isPrefixOf []
  | c :: cs => needle.isPrefixOf (c :: cs) || contains needle cs

/-- `Tensor.__module__` for `jax.Array` and `tf.Tensor`, `meridian/backend/__init__.py:1058` and
`meridian/backend/__init__.py:1152`. -/
def tensorModule : Backend → String
  | .jax => "jax"
  | .tensorflow => "tensorflow.python.framework.tensor"

/-- `computation_backend`, `meridian/backend/__init__.py:1576-1596`. -/
def computationBackend (p : Proc) : CompBackend :=
  if contains "jax".toList (tensorModule p.loaded.backend).toList then .jax
  else if contains "tensorflow".toList (tensorModule p.loaded.backend).toList then .tensorflow
  else .unspecified

/-- `computation_precision`, `meridian/backend/__init__.py:1599-1613`; `none` is `ValueError`. -/
def computationPrecision (p : Proc) : Option Precision :=
  if p.loaded.defaultFloat = "float32" then some .float32
  else if p.loaded.defaultFloat = "float64" then some .float64
  else none

/-! ### What a model and its file record -/

/-- The recorded backend and precision of a model; a model unpickled from an early version has none of them. -/
structure Mark where
  backend : Option CompBackend
  precision : Option Precision
  deriving DecidableEq, Repr

/-- `Meridian.__init__`, `meridian/model/model.py:217-218`. -/
def newModel (p : Proc) : Option Mark :=
  (computationPrecision p).map fun x => ⟨some (computationBackend p), some x⟩

/-- The fields of the file, `meridian/schema/serde/meridian_serde.py:163-195`. -/
def save (m : Mark) : CompBackend × Precision := (m.backend.getD .unspecified, m.precision.getD .unspecified)

/-- Loading, `meridian/schema/serde/meridian_serde.py:293-326`: whether there is a warning about the backend and about
the precision, and the new model, which is made by `Meridian.__init__`
(`meridian/schema/serde/meridian_serde.py:389`). -/
def loadModel (p : Proc) (f : CompBackend × Precision) : Option (Bool × Bool × Mark) := do
  let x ← computationPrecision p
  let m ← newModel p
  return (decide (f.1 ≠ .unspecified ∧ f.1 ≠ computationBackend p),
          decide (f.2 ≠ .unspecified ∧ f.2 ≠ x), m)

/-! ### dtypes -/

/-- The types of numpy that occur. -/
inductive Np
  | bool | int8 | int16 | int32 | int64 | uint8 | uint16 | uint32 | uint64
  | float16 | bfloat16 | float32 | float64 | complex64 | complex128 | str | object
  deriving DecidableEq, Repr

/-- `np.dtype(x).name`, used by `standardize_dtype`, `meridian/backend/__init__.py:58-79`. -/
def Np.name : Np → String
  | .bool => "bool" | .int8 => "int8" | .int16 => "int16" | .int32 => "int32" | .int64 => "int64"
  | .uint8 => "uint8" | .uint16 => "uint16" | .uint32 => "uint32" | .uint64 => "uint64"
  | .float16 => "float16" | .bfloat16 => "bfloat16" | .float32 => "float32" | .float64 => "float64"
  | .complex64 => "complex64" | .complex128 => "complex128" | .str => "str32" | .object => "object"

/-- `result_type`, `meridian/backend/__init__.py:82-111`; the names are standardised, `none` is `None`. -/
def resultType (p : Proc) (ts : List (Option String)) : String :=
  if (ts.filterMap id).any fun t => contains "float".toList t.toList then p.loaded.defaultFloat else "int64"

/-- `_resolve_dtype`, `meridian/backend/__init__.py:114-134`; an argument that is `None` is left out. -/
def resolveDtype (p : Proc) (dtype : Option String) (args : List (Option String)) : String :=
  match dtype with
  | some d => d
  | none => resultType p (args.filter Option.isSome)

/-- What is given to `to_tensor` on JAX: an object with `.values` (xarray, pandas), an array of numpy or of JAX, a
list or tuple with the type numpy finds for it, a Python float, a Python int. -/
inductive Src
  | wrapped (d : Np)
  | ndarray (d : Np)
  | jaxArray (d : Np)
  | list (d : Np)
  | pyFloat
  | pyInt
  deriving DecidableEq, Repr

/-- After `meridian/backend/__init__.py:670-678`: the dtype of the data if it has one, and whether it is an array of
numpy. -/
def Src.unwrapped : Src → Option Np × Bool
  | .wrapped d => (some d, true)
  | .ndarray d => (some d, true)
  | .jaxArray d => (some d, false)
  | .list d => (some d, true)
  | .pyFloat => (some .float64, true)
  | .pyInt => (none, false)

/-- The dtype JAX gives to a requested one: the types of 64 bits are narrowed unless 64 bits are enabled. -/
def canonical (x64 : Bool) (d : Np) : Np :=
  if x64 then d
  else
    match d with
    | .int64 => .int32
    | .uint64 => .uint32
    | .float64 => .float32
    | .complex128 => .complex64
    | d => d

/-- The array made: of numpy with strings, or of JAX. -/
inductive Out
  | strings
  | array (d : Np)
  deriving DecidableEq, Repr

/-- `jax.numpy.asarray(data, dtype)`; strings and objects are refused. -/
def asarray (x64 : Bool) (data dtype : Option Np) : Option Out :=
  match (dtype.orElse fun _ => data).getD .int64 with
  | .str => none
  | .object => none
  | d => if data = some .str ∨ data = some .object then none else some (.array (canonical x64 d))

/-- `_jax_convert_to_tensor`, `meridian/backend/__init__.py:648-718`: the array, if there is no error, and whether there
was a warning. -/
def jaxConvert (x64 : Bool) (s : Src) (dtype : Option Np) : Option Out × Bool :=
  if dtype = some .str then (some .strings, false)
  else if dtype = none ∧ s.unwrapped = (some .str, true) then (some .strings, false)
  else if dtype = none ∧ s.unwrapped.1 = some .float64 ∧ x64 = false then
    (asarray x64 s.unwrapped.1 (some .float32), true)
  else (asarray x64 s.unwrapped.1 dtype, false)

/-! ### The container of tensors -/

variable {K V : Type} [LinearOrder K]

/-- `d[k]` -/
def attr (o : List (K × V)) (k : K) : Option V := (o.find? fun kv => kv.1 = k).map Prod.snd

/-- The names in the order of `sorted`, `meridian/backend/__init__.py:844-845`. -/
def names (o : List (K × V)) : List K := (o.map Prod.fst).insertionSort (· ≤ ·)

/-- `ExtensionType._tree_flatten`, `meridian/backend/__init__.py:831-864`: the children, the strings and the names of
the children.  `isStr` tells the strings and the arrays of strings. -/
def flatten (isStr : V → Bool) (o : List (K × V)) : List V × List (K × V) × List K :=
  let kvs := (names o).filterMap fun k => (attr o k).map fun v => (k, v)
  ((kvs.filter fun kv => !isStr kv.2).map Prod.snd, kvs.filter fun kv => isStr kv.2,
    (kvs.filter fun kv => !isStr kv.2).map Prod.fst)

/-- `vars(obj)[k] = v` -/
def setAttr (o : List (K × V)) (k : K) (v : V) : List (K × V) :=
  o.filter (fun kv => kv.1 ≠ k) ++ [(k, v)]

/-- `ExtensionType._tree_unflatten`, `meridian/backend/__init__.py:866-873`. -/
def unflatten (aux : List (K × V)) (keys : List K) (children : List V) : List (K × V) :=
  (keys.zip children).foldl (fun o kv => setAttr o kv.1 kv.2) aux

end Verif.Engine

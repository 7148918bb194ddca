import Verif.Model.Rhat

/-!
# The samples and the convergence information of a saved model

`meridian/schema/serde/inference_data.py` and `_make_model_convergence_proto`,
`meridian/schema/serde/meridian_serde.py:212-254`.

A data set is a list of attributes and a body of an arbitrary type; writing it as NetCDF and reading it are a parameter
(`Codec`).  Bytes are natural numbers.
-/

namespace Verif.Archive

open Verif.Accuracy (Fl)
open Verif.Rhat (Tensor)

/-- A data set. -/
structure Dataset (V : Type) where
  attrs : List (String × String)
  body : V
deriving DecidableEq

/-- The exceptions. -/
inductive Err where
  /-- xarray cannot write a data set in this format. -/
  | write
  /-- xarray cannot read the bytes. -/
  | read
deriving DecidableEq

/-- `dataset.to_netcdf(format="NETCDF3_64BIT")` and `xr.open_dataset(io.BytesIO(data))`. -/
structure Codec (V : Type) where
  write : Dataset V → Except Err (List ℕ)
  read : List ℕ → Except Err (Dataset V)

/-- The groups of an `InferenceData` object, in the order of `groups()`; each name occurs once. -/
abbrev Groups (V : Type) := List (String × Dataset V)

/-- The message `InferenceData`, `proto/mmm/v1/model/meridian/meridian_model.proto:560-576`.  The entries of a map
have no order: `auxiliary` lists them in the order in which they are visited. -/
structure Message where
  prior : Option (List ℕ)
  posterior : Option (List ℕ)
  auxiliary : List (String × List ℕ)
deriving DecidableEq

variable {V : Type}

/-- `_remove_created_at_attribute`, `meridian/schema/serde/inference_data.py:30-34`. -/
def removeCreatedAt (d : Dataset V) : Dataset V := ⟨d.attrs.filter fun a => a.1 ≠ "created_at", d.body⟩

/-- The bytes of a group, if there is one, `meridian/schema/serde/inference_data.py:48-60`. -/
def writeGroup (cd : Codec V) (g : Groups V) (name : String) : Except Err (Option (List ℕ)) :=
  match g.lookup name with
  | none => .ok none
  | some d => (cd.write (removeCreatedAt d)).map some

/-- `aux`, `meridian/schema/serde/inference_data.py:62-67`. -/
def writeOthers (cd : Codec V) : Groups V → Except Err (List (String × List ℕ))
  | [] => .ok []
  | (name, d) :: g =>
    if name = "prior" ∨ name = "posterior" then writeOthers cd g
    else do
      let b ← cd.write (removeCreatedAt d)
      let l ← writeOthers cd g
      return (name, b) :: l

/-- `InferenceDataSerde.serialize`, `meridian/schema/serde/inference_data.py:46-73`. -/
def serialize (cd : Codec V) (g : Groups V) : Except Err Message := do
  let p ← writeGroup cd g "prior"
  let q ← writeGroup cd g "posterior"
  let l ← writeOthers cd g
  return ⟨p, q, l⟩

/-- `groups[name] = dataset`. -/
def put (g : Groups V) (name : String) (d : Dataset V) : Groups V :=
  if g.any fun e => e.1 == name then g.map fun e => if e.1 = name then (name, d) else e
  else g ++ [(name, d)]

/-- `if serialized.HasField(…): groups[…] = xr.open_dataset(…)`, `meridian/schema/serde/inference_data.py:90-96`. -/
def readGroup (cd : Codec V) (g : Groups V) (name : String) : Option (List ℕ) → Except Err (Groups V)
  | none => .ok g
  | some b => (cd.read b).map (put g name)

/-- The loop over the map, `meridian/schema/serde/inference_data.py:98-99`. -/
def readOthers (cd : Codec V) (g : Groups V) : List (String × List ℕ) → Except Err (Groups V)
  | [] => .ok g
  | (name, b) :: l => do
    let d ← cd.read b
    readOthers cd (put g name d) l

/-- `InferenceDataSerde.deserialize`, `meridian/schema/serde/inference_data.py:75-104`. -/
def deserialize (cd : Codec V) (m : Message) : Except Err (Groups V) := do
  let g ← readGroup cd [] "prior" m.prior
  let g ← readGroup cd g "posterior" m.posterior
  readOthers cd g m.auxiliary

/-! ## Convergence -/

/-- The R-hat value above which `plot_rhat_boxplot` raises, `meridian/analysis/visualizer.py:360`. -/
def failure : Fl := .fin (10 ^ 10)

/-- Whether `plot_rhat_boxplot` raises `MCMCSamplingError`, `meridian/analysis/visualizer.py:350-364`. -/
def samplingFailed (rhat : List (String × Tensor)) : Bool :=
  (rhat.flatMap fun p => p.2.flat).any fun x => Rhat.gt x failure

/-- `ModelConvergence`, with the trace of the sampler of an arbitrary type. -/
structure Convergence (T : Type) where
  rhats : List (String × Tensor)
  converged : Bool
  trace : Option T

/-- `_make_model_convergence_proto`, `meridian/schema/serde/meridian_serde.py:212-254`, and the choice of lines
204-207.  `rhat` are the values of `get_rhat`, none if there is no posterior sample. -/
def convergenceInfo {T : Type} (wanted : Bool) (rhat : Option (List (String × Tensor))) (trace : Option T) :
    Option (Convergence T) :=
  if wanted then
    match rhat with
    | none => none
    | some r => some ⟨r, !samplingFailed r, trace⟩
  else none

end Verif.Archive

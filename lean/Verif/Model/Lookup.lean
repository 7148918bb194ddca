import Verif.Model.Transformers
import Verif.Model.Options

/-!
# Looking up what belongs to a channel

`meridian/model/context.py`: `get_media_scaling_factor`, `get_channel_parameters`,
`get_channel_parameter_tensor`, `create_inference_data_coords`, `create_inference_data_dims`, and
`InputData._validate_media_channels` and `InputData.get_n_top_largest_geos` of
`meridian/data/input_data.py`.  A tensor `(n_geos, n_media_times, n_channels)` is a function of the
channel that gives a panel `geo -> time -> ℝ`.
-/

namespace Verif.Lookup

open Verif.Transformers Verif.Options

inductive Err
  | noPaid
  | duplicate
  | nanMedian
  | nonMedia
  | control
  | notFound
  | noParameter
  | badIndex
  | options (e : Options.Err)
  deriving DecidableEq

/-- An array of execution values with its channel names: `media`, `reach`, `organic_media` or
`organic_reach`. -/
structure Block where
  names : List String
  volume : ℕ → Panel

/-- The parts of `InputData` that are looked at. -/
structure Inputs where
  geos : List String
  times : List String
  mediaTimes : List String
  population : ℕ → ℝ
  media : Option Block := none
  rf : Option Block := none
  organicMedia : Option Block := none
  organicRf : Option Block := none
  nonMedia : Option (List String) := none
  controls : Option (List String) := none

/-- The names of an array that may be absent. -/
def names (b : Option Block) : Option (List String) := b.map Block.names

/-- The channels by type, as for the decay functions. -/
def channels (d : Inputs) : Channels :=
  ⟨names d.media, names d.rf, names d.organicMedia, names d.organicRf⟩

/-- `get_all_paid_channels`, `meridian/data/input_data.py:961-979`. -/
def paidChannels (d : Inputs) : Except Err (List String) :=
  match names d.media, names d.rf with
  | some m, some r => .ok (m ++ r)
  | none, some r => .ok r
  | some m, none => .ok m
  | none, none => .error .noPaid

/-- `get_all_channels`, `meridian/data/input_data.py:1049-1065`. -/
def allNames (d : Inputs) : Except Err (List String) := do
  let paid ← paidChannels d
  return paid ++ (names d.organicMedia).getD [] ++ (names d.organicRf).getD [] ++
    d.nonMedia.getD []

/-- `InputData._validate_media_channels`, `meridian/data/input_data.py:793-839`:
`len(np.unique(all_channels)) != all_channels.size`.  The list of the types of each name in the
message is left out. -/
def validateNames (d : Inputs) : Except Err Unit := do
  let l ← allNames d
  if l.dedup.length ≠ l.length then .error .duplicate else .ok ()

/-- The medians of the channels `0 … n - 1`, `meridian/model/transformers.py:78-84`; an absent
median raises. -/
noncomputable def medians (G T : ℕ) (pop : ℕ → ℝ) (vol : ℕ → Panel) :
    List ℕ → Except Err (List ℝ)
  | [] => .ok []
  | c :: cs =>
    match mediaMedian G T (vol c) pop with
    | none => .error .nanMedian
    | some m => do
      let ms ← medians G T pop vol cs
      return m :: ms

/-- The transformer of an array, `meridian/model/media.py:109-115`, 196-203, 269-272, 358-362, as
its `scale_factors_gm` (`meridian/model/transformers.py:87-89`); none when there is no array
(lines 100-101, 192-193, 259-260, 349-350). -/
noncomputable def transformer (d : Inputs) :
    Option Block → Except Err (Option (ℕ → ℕ → ℝ))
  | none => .ok none
  | some b => do
    let ms ← medians d.geos.length d.mediaTimes.length d.population b.volume
      (List.range b.names.length)
    return some fun g c => mediaScale (ms.getD c 0) d.population g

/-- The loop over the configurations, `meridian/model/context.py:1257-1271`.  The transformer of an
array that is there always exists, so the error for a missing one is not modelled. -/
def factorLoop (name : String) :
    List (Option (List String) × Option (ℕ → ℕ → ℝ)) → Except Err (ℕ → ℝ)
  | [] => .error .notFound
  | (some l, some scale) :: rest =>
    if name ∈ l then .ok fun g => scale g (l.idxOf name) else factorLoop name rest
  | _ :: rest => factorLoop name rest

/-- `ModelContext.get_media_scaling_factor`, `meridian/model/context.py:1197-1271`. -/
noncomputable def scalingFactor (d : Inputs) (name : String) : Except Err (ℕ → ℝ) :=
  if name ∈ d.nonMedia.getD [] then .error .nonMedia
  else if name ∈ d.controls.getD [] then .error .control
  else do
    let m ← transformer d d.media
    let r ← transformer d d.rf
    let om ← transformer d d.organicMedia
    let orf ← transformer d d.organicRf
    factorLoop name
      [(names d.media, m), (names d.rf, r), (names d.organicMedia, om), (names d.organicRf, orf)]

/-- The scaled array the model is fitted to: `transformer.forward`, `meridian/model/media.py:115`,
203, 272, 362. -/
noncomputable def scaled (d : Inputs) (b : Block) : Except Err (ℕ → Panel) := do
  let ms ← medians d.geos.length d.mediaTimes.length d.population b.volume
    (List.range b.names.length)
  return fun c => mediaForward (ms.getD c 0) d.population (b.volume c)

/-- `ChannelParameters`, `meridian/model/context.py:42-57`. -/
structure Params where
  index : ℕ
  pre : String
  decay : String
  isRf : Bool
  deriving DecidableEq, Repr

/-- The loop of `get_channel_parameters`, `meridian/model/context.py:1301-1312`. -/
def paramsLoop (name : String) :
    List (Option (List String) × String × Funs × Bool) → Except Err Params
  | [] => .error .notFound
  | (some l, pre, f, isRf) :: rest =>
    if name ∈ l then
      match funAt f (l.idxOf name) with
      | none => .error .badIndex
      | some decay => .ok ⟨l.idxOf name, pre, decay, isRf⟩
    else paramsLoop name rest
  | (none, _) :: rest => paramsLoop name rest

/-- `ModelContext.get_channel_parameters`, `meridian/model/context.py:1273-1312`. -/
def channelParameters (d : Inputs) (choice : Choice) (name : String) : Except Err Params :=
  match adstockDecaySpec (channels d) choice with
  | .error e => .error (.options e)
  | .ok s => paramsLoop name
      [(names d.media, "m", s.media, false), (names d.rf, "rf", s.rf, true),
        (names d.organicMedia, "om", s.organicMedia, false),
        (names d.organicRf, "orf", s.organicRf, true)]

/-- The name of the parameter, `meridian/model/context.py:1337-1340`. -/
def fullName (base pre : String) : String :=
  if base = "beta_g" then base ++ pre else base ++ "_" ++ pre

/-- `ModelContext.get_channel_parameter_tensor`, `meridian/model/context.py:1314-1348`.  The tensors
are an association of names and functions of the leading indices `ι` and of the last index. -/
def parameterTensor {ι α : Type} (d : Inputs) (choice : Choice)
    (tensors : List (String × (ι → ℕ → α))) (base name : String) : Except Err (ι → α) := do
  let p ← channelParameters d choice name
  match tensors.lookup (fullName base p.pre) with
  | none => .error .noParameter
  | some x => return fun i => x i p.index

/-! ### Labels of the samples -/

/-- A label: a number or a name. -/
inductive Label
  | num (n : ℕ)
  | name (s : String)
  deriving DecidableEq

/-- `ModelContext.create_inference_data_coords`, `meridian/model/context.py:1082-1129`. -/
def coords (d : Inputs) (nKnots nChains nDraws : ℕ) : List (String × List Label) :=
  [("chain", (List.range nChains).map .num),
   ("draw", (List.range nDraws).map .num),
   ("geo", d.geos.map .name),
   ("time", d.times.map .name),
   ("media_time", d.mediaTimes.map .name),
   ("knots", (List.range nKnots).map .num),
   ("control_variable", (d.controls.getD []).map .name),
   ("non_media_channel", (d.nonMedia.getD []).map .name),
   ("media_channel", ((names d.media).getD []).map .name),
   ("rf_channel", ((names d.rf).getD []).map .name),
   ("organic_media_channel", ((names d.organicMedia).getD []).map .name),
   ("organic_rf_channel", ((names d.organicRf).getD []).map .name)]

/-- `constants.INFERENCE_DIMS`, `meridian/constants.py:539-557`, with the groups of parameters of
lines 400-443. -/
def inferenceDims : List (String × List String) :=
  [("mu_t", ["time"]), ("knot_values", ["knots"]), ("tau_g", ["geo"]),
   ("beta_gm", ["geo", "media_channel"]), ("beta_grf", ["geo", "rf_channel"]),
   ("beta_gom", ["geo", "organic_media_channel"]), ("beta_gorf", ["geo", "organic_rf_channel"]),
   ("gamma_gc", ["geo", "control_variable"]), ("gamma_gn", ["geo", "non_media_channel"])] ++
  ["gamma_c", "xi_c"].map (fun p => (p, ["control_variable"])) ++
  ["contribution_n", "gamma_n", "xi_n"].map (fun p => (p, ["non_media_channel"])) ++
  ["roi_m", "mroi_m", "contribution_m", "beta_m", "eta_m", "alpha_m", "ec_m", "slope_m"].map
    (fun p => (p, ["media_channel"])) ++
  ["roi_rf", "mroi_rf", "contribution_rf", "beta_rf", "eta_rf", "alpha_rf", "ec_rf",
    "slope_rf"].map (fun p => (p, ["rf_channel"])) ++
  ["contribution_om", "beta_om", "eta_om", "alpha_om", "ec_om", "slope_om"].map
    (fun p => (p, ["organic_media_channel"])) ++
  ["contribution_orf", "beta_orf", "eta_orf", "alpha_orf", "ec_orf", "slope_orf"].map
    (fun p => (p, ["organic_rf_channel"]))

/-- `ModelContext.create_inference_data_dims`, `meridian/model/context.py:1131-1142`; `sigma` is not
a key of the constant, so setting it adds it. -/
def dims (uniqueSigma : Bool) : List (String × List String) :=
  (inferenceDims ++ [("sigma", if uniqueSigma then ["geo"] else [])]).map
    fun (p, ds) => (p, ["chain", "draw"] ++ ds)

/-! ### Largest geos -/

/-- Insertion into a list sorted by falling population. -/
def insertByPop (x : String × ℚ) : List (String × ℚ) → List (String × ℚ)
  | [] => [x]
  | y :: l => if y.2 < x.2 then x :: y :: l else y :: insertByPop x l

/-- `sort_values(by=population, ascending=False)`, `meridian/data/input_data.py:954-958`; equal
populations are taken in the order of the data (pandas does not promise an order). -/
def sortByPop (l : List (String × ℚ)) : List (String × ℚ) :=
  l.foldl (fun acc x => insertByPop x acc) []

/-- `InputData.get_n_top_largest_geos`, `meridian/data/input_data.py:945-959`: the slice `[:n]`,
which for a negative `n` leaves out the last `-n`. -/
def topGeos (geos : List (String × ℚ)) (n : ℤ) : List String :=
  let s := (sortByPop geos).map Prod.fst
  if 0 ≤ n then s.take n.toNat else s.take (s.length - n.natAbs)

end Verif.Lookup

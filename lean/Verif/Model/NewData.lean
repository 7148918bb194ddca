import Verif.Model.Selection
import Mathlib.Data.List.Basic

/-!
# New data for the analysis

`DataTensors` and the validation of `DataTensorsBuilder`, `meridian/analysis/tensors.py`.  A tensor is its
shape and its content, of a type that plays no role; `Ctx.names` reads the content of a tensor of time
coordinates.  Warnings and texts are left out, and so are numerical types.
-/

namespace Verif.NewData

open Verif.Selection (Item isBoolList isStrList isNormalizedSubset strs validateTimes resolveTimes resolveGeos)

/-- The variables of `DataTensors`. -/
inductive Field where
  | media
  | mediaSpend
  | reach
  | frequency
  | rfImpressions
  | rfSpend
  | organicMedia
  | organicReach
  | organicFrequency
  | nonMedia
  | controls
  | revenuePerKpi
  | time
deriving DecidableEq

/-- `dataclasses.fields(DataTensors)`, `meridian/analysis/tensors.py:280-292`. -/
def fields : List Field :=
  [.media, .mediaSpend, .reach, .frequency, .rfImpressions, .rfSpend, .organicMedia, .organicReach,
    .organicFrequency, .nonMedia, .controls, .revenuePerKpi, .time]

/-- Errors.  `index` is an `IndexError`; `assertion` an `AssertionError`; the others are `ValueError`s. -/
inductive Err where
  | dims (f : Field)
  | notInModel (f : Field)
  | geos (f : Field)
  | channels (f : Field)
  | times (f : Field)
  | spendDims (f : Field)
  | missing
  | index
  | assertion
  | baseline
  | flexible
  | selection (e : Selection.Err)
deriving DecidableEq

/-- A tensor. -/
structure Tensor (α : Type) where
  shape : List ℕ
  val : α

/-- Number of dimensions. -/
def Tensor.ndim {α : Type} (t : Tensor α) : ℕ := t.shape.length

/-- Length of a dimension. -/
def Tensor.dim {α : Type} (t : Tensor α) (k : ℕ) : ℕ := t.shape.getD k 0

/-- `shape[-1]`. -/
def Tensor.last {α : Type} (t : Tensor α) : ℕ := t.shape.getLastD 0

/-- A `DataTensors` object. -/
abbrev Data (α : Type) := Field → Option (Tensor α)

/-- What the builder reads from the model.  `hist` are the variables of the input data and `rf_impressions` of
the model's tensors; as numbers and as tensors they have the same shape and are not distinguished. -/
structure Ctx (α : Type) where
  nGeos : ℕ
  nTimes : ℕ
  nMediaTimes : ℕ
  nRf : ℕ
  hist : Field → Option (Tensor α)
  names : α → List String
  geos : List String
  times : List String
  mediaTimes : List String
  norm : String → Option String

/-- The numbers of dimensions of a variable, `meridian/analysis/tensors.py:504-521`. -/
def dims : Field → List ℕ
  | .revenuePerKpi => [2]
  | .mediaSpend => [1, 3]
  | .rfSpend => [1, 3]
  | .time => [1]
  | _ => [3]

/-- The first error. -/
def checkAll {β : Type} (f : β → Except Err Unit) : List β → Except Err Unit
  | [] => .ok ()
  | a :: l => match f a with
    | .error e => .error e
    | .ok () => checkAll f l

/-- One variable of `_validate_n_dims`. -/
def checkDims {α : Type} (d : Data α) (f : Field) : Except Err Unit :=
  match d f with
  | none => .ok ()
  | some t => if t.ndim ∈ dims f then .ok () else .error (.dims f)

/-- `DataTensors(...)` with `_validate_n_dims`, `meridian/analysis/tensors.py:294-372, 504-521`. -/
def construct {α : Type} (d : Data α) : Except Err (Data α) :=
  match checkAll (checkDims d) fields with
  | .error e => .error e
  | .ok () => .ok d

/-- Whether a variable has another number of periods than in the model,
`meridian/analysis/tensors.py:650-662`. -/
def changed {α : Type} (C : Ctx α) (d : Data α) (f : Field) : Option ℕ :=
  match d f, C.hist f with
  | some n, some o => if 1 < n.ndim ∧ 1 < o.ndim ∧ n.dim 1 ≠ o.dim 1 then some (n.dim 1) else none
  | _, _ => none

/-- `get_modified_times`, `meridian/analysis/tensors.py:632-665`. -/
def modifiedTimes {α : Type} (C : Ctx α) (d : Data α) : Option ℕ := fields.findSome? (changed C d)

/-- One variable of `_validate_correct_variables_filled`. -/
def checkFilled {α : Type} (C : Ctx α) (req : List Field) (d : Data α) (f : Field) : Except Err Unit :=
  if (d f).isSome ∧ f ≠ .time ∧ f ∈ req then
    if f = .rfImpressions then if C.nRf = 0 then .error (.notInModel f) else .ok ()
    else if (C.hist f).isNone then .error (.notInModel f)
    else .ok ()
  else .ok ()

/-- `_validate_correct_variables_filled`, `meridian/analysis/tensors.py:702-730`. -/
def validateFilled {α : Type} (C : Ctx α) (req : List Field) (d : Data α) : Except Err Unit :=
  checkAll (checkFilled C req d) fields

/-- One variable of `_validate_geo_dims`. -/
def checkGeo {α : Type} (C : Ctx α) (d : Data α) (f : Field) : Except Err Unit :=
  match d f with
  | none => .ok ()
  | some t => if t.dim 0 ≠ C.nGeos ∧ t.ndim ≠ 1 then .error (.geos f) else .ok ()

/-- `_validate_geo_dims`, `meridian/analysis/tensors.py:732-750`. -/
def validateGeos {α : Type} (C : Ctx α) (req : List Field) (d : Data α) : Except Err Unit :=
  checkAll (checkGeo C d) req

/-- One variable of `_validate_channel_dims`. -/
def checkChannels {α : Type} (C : Ctx α) (d : Data α) (f : Field) : Except Err Unit :=
  if f = .revenuePerKpi ∨ f = .time then .ok ()
  else match d f with
    | none => .ok ()
    | some t => match C.hist f with
      | none => .error .assertion
      | some o => if t.last ≠ o.last then .error (.channels f) else .ok ()

/-- `_validate_channel_dims`, `meridian/analysis/tensors.py:752-772`. -/
def validateChannels {α : Type} (C : Ctx α) (req : List Field) (d : Data α) : Except Err Unit :=
  checkAll (checkChannels C d) req

/-- A spend variable. -/
def isSpend (f : Field) : Prop := f = .mediaSpend ∨ f = .rfSpend

instance (f : Field) : Decidable (isSpend f) := by unfold isSpend; infer_instance

/-- One variable of `_validate_time_dims`.  Reading the second dimension of a spend of the model which has one
dimension raises. -/
def checkTime {α : Type} (C : Ctx α) (d : Data α) (f : Field) : Except Err Unit :=
  match d f with
  | none => .ok ()
  | some t =>
    if isSpend f ∧ t.ndim = 1 then .ok ()
    else match C.hist f with
      | none => .error .assertion
      | some o =>
        if f = .time ∧ t.dim 0 ≠ o.dim 0 then .error (.times f)
        else if 1 < t.ndim ∧ o.ndim < 2 then .error .index
        else if 1 < t.ndim ∧ t.dim 1 ≠ o.dim 1 then .error (.times f)
        else .ok ()

/-- `_validate_time_dims`, `meridian/analysis/tensors.py:774-809`. -/
def validateTimesFixed {α : Type} (C : Ctx α) (req : List Field) (d : Data α) : Except Err Unit :=
  checkAll (checkTime C d) req

/-- One variable of `_validate_time_dims_flexible_times`; a missing one is reported at the end.  The message
for time coordinates of a wrong length reads a second dimension which they do not have. -/
def checkFlexible {α : Type} (C : Ctx α) (d : Data α) (T : ℕ) (f : Field) : Except Err Unit :=
  match C.hist f with
  | none => .ok ()
  | some _ => match d f with
    | none => .ok ()
    | some t =>
      if f = .time ∧ t.dim 0 ≠ T then (if t.ndim < 2 then .error .index else .error (.times f))
      else if isSpend f ∧ t.ndim = 1 then .error (.spendDims f)
      else if 1 < t.ndim ∧ t.dim 1 ≠ T then .error (.times f)
      else .ok ()

/-- A variable of the model which is not given. -/
def isMissing {α : Type} (C : Ctx α) (d : Data α) (f : Field) : Bool := (C.hist f).isSome && (d f).isNone

/-- `_validate_time_dims_flexible_times`, `meridian/analysis/tensors.py:811-867`. -/
def validateTimesFlexible {α : Type} (C : Ctx α) (req : List Field) (d : Data α) : Except Err Unit :=
  match modifiedTimes C d with
  | none => .ok ()
  | some T => match checkAll (checkFlexible C d T) req with
    | .error e => .error e
    | .ok () => if req.any (isMissing C d) then .error .missing else .ok ()

/-- `_fill_default_values`, `meridian/analysis/tensors.py:869-909`. -/
def fill {α : Type} (C : Ctx α) (req : List Field) (d : Data α) : Data α := fun f =>
  if f = .time ∧ (d .time).isSome then d .time
  else if f ∉ req then none
  else match d f with
    | some t => some t
    | none => C.hist f

/-- `_validate_and_fill_missing_data`, `meridian/analysis/tensors.py:667-700`. -/
def validateAndFill {α : Type} (C : Ctx α) (req : List Field) (flexible : Bool) (d : Data α) :
    Except Err (Data α) :=
  match validateFilled C req d with
  | .error e => .error e
  | .ok () => match validateGeos C req d with
    | .error e => .error e
    | .ok () => match validateChannels C req d with
      | .error e => .error e
      | .ok () => match if flexible then validateTimesFlexible C req d else validateTimesFixed C req d with
        | .error e => .error e
        | .ok () => construct (fill C req d)

/-! ### Selections -/

/-- `n or default`, where zero counts as nothing. -/
def orDefault (n : Option ℕ) (dflt : ℕ) : ℕ :=
  match n with
  | none => dflt
  | some 0 => dflt
  | some (k + 1) => k + 1

/-- The time coordinates that selections refer to, `meridian/analysis/tensors.py:988-994`. -/
def inputTimes {α : Type} (C : Ctx α) (d : Data α) : List String :=
  match d .time with
  | some t => C.names t.val
  | none => C.times

/-- `_package_inputs`, `meridian/analysis/tensors.py:976-1007`: the indices of geos and times. -/
def package {α : Type} (C : Ctx α) (d : Data α) (selGeos : Option (List String))
    (selTimes : Option (List Item)) : Except Err (Option (List ℕ) × Option (List ℕ)) :=
  match resolveGeos C.geos selGeos with
  | .error e => .error (.selection e)
  | .ok gi => match resolveTimes C.norm (inputTimes C d) (orDefault (modifiedTimes C d) C.nTimes) selTimes with
    | .error e => .error (.selection e)
    | .ok ti => .ok (gi, ti)

/-- One selection of `_validate_flexible_selected_times`. -/
def flexibleSelection (norm : String → Option String) (T : ℕ) (newTime : Option (List String))
    (sel : Option (List Item)) : Except Err Unit :=
  match sel with
  | none => .ok ()
  | some l =>
    if l.isEmpty then .ok ()
    else if isBoolList l ∧ l.length = T then .ok ()
    else if isStrList l then
      match newTime with
      | none => .error .flexible
      | some times => if isNormalizedSubset norm (strs l) times then .ok () else .error .flexible
    else .error .flexible

/-- `_validate_flexible_selected_times`, `meridian/analysis/tensors.py:176-241`. -/
def validateFlexibleSelections (norm : String → Option String) (T : ℕ) (newTime : Option (List String))
    (sel mediaSel : Option (List Item)) : Except Err Unit :=
  match flexibleSelection norm T newTime sel with
  | .error e => .error e
  | .ok () => flexibleSelection norm T newTime mediaSel

/-- `_validate_selected_times`; `None` is accepted. -/
def plainSelection (norm : String → Option String) (times : List String) (n : ℕ) :
    Option (List Item) → Except Err Unit
  | none => .ok ()
  | some l => match validateTimes norm times n l with
    | .error e => .error (.selection e)
    | .ok () => .ok ()

/-- `PAID_DATA`, `meridian/constants.py:100-108`. -/
def paidData : List Field := [.media, .reach, .frequency, .revenuePerKpi]

/-- `NON_PAID_DATA`, `meridian/constants.py:109-114`. -/
def nonPaidData : List Field := [.organicMedia, .organicReach, .organicFrequency, .nonMedia]

/-- The variables a counterfactual uses, `meridian/analysis/tensors.py:1197-1202`. -/
def counterfactualFields (nonPaid modified : Bool) : List Field :=
  paidData ++ (if nonPaid then nonPaidData else []) ++ (if modified then [] else [.controls])

/-- `_resolve_and_validate_counterfactual_inputs`, `meridian/analysis/tensors.py:1182-1236`.  `baselineOk` is
the check of the types of `non_media_baseline_values`.  New data which is not given is empty. -/
def resolveCounterfactual {α : Type} (C : Ctx α) (baselineOk : Bool) (d : Data α)
    (sel mediaSel : Option (List Item)) (nonPaid : Bool) : Except Err (Data α × Option ℕ) :=
  if !baselineOk then .error .baseline
  else match validateAndFill C (counterfactualFields nonPaid (modifiedTimes C d).isSome) true d with
    | .error e => .error e
    | .ok base => match modifiedTimes C base with
      | none => match plainSelection C.norm C.times C.nTimes sel with
        | .error e => .error e
        | .ok () => match plainSelection C.norm C.mediaTimes C.nMediaTimes mediaSel with
          | .error e => .error e
          | .ok () => .ok (base, none)
      | some T => match validateFlexibleSelections C.norm T ((base .time).map fun t => C.names t.val) sel
            mediaSel with
        | .error e => .error e
        | .ok () => .ok (base, some T)

/-- `new_time[-n:]`: all of it for zero. -/
def lastN (n : ℕ) (l : List String) : List String := if n = 0 then l else l.drop (l.length - n)

/-- The media times, `meridian/analysis/tensors.py:1283-1294`. -/
def cfMediaTimes {α : Type} (C : Ctx α) (base : Data α) : Option ℕ → List String
  | none => C.mediaTimes
  | some T => match base .time with
    | none => []
    | some t => lastN T (C.names t.val)

/-- `media_selected_times_mask`, `meridian/analysis/tensors.py:1296-1308`. -/
def mediaMask {α : Type} (C : Ctx α) (base : Data α) (T : Option ℕ) (mediaSel : Option (List Item)) : List Bool :=
  match mediaSel with
  | none => List.replicate (T.getD C.nMediaTimes) true
  | some l =>
    if isStrList l then (cfMediaTimes C base T).map fun x => (strs l).any fun s => C.norm s == C.norm x
    else l.map fun
      | .flag b => b
      | _ => true

/-- The factor that multiplies the media of a period, `meridian/analysis/tensors.py:1310-1312`: the mask is
broadcast along the periods, a mask of one entry to all of them.  Other lengths do not fit. -/
def maskAt (mask : List Bool) (n t : ℕ) : Option Bool :=
  if mask.length = n then mask[t]?
  else if mask.length = 1 then mask[0]?
  else none

end Verif.NewData

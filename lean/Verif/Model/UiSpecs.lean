import Verif.Model.BudgetProto
import Verif.Model.ReachProto
import Verif.Model.DateBuckets

/-!
# The specs behind the dashboard

`MmmUiProtoGenerator`, `scenarioplanner/mmm_ui_proto_generator.py`: from the specs of the user to the
specs that are handed to `create_mmm_proto`.  Warnings are left out, and so are generators of periods
other than the three of `date_range_bucketing`.
-/

namespace Verif.UiSpecs

open Verif.Calendar (CDate)
open Verif.BudgetProto (BSpec Scenario)
open Verif.ReachProto (RSpec)
open Verif.MarketingProto (MSpec)
open Verif.FitProto (FitSpec)
open Verif.DateBuckets (Cadence)

/-- Errors. -/
inductive Err where
  | unsupported
  | outOfSample
  | duplicateGroup
  | dated (e : DatedSpec.Err)
  | buckets (e : DateBuckets.Err)
  | marketing (e : MarketingProto.Err)
  | budget (e : BudgetProto.Err)
  | reach (e : ReachProto.Err)

/-- The specs; `other` is any other subclass of `Spec`. -/
inductive UiSpec (δ γ : Type) where
  | fit (s : FitSpec)
  | marketing (s : MSpec δ)
  | budget (s : BSpec δ γ)
  | reach (s : RSpec)
  | other

/-- `isinstance(spec, tuple(_ALLOWED_SPEC_TYPES_FOR_UI))`,
`scenarioplanner/mmm_ui_proto_generator.py:50-54, 128-129`. -/
def UiSpec.allowed {δ γ : Type} : UiSpec δ γ → Bool
  | .fit _ => true
  | .marketing _ => true
  | .budget _ => true
  | .reach _ => false
  | .other => false

/-- The dates of a `DatedSpec`. -/
def UiSpec.dated? {δ γ : Type} : UiSpec δ γ → Option DatedSpec.Spec
  | .fit _ => none
  | .marketing s => some s.dated
  | .budget s => some s.dated
  | .reach s => some s.dated
  | .other => none

/-- The check of the dates, `scenarioplanner/mmm_ui_proto_generator.py:131-158`. -/
def checkDates (dates : List CDate) (d : DatedSpec.Spec) : Except Err Unit :=
  let lo := (TimeCoordinates.minDate dates).getD ⟨1, 1, 1⟩
  let hi := (TimeCoordinates.maxDate dates).getD ⟨1, 1, 1⟩
  match DatedSpec.interval dates with
  | .error e => .error (.dated e)
  | .ok k =>
    let past := DatedSpec.plusDays hi k
    if d.start.any fun a => a.lt lo || hi.lt a then .error .outOfSample
    else if d.stop.any fun b => b.le lo || past.lt b then .error .outOfSample
    else .ok ()

/-- The checks of one spec, `scenarioplanner/mmm_ui_proto_generator.py:128-158`. -/
def admit {δ γ : Type} (dates : List CDate) (s : UiSpec δ γ) : Except Err Unit :=
  if ¬ s.allowed then .error .unsupported
  else match s.dated? with
    | none => .ok ()
    | some d => checkDates dates d

/-- `dataclasses.replace` runs the validation of the new spec. -/
def replaceM {δ : Type} (s : MSpec δ) : Except Err (MSpec δ) :=
  match s.validate with
  | .error e => .error (.marketing e)
  | .ok () => .ok s

@[inherit_doc replaceM]
def replaceB {δ γ : Type} (s : BSpec δ γ) : Except Err (BSpec δ γ) :=
  match s.validate with
  | .error e => .error (.budget e)
  | .ok () => .ok s

@[inherit_doc replaceM]
def replaceR (s : RSpec) : Except Err RSpec :=
  match s.validate with
  | .error e => .error (.reach e)
  | .ok () => .ok s

/-- The group of a budget spec, `scenarioplanner/mmm_ui_proto_generator.py:160-172`, with the groups seen
so far.  `fresh` is `str(uuid.uuid4())`. -/
def identify {δ γ : Type} (fresh : String) (seen : List String) (b : BSpec δ γ) :
    Except Err (BSpec δ γ × List String) :=
  match b.group with
  | none => match replaceB { b with group := some fresh } with
    | .error e => .error e
    | .ok b' => .ok (b', seen)
  | some g =>
    if g = "" then match replaceB { b with group := some fresh } with
      | .error e => .error e
      | .ok b' => .ok (b', seen)
    else if g ∈ seen then .error .duplicateGroup
    else .ok (b, g :: seen)

/-- `_derive_rf_opt_spec_from_budget_opt_spec`, `scenarioplanner/mmm_ui_proto_generator.py:199-220`. -/
def derive {δ γ : Type} (b : BSpec δ γ) : Except Err RSpec :=
  replaceR {
    dated := b.dated
    name := "derived RF optimization from ".toList ++ b.name
    gridName := "derived_from_".toList ++ b.name
    group := b.group
    level := b.level
    max := b.maxFrequency }

/-- The budget spec and, if the model has reach and frequency channels, the spec derived from it,
`scenarioplanner/mmm_ui_proto_generator.py:160-179`. -/
def pair {δ γ : Type} (rf : Bool) (b : BSpec δ γ) : Except Err (List (UiSpec δ γ)) :=
  if rf then match derive b with
    | .error e => .error e
    | .ok x => .ok [.budget b, .reach x]
  else .ok [.budget b]

/-- The first loop of `__call__`, `scenarioplanner/mmm_ui_proto_generator.py:124-181`, from the `i`-th spec
on. -/
def gather {δ γ : Type} (dates : List CDate) (rf : Bool) (fresh : ℕ → String) :
    ℕ → List String → List (UiSpec δ γ) → Except Err (List (UiSpec δ γ))
  | _, _, [] => .ok []
  | i, seen, s :: rest => match admit dates s with
    | .error e => .error e
    | .ok () => match s with
      | .budget b => match identify (fresh i) seen b with
        | .error e => .error e
        | .ok x => match pair rf x.1 with
          | .error e => .error e
          | .ok l => match gather dates rf fresh (i + 1) x.2 rest with
            | .error e => .error e
            | .ok r => .ok (l ++ r)
      | s => match gather dates rf fresh (i + 1) seen rest with
        | .error e => .error e
        | .ok r => .ok (s :: r)

/-- `_enumerate_dates_open_end`, `scenarioplanner/mmm_ui_proto_generator.py:222-254`. -/
def enumerateDates (dates : List CDate) (d : DatedSpec.Spec) : Except Err (List CDate) :=
  match DatedSpec.selectedTimes dates d with
  | .error e => .error (.dated e)
  | .ok r =>
    let l := r.getD dates
    match d.stop with
    | some b => .ok (l ++ [b])
    | none => match DatedSpec.interval dates with
      | .error e => .error (.dated e)
      | .ok k => .ok (l ++ [DatedSpec.plusDays (l.getLastD ⟨1, 1, 1⟩) k])

/-- `strftime('%b')` in the C locale. -/
def abbreviation (m : ℕ) : String :=
  ["Jan", "Feb", "Mar", "Apr", "May", "Jun", "Jul", "Aug", "Sep", "Oct", "Nov", "Dec"].getD (m - 1) ""

/-- `create_tag`, `scenarioplanner/mmm_ui_proto_generator.py:296-307`. -/
def createTag (c : Cadence) (a : CDate) : String :=
  match c with
  | .year => "Y" ++ toString a.y
  | .quarter => "Y" ++ toString a.y ++ " Q" ++ toString ((a.m - 1) / 3 + 1)
  | .month => "Y" ++ toString a.y ++ " " ++ abbreviation a.m

/-- `date_interval_tag.replace(" ", "_")`. -/
def underscored (tag : String) : List Char := tag.toList.map fun c => if c = ' ' then '_' else c

/-- `_normalize_optimization_spec_time_info`, `scenarioplanner/mmm_ui_proto_generator.py:310-321`: group,
name and grid name.  The format of a missing group is `None`. -/
def tagGroup (g : Option String) (tag : String) : Option String := some (g.getD "None" ++ ":" ++ tag)
@[inherit_doc tagGroup]
def tagName (n : List Char) (tag : String) : List Char := n ++ " for ".toList ++ tag.toList
@[inherit_doc tagGroup]
def tagGrid (n : List Char) (tag : String) : List Char := n ++ '_' :: underscored tag

/-- The scenario of a part of the period, `scenarioplanner/mmm_ui_proto_generator.py:361-376`. -/
def historical : Scenario → Scenario
  | .fixed (some _) => .fixed none
  | s => s

/-- The spec for a period, `scenarioplanner/mmm_ui_proto_generator.py:334-342, 349-378`; `part` is false
for the whole period.  Only the last of the replacements is validated: the others change a part of what it
changes. -/
def forPeriod {δ γ : Type} (part : Bool) (s : UiSpec δ γ) (d : DatedSpec.Spec) : Except Err (UiSpec δ γ) :=
  match s with
  | .marketing m => match replaceM { m with dated := d } with
    | .error e => .error e
    | .ok m' => .ok (.marketing m')
  | .budget b =>
    match replaceB { b with
        dated := d
        group := tagGroup b.group d.tag
        name := tagName b.name d.tag
        gridName := tagGrid b.gridName d.tag
        scenario := if part then historical b.scenario else b.scenario } with
    | .error e => .error e
    | .ok b' => .ok (.budget b')
  | .reach r =>
    match replaceR { r with
        dated := d
        group := tagGroup r.group d.tag
        name := tagName r.name d.tag
        gridName := tagGrid r.gridName d.tag } with
    | .error e => .error e
    | .ok r' => .ok (.reach r')
  | s => .ok s

/-- A loop that stops at the first error. -/
def mapE {α β : Type} (f : α → Except Err β) : List α → Except Err (List β)
  | [] => .ok []
  | a :: l => match f a with
    | .error e => .error e
    | .ok b => match mapE f l with
      | .error e => .error e
      | .ok r => .ok (b :: r)

/-- The periods of one generator with their tags, `scenarioplanner/mmm_ui_proto_generator.py:344-348`. -/
def periods (range : List CDate) (c : Cadence) : Except Err (List DatedSpec.Spec) :=
  match DateBuckets.generate c range with
  | .error e => .error (.buckets e)
  | .ok l => .ok (l.map fun p => ⟨some p.1, some p.2, createTag c p.1⟩)

/-- `_create_subspecs`, `scenarioplanner/mmm_ui_proto_generator.py:324-380`, for a spec with dates `d`. -/
def createSubspecs {δ γ : Type} (gens : List Cadence) (range : List CDate) (d : DatedSpec.Spec)
    (s : UiSpec δ γ) : Except Err (List (UiSpec δ γ)) :=
  match forPeriod false s { d with tag := "ALL" } with
  | .error e => .error e
  | .ok whole => match mapE (periods range) gens with
    | .error e => .error e
    | .ok ps => match mapE (forPeriod true s) ps.flatten with
      | .error e => .error e
      | .ok parts => .ok (whole :: parts)

/-- One round of the second loop of `__call__`, `scenarioplanner/mmm_ui_proto_generator.py:183-191`. -/
def expand {δ γ : Type} (dates : List CDate) (gens : List Cadence) (s : UiSpec δ γ) :
    Except Err (List (UiSpec δ γ)) :=
  match s.dated? with
  | none => .ok [s]
  | some d => match enumerateDates dates d with
    | .error e => .error e
    | .ok range => createSubspecs gens range d s

/-- `MmmUiProtoGenerator.__call__`, `scenarioplanner/mmm_ui_proto_generator.py:117-197`: the specs passed to
`create_mmm_proto`.  `dates` are the dates of the input data, `rf` tells whether it has reach and frequency
channels. -/
def generate {δ γ : Type} (dates : List CDate) (rf : Bool) (fresh : ℕ → String) (gens : List Cadence)
    (specs : List (UiSpec δ γ)) : Except Err (List (UiSpec δ γ)) :=
  match gather dates rf fresh 0 [] specs with
  | .error e => .error e
  | .ok l => match mapE (expand dates gens) l with
    | .error e => .error e
    | .ok r => .ok r.flatten

end Verif.UiSpecs

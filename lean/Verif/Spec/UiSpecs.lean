import Verif.Model.UiSpecs
import Verif.Spec.DatedSpec
import Verif.Spec.DateBuckets

/-!
# What the dashboard is asked to show
-/

namespace Verif.UiSpecs.Wanted

open Verif.Calendar (CDate)
open Verif.DateBuckets (Cadence)
open Verif.BudgetProto (BSpec Scenario)
open Verif.ReachProto (RSpec)
open Verif.MarketingProto (MSpec)

/-- A spec that could be constructed: its own validation passed. -/
def Constructed {δ γ : Type} : UiSpec δ γ → Prop
  | .fit s => s.validate = .ok ()
  | .marketing s => s.validate = .ok ()
  | .budget s => s.validate = .ok ()
  | .reach s => s.validate = .ok ()
  | .other => True

/-- The dates of a spec are dates of the calendar. -/
def RealDates {δ γ : Type} (s : UiSpec δ γ) : Prop :=
  ∀ d ∈ s.dated?, (∀ a ∈ d.start, a.Valid) ∧ ∀ b ∈ d.stop, b.Valid

/-- The given dates do not leave the history from `lo` to `hi`, whose periods have `k` days. -/
def InSample (dates : List CDate) (k : ℕ) (d : DatedSpec.Spec) : Prop :=
  (∀ a ∈ d.start, (∃ x ∈ dates, x.ordinal ≤ a.ordinal) ∧ ∃ x ∈ dates, a.ordinal ≤ x.ordinal) ∧
  ∀ b ∈ d.stop, (∃ x ∈ dates, x.ordinal < b.ordinal) ∧ ∃ x ∈ dates, b.ordinal ≤ x.ordinal + k

/-- The start is a date of the data, the end is `k` days after one, and there is a period between them. -/
def Resolves (dates : List CDate) (k : ℕ) (d : DatedSpec.Spec) : Prop :=
  (∀ a ∈ d.start, a ∈ dates) ∧ (∀ b ∈ d.stop, ∃ x ∈ dates, x.ordinal + k = b.ordinal) ∧
    ∀ a ∈ d.start, ∀ b ∈ d.stop, a.ordinal + k ≤ b.ordinal

/-- The dates of the data whose periods of `k` days lie between the start and the end. -/
def selected (dates : List CDate) (k : ℕ) (d : DatedSpec.Spec) : List CDate :=
  dates.filter fun x => decide ((∀ a ∈ d.start, a.ordinal ≤ x.ordinal) ∧ ∀ b ∈ d.stop, x.ordinal + k ≤ b.ordinal)

/-- The selected dates followed by the (exclusive) end: the given one, or `k` days after the last of them. -/
def IsRange (dates : List CDate) (k : ℕ) (d : DatedSpec.Spec) (l : List CDate) : Prop :=
  ∃ e : CDate, e.Valid ∧ l = selected dates k d ++ [e] ∧ (∀ b ∈ d.stop, e = b) ∧
    ∀ x ∈ (selected dates k d).getLast?, e.ordinal = x.ordinal + k

/-- The number of the month, of the quarter, the year. -/
def number : Cadence → CDate → ℕ
  | .month, a => a.m
  | .quarter, a => (a.m + 2) / 3
  | .year, a => a.y

/-- A period of the range: it begins in the first seven days of a month (quarter, year) and ends where the
dates leave that month (quarter, year). -/
def Period (c : Cadence) (range : List CDate) (a b : CDate) : Prop :=
  DateBuckets.Spec.Run (number c) range a b ∧ a.d ≤ 7 ∧
    (c = .quarter → a.m = 1 ∨ a.m = 4 ∨ a.m = 7 ∨ a.m = 10) ∧ (c = .year → a.m = 1)

/-- The name of a month. -/
def monthName : ℕ → String
  | 1 => "Jan" | 2 => "Feb" | 3 => "Mar" | 4 => "Apr" | 5 => "May" | 6 => "Jun"
  | 7 => "Jul" | 8 => "Aug" | 9 => "Sep" | 10 => "Oct" | 11 => "Nov" | 12 => "Dec"
  | _ => ""

/-- The name of a period, such as `Y2024`, `Y2024 Q3` or `Y2024 Jul`. -/
def label : Cadence → CDate → String
  | .year, a => s!"Y{a.y}"
  | .quarter, a => s!"Y{a.y} Q{number .quarter a}"
  | .month, a => s!"Y{a.y} {monthName a.m}"

/-- `l` lists the periods of the range, in order and named. -/
def IsBreakdown (c : Cadence) (range : List CDate) (l : List DatedSpec.Spec) : Prop :=
  ∃ ps : List (CDate × CDate), l = ps.map (fun p => ⟨some p.1, some p.2, label c p.1⟩) ∧
    (∀ a b, (a, b) ∈ ps ↔ Period c range a b) ∧
    (∀ p ∈ ps, p.1.ordinal < p.2.ordinal) ∧ ps.Pairwise fun p q => p.2.ordinal ≤ q.1.ordinal

/-- The parts of the dates of a spec: for each generator the periods it finds. -/
def IsParts (dates : List CDate) (k : ℕ) (gens : List Cadence) (d : DatedSpec.Spec)
    (parts : List DatedSpec.Spec) : Prop :=
  ∃ range lists, IsRange dates k d range ∧ List.Forall₂ (fun c l => IsBreakdown c range l) gens lists ∧
    parts = lists.flatten

/-- The whole period of a spec. -/
def whole (d : DatedSpec.Spec) : DatedSpec.Spec := ⟨d.start, d.stop, "ALL"⟩

/-- Blanks become underscores. -/
def joined (tag : String) : List Char := tag.toList.map fun c => if c = ' ' then '_' else c

/-- The budget spec `b` of the group `g` for a period, with a scenario. -/
def budgetFor {δ γ : Type} (b : BSpec δ γ) (g : String) (sc : Scenario) (p : DatedSpec.Spec) : BSpec δ γ :=
  { b with
    dated := p
    group := some s!"{g}:{p.tag}"
    name := b.name ++ " for ".toList ++ p.tag.toList
    gridName := b.gridName ++ "_".toList ++ joined p.tag
    scenario := sc }

/-- The reach and frequency spec that goes with it. -/
def reachFor {δ γ : Type} (b : BSpec δ γ) (g : String) (p : DatedSpec.Spec) : RSpec :=
  { dated := p
    group := some s!"{g}:{p.tag}"
    name := "derived RF optimization from ".toList ++ b.name ++ " for ".toList ++ p.tag.toList
    gridName := "derived_from_".toList ++ b.name ++ "_".toList ++ joined p.tag
    level := b.level
    min := 1
    max := b.maxFrequency
    revenue := true }

/-- The scenario for a part of the period: an amount is replaced by what was spent. -/
def PartScenario (s t : Scenario) : Prop :=
  (∀ x, s = .fixed (some x) → t = .fixed none) ∧ ((∀ x, s ≠ .fixed (some x)) → t = s)

/-- The specs that stand for the spec `s` of the user, whose group is `g` if it is a budget spec. -/
def IsBlock {δ γ : Type} (dates : List CDate) (k : ℕ) (gens : List Cadence) (rf : Bool) (g : String)
    (s : UiSpec δ γ) (out : List (UiSpec δ γ)) : Prop :=
  match s with
  | .fit f => out = [.fit f]
  | .marketing m => ∃ parts, IsParts dates k gens m.dated parts ∧
      out = (whole m.dated :: parts).map fun p => .marketing { m with dated := p }
  | .budget b => ∃ parts sc, IsParts dates k gens b.dated parts ∧ PartScenario b.scenario sc ∧
      out = (.budget (budgetFor b g b.scenario (whole b.dated)) :: parts.map fun p => .budget (budgetFor b g sc p))
        ++ if rf then (whole b.dated :: parts).map fun p => .reach (reachFor b g p) else []
  | _ => False

/-- The groups the user has given. -/
def givenGroups {δ γ : Type} (specs : List (UiSpec δ γ)) : List String :=
  specs.filterMap fun s => match s with
    | .budget b => if b.group = some "" then none else b.group
    | _ => none

/-- The group of the `i`-th spec: the given one, or else a new one. -/
def groupOf {δ γ : Type} (fresh : ℕ → String) (i : ℕ) : UiSpec δ γ → String
  | .budget b => if b.group = none ∨ b.group = some "" then fresh i else b.group.getD ""
  | _ => ""

/-- What is accepted. -/
def Accepted {δ γ : Type} (dates : List CDate) (k : ℕ) (rf : Bool) (specs : List (UiSpec δ γ)) : Prop :=
  (∀ s ∈ specs, s ≠ .other ∧ ∀ r, s ≠ .reach r) ∧ (∀ s ∈ specs, ∀ d ∈ s.dated?, Resolves dates k d) ∧
    (givenGroups specs).Nodup ∧
    (rf = true → ∀ b, .budget b ∈ specs → ∀ f ∈ b.maxFrequency, 1 ≤ f)

/-- Group and dates of the budget specs, and of the reach and frequency specs. -/
def budgetKeys {δ γ : Type} (r : List (UiSpec δ γ)) : List (Option String × DatedSpec.Spec) :=
  r.filterMap fun s => match s with
    | .budget b => some (b.group, b.dated)
    | _ => none
@[inherit_doc budgetKeys]
def reachKeys {δ γ : Type} (r : List (UiSpec δ γ)) : List (Option String × DatedSpec.Spec) :=
  r.filterMap fun s => match s with
    | .reach b => some (b.group, b.dated)
    | _ => none

end Verif.UiSpecs.Wanted

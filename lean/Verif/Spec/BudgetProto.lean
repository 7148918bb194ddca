import Verif.Model.BudgetProto
import Verif.Lemmas.Optimizer2

/-!
# What a budget optimization message should contain
-/

namespace Verif.BudgetProto.Spec

open Verif (Num)
open Verif.Calendar (CDate)
open Verif.FitProto (Estimate)
open Verif.MarketingProto (Stat Var Outcome Media)
open Verif.Optimizer (OptGrid RegularBoth stepSize chooseRequest validateBudget)

/-- The ratios of a channel: those of the last constraint on it, which is relative; 1 and 2 if there is no
constraint on it. -/
def Ratios (cs : List Constraint) (ch : String) (l u : ℚ) : Prop :=
  ((∀ c ∈ cs, c.name ≠ ch) ∧ l = 1 ∧ u = 2) ∨
    ∃ pre post, cs = pre ++ .rel ch l u :: post ∧ ∀ c ∈ post, c.name ≠ ch

/-- The scenario as arguments of the optimizer. -/
def Wants {δ γ : Type} (sc : Scenario) (a : Args δ γ) : Prop :=
  match sc with
  | .fixed t => a.fixedBudget = true ∧ a.budget = t ∧ a.targetRoi = none ∧ a.targetMroi = none
  | .flexible m v => a.fixedBudget = false ∧ a.budget = none ∧
    ((m = .roi ∧ a.targetRoi = some v ∧ a.targetMroi = none) ∨
      (m = .mroi ∧ a.targetRoi = none ∧ a.targetMroi = some v))

/-- The last period of a range that ends, exclusively, at `stop`: `k` days earlier. -/
def LastPeriod (k : ℕ) (stop last : Option CDate) : Prop :=
  (stop = none ∧ last = none) ∨ ∃ b e, stop = some b ∧ last = some e ∧ e.ordinal + k = b.ordinal

/-- The call of the optimizer a spec asks for.  `k` is the length of a period in days. -/
structure Asks {δ γ : Type} (P : Optim δ γ) (s : BSpec δ γ) (k : ℕ) (a : Args δ γ) : Prop where
  start : a.start = s.dated.start
  stop : LastPeriod k s.dated.stop a.stop
  scenario : Wants s.scenario a
  lower : a.lower.length = P.paid.length
  upper : a.upper.length = P.paid.length
  ratios : ∀ (i : ℕ) ch, P.paid[i]? = some ch →
    ∃ l u, a.lower[i]? = some l ∧ a.upper[i]? = some u ∧ Ratios s.constraints ch l u
  level : a.level = s.level
  kpi : a.useKpi = !s.revenue
  grid : a.grid = s.grid
  data : a.newData = s.newData
  frequency : a.optimalFrequency = s.optimalFrequency
  cap : a.maxFrequency = s.maxFrequency
  batch : a.batch = s.batch

/-- An estimate shows the mean of some values and their interval at a level. -/
def Shows (v : Stat → Num) (level : ℚ) (e : Estimate) : Prop :=
  e.value = v .mean ∧ e.probability = level ∧ e.lower = v .low ∧ e.upper = v .high

/-- An optional estimate which is there. -/
def ShowsSome (v : Stat → Num) (level : ℚ) (e : Option Estimate) : Prop := ∃ x, e = some x ∧ Shows v level x

/-- The points of a response curve: one for each multiplier, by increasing spend. -/
def Curve (r : Curves) (ch : String) (p : List (Num × Num)) : Prop :=
  ∃ ms : List ℚ, ms.Perm r.multipliers ∧ ms.Pairwise (fun a b => r.spend ch a ≤ r.spend ch b) ∧
    p = ms.map fun x => (some (r.spend ch x), r.incremental ch x .mean)

/-- The message of a channel of a dataset. -/
structure Channel (d : BudgetData) (curves : Option Curves) (ch : String) (m : Media) : Prop where
  name : m.name = ch
  spend : m.spend = some (some (d.spend ch), d.share ch)
  outcome : ∃ o, m.outcomes = [o] ∧ o.revenue = d.revenue ∧ o.share = none ∧
    Shows (d.cell ch .incremental) d.level o.value ∧
    ShowsSome (d.cell ch .roi) d.level o.roi ∧
    ShowsSome (d.cell ch .mroi) d.level o.mroi ∧
    ShowsSome (d.cell ch .cpik) d.level o.cpik ∧
    ShowsSome (d.cell ch .effectiveness) d.level o.effectiveness
  curve : match curves with
    | none => m.curve = none
    | some r => ch ∈ r.channels ∧ ∃ p, m.curve = some p ∧ Curve r ch p

/-- An analysis lists the channels of a dataset in order. -/
def Lists (i : DatedSpec.Interval) (d : BudgetData) (curves : Option Curves) (x : Analysis) : Prop :=
  x.interval = i ∧ List.Forall₂ (Channel d curves) d.channels x.media

/-- The range of dates of a spec; missing ends are those of the time axis, the last period included. -/
structure Range (ax : List CDate) (k : ℕ) (s : DatedSpec.Spec) (i : DatedSpec.Interval) : Prop where
  tag : i.tag = s.tag
  start : match s.start with
    | some a => i.start = a
    | none => ax.head? = some i.start
  stop : match s.stop with
    | some b => i.stop = b
    | none => ∃ e, ax.getLast? = some e ∧ i.stop.ordinal = e.ordinal + k

/-- The scenario in a message: a fixed budget that was not given is the total of the optimized spend. -/
def Tells (sc : Scenario) (optimized : ℚ) (m : ScenarioMsg) : Prop :=
  match sc with
  | .fixed (some b) => m = .fixed b
  | .fixed none => m = .fixed optimized
  | .flexible metric v => (metric = .roi ∧ m = .flexible false v) ∨ (metric = .mroi ∧ m = .flexible true v)

/-- The finite entries of a column, from the top. -/
def column (g : GridData) (f : ℕ → String → Num) (ch : String) : List ℚ :=
  (List.range g.rows).filterMap fun r => f r ch

/-- The message of a result. -/
structure Reports {δ γ : Type} (s : BSpec δ γ) (ax : List CDate) (k : ℕ) (R : Result) (m : ResultMsg) :
    Prop where
  name : m.name = s.name
  group : m.group = s.group.getD ""
  range : Range ax k s.dated m.spec.interval
  kpi : m.spec.revenue = s.revenue
  batch : m.spec.batch = s.batch
  scenario : Tells s.scenario R.optimized.budget m.spec.scenario
  frequency : m.spec.optimalFrequency = s.optimalFrequency
  cap : m.spec.maxFrequency = s.maxFrequency
  optimized : Lists m.spec.interval R.optimized (if s.curves then some R.curves else none) m.optimized
  nonoptimized : Lists m.spec.interval R.nonoptimized (if s.curves then some R.curves else none) m.nonoptimized
  gridName : m.grid.name = s.gridName
  step : m.grid.step = R.grid.step
  cells : List.Forall₂ (fun ch p => p.1 = ch ∧ p.2.map Prod.fst = column R.grid R.grid.spend ch ∧
    p.2.map Prod.snd = column R.grid R.grid.outcome ch) R.grid.channels m.grid.cells

/-- A dataset of the optimizer holds an allocation over the paid channels. -/
structure Holds (paid : List String) (d : BudgetData) (xs : List (Option ℤ)) : Prop where
  channels : d.channels = paid
  spend : ∀ (c : ℕ) ch x, paid[c]? = some ch → xs[c]? = some (some x) → d.spend ch = x
  budget : d.budget = ((xs.map fun x => x.getD 0).sum : ℤ)

/-- An optimizer that answers as `BudgetOptimizer.optimize` does: it runs the grid search of the request
on some grid with steps of its round factor between multiples of it. -/
structure Faithful {δ γ : Type} (P : Optim δ γ) (revenueKpi : Bool) : Prop where
  names : P.paid.Nodup
  run : ∀ a R, P.optimize a = .ok R →
    ∃ (O : OptGrid) (req : Optimizer.Request) (xs : List (Option ℤ)) (non : List ℤ) (K : ℕ → ℕ)
      (base : ℕ → ℤ) (f : ℕ → ℕ → ℚ),
      O.grid.cols = P.paid.length ∧ O.roundFactor ≤ 0 ∧ (∀ c < P.paid.length, 0 ≤ O.hist c) ∧
      RegularBoth O.grid (stepSize O.roundFactor) K base f ∧
      (∀ c < P.paid.length, stepSize O.roundFactor ∣ base c) ∧
      validateBudget a.fixedBudget a.budget a.targetRoi a.targetMroi = .ok () ∧
      chooseRequest a.fixedBudget a.budget a.targetRoi a.targetMroi = .ok req ∧
      Optimizer.optimize O req none (some a.lower) (some a.upper) = .ok (xs, non) ∧
      R.grid.roundFactor = O.roundFactor ∧ Holds P.paid R.optimized xs ∧
      Holds P.paid R.nonoptimized (non.map some)
  revenue : ∀ a R, P.optimize a = .ok R →
    R.optimized.revenue = (revenueKpi || !a.useKpi) ∧ R.nonoptimized.revenue = (revenueKpi || !a.useKpi)
  level : ∀ a R, P.optimize a = .ok R → R.optimized.level = a.level ∧ R.nonoptimized.level = a.level

end Verif.BudgetProto.Spec

import Mathlib.Data.Rat.Floor
import Mathlib.Data.List.Sort

/-!
# The objects of the visualizer that hold settings

`MediaSummary`, `ReachAndFrequency` and `MediaEffects`, `meridian/analysis/visualizer.py:702-780,
903-1007, 1060-1115, 1436-1496, 1502-1610, 1748-1779`.

The analyzer is a parameter: a function from the arguments of the call to a result or an exception.
`functools.lru_cache` is modelled with its keys (the object, and whether the argument was given by
position, by name or not at all), its limit of 128 entries and its rule of eviction.
-/

namespace Verif.Views

/-- The fields of a `MediaSummary` object, `meridian/analysis/visualizer.py:1535-1545`. -/
structure Settings where
  level : ℚ
  times : Option (List String)
  byReach : Bool
  baseline : Option (List ℚ)
  useKpi : Bool
deriving DecidableEq

/-- The two cached methods. -/
inductive Method where
  | paid
  | all
deriving DecidableEq

/-- How `aggregate_times` was passed. -/
inductive Style where
  | omitted
  | keyword (b : Bool)
  | positional (b : Bool)
deriving DecidableEq

/-- The value of `aggregate_times`, by default `True`. -/
def Style.aggregate : Style → Bool
  | .omitted => true
  | .keyword b => b
  | .positional b => b

/-- The arguments of `Analyzer.summary_metrics`. -/
structure Call where
  times : Option (List String)
  byReach : Bool
  useKpi : Bool
  level : ℚ
  nonPaid : Bool
  baseline : Option (List ℚ)
  aggregateTimes : Bool
deriving DecidableEq

/-- The bodies of `get_paid_summary_metrics` and `get_all_summary_metrics`,
`meridian/analysis/visualizer.py:1556-1582, 1593-1618`.  Arguments that are not passed have their
defaults. -/
def callOf (s : Settings) : Method → Bool → Call
  | .paid, agg => ⟨s.times, s.byReach, s.useKpi, s.level, false, none, agg⟩
  | .all, agg => ⟨s.times, true, s.useKpi, s.level, true, s.baseline, agg⟩

/-- A cache: the entries, the most recently used one first.  An object is identified by a number. -/
abbrev Cache (α : Type) := List ((ℕ × Style) × α)

/-- The stored value of a key. -/
def Cache.find {α : Type} (c : Cache α) (k : ℕ × Style) : Option α :=
  (c.find? fun e => e.1 = k).map Prod.snd

/-- One call of a function decorated with `functools.lru_cache(maxsize=128)`: exceptions are not
stored. -/
def lruCall {ε α : Type} (body : Except ε α) (k : ℕ × Style) (c : Cache α) : Except ε α × Cache α :=
  match c.find k with
  | some v => (.ok v, (k, v) :: c.filter fun e => e.1 ≠ k)
  | none =>
    match body with
    | .error e => (.error e, c)
    | .ok v => (.ok v, ((k, v) :: c).take 128)

/-- All `MediaSummary` objects and the two caches, which belong to the class. -/
structure World (α : Type) where
  objs : ℕ → Option Settings
  paid : Cache α
  all : Cache α

/-- The beginning. -/
def World.init {α : Type} : World α := ⟨fun _ => none, [], []⟩

/-- What can be done. -/
inductive Op where
  | new (i : ℕ) (s : Settings)
  | update (i : ℕ) (level : Option ℚ) (times : Option (List String)) (byReach : Bool)
      (baseline : Option (List ℚ))
  | get (m : Method) (i : ℕ) (st : Style)

/-- `update_summary_metrics`, `meridian/analysis/visualizer.py:1748-1779`: a level of zero counts as not
given. -/
def updated (s : Settings) (level : Option ℚ) (times : Option (List String)) (byReach : Bool)
    (baseline : Option (List ℚ)) : Settings :=
  { s with
    level := match level with | some l => if l = 0 then s.level else l | none => s.level
    times := times, byReach := byReach, baseline := baseline }

/-- Replaces the settings of one object. -/
def World.set {α : Type} (w : World α) (i : ℕ) (s : Settings) : World α :=
  { w with objs := fun j => if j = i then some s else w.objs j }

/-- One operation with its result, if it has one.  A new object has a new identity; objects that do not
exist have no methods. -/
def step {ε α : Type} (run : Call → Except ε α) (w : World α) : Op → World α × Option (Except ε α)
  | .new i s => (match w.objs i with | none => w.set i s | some _ => w, none)
  | .update i level times byReach baseline =>
    (match w.objs i with | some s => w.set i (updated s level times byReach baseline) | none => w, none)
  | .get m i st =>
    match w.objs i with
    | none => (w, none)
    | some s =>
      match m with
      | .paid =>
        ({ w with paid := (lruCall (run (callOf s .paid st.aggregate)) (i, st) w.paid).2 },
          some (lruCall (run (callOf s .paid st.aggregate)) (i, st) w.paid).1)
      | .all =>
        ({ w with all := (lruCall (run (callOf s .all st.aggregate)) (i, st) w.all).2 },
          some (lruCall (run (callOf s .all st.aggregate)) (i, st) w.all).1)

/-- A history. -/
def exec {ε α : Type} (run : Call → Except ε α) (h : List Op) : World α :=
  h.foldl (fun w o => (step run w o).1) World.init

/-- The credible level in the title of `plot_roi_bar_chart` and `plot_cpik`,
`meridian/analysis/visualizer.py:2253-2256, 2274-2277`. -/
def titleLevel (s : Settings) : ℤ := (s.level * 100).floor

/-! ### `ReachAndFrequency` -/

/-- A `ReachAndFrequency` object, `meridian/analysis/visualizer.py:708-735`. -/
structure Rf (α : Type) where
  times : Option (List String)
  useKpi : Bool
  data : α

/-- The constructor. -/
def Rf.new {ε α : Type} (run : Option (List String) → Bool → Except ε α) (times : Option (List String))
    (useKpi : Bool) : Except ε (Rf α) :=
  match run times useKpi with
  | .error e => .error e
  | .ok d => .ok ⟨times, useKpi, d⟩

/-- `update_optimal_reach_and_frequency_selected_times`, `meridian/analysis/visualizer.py:746-759`.  An
exception leaves the selected times changed and the data as they were; only the value is modelled. -/
def Rf.update {ε α : Type} (run : Option (List String) → Bool → Except ε α) (r : Rf α)
    (times : Option (List String)) : Except ε (Rf α) :=
  match run times r.useKpi with
  | .error e => .error e
  | .ok d => .ok { r with times := times, data := d }

/-! ### `MediaEffects` -/

/-- The fields of a `MediaEffects` object, `meridian/analysis/visualizer.py:943-944`. -/
structure Effects where
  byReach : Bool
  useKpi : Bool

/-- `response_curves_data`, `meridian/analysis/visualizer.py:946-986`: the object's own `by_reach` is not
read.  (The cache is keyed by all arguments and the object does not change.) -/
def Effects.responseCurves {ε α : Type} (run : ℚ → Option (List String) → Bool → Bool → Except ε α)
    (o : Effects) (level : ℚ) (times : Option (List String)) (byReach : Bool := true) : Except ε α :=
  run level times byReach o.useKpi

/-- The number of channels of `plot_response_curves`, `meridian/analysis/visualizer.py:1102-1124`.  The
total counts all channels, also those without spend. -/
def numDisplayed (total : ℕ) (separately : Bool) (asked : Option ℤ) : ℤ :=
  if separately then total
  else
    let most : ℤ := min total 10
    let n : ℤ := match asked with
      | some k => k
      | none => if 7 ≤ total then 7 else most
    let n := if n > most then most else n
    if n < 1 then 1 else n

/-- The channels `_transform_response_curve_metrics` keeps, `meridian/analysis/visualizer.py:1467-1475`:
sorted by spend at multiplier one (`sortby` with `ascending=False` sorts and reverses), the first `n`. -/
def topChannels (spend : ℕ → ℚ) (nPaid : ℕ) (n : ℕ) : List ℕ :=
  (((List.range nPaid).insertionSort fun a b => spend a ≤ spend b).reverse).take n

end Verif.Views

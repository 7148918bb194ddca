import Verif.Lemmas.Tables
import Mathlib.Data.List.Nodup
import Mathlib.Tactic.FieldSimp
import Mathlib.Algebra.BigOperators.Group.List.Lemmas

/-!
# The tables of the dashboard

C92: the tables made from an exported model hold exactly its numbers, each in the row and the column it belongs to.
-/

namespace Verif.Tables.Props

open Verif Verif.Calendar Verif.Tables
open Verif.TablesSpec (UniqueNames Accepted AnalysisOk BudgetOk ReachOk IsTable Row)

/-- The cells of rows. -/
def cells (rows : List Row) : List (List Cell) := rows.map fun r => r.map Prod.snd

theorem cells_flatMap {α : Type} (l : List α) (f : α → List Row) :
    cells (l.flatMap f) = (l.map fun a => cells (f a)).flatten := by
  simp only [cells, List.flatMap, List.map_flatten, List.map_map, Function.comp_def]

theorem same {α : Type} {l : List α} {k : α → String} (h : (l.map k).Nodup) {a b : α} (ha : a ∈ l) (hb : b ∈ l)
    (e : k a = k b) : a = b := List.inj_on_of_nodup_map h ha hb e

theorem filter_one {α : Type} {l : List α} {k : α → String} (h : (l.map k).Nodup) {a : α} (ha : a ∈ l) :
    l.filter (fun x => k x = k a) = [a] := by
  induction l with
  | nil => simp at ha
  | cons b l ih =>
    simp only [List.map_cons, List.nodup_cons] at h
    rcases List.mem_cons.1 ha with rfl | hm
    · have : l.filter (fun x => k x = k a) = [] := by
        rw [List.filter_eq_nil_iff]
        intro x hx
        simp only [decide_eq_true_eq]
        intro e
        exact h.1 (e ▸ List.mem_map_of_mem hx)
      simp [this]
    · have : ¬ k b = k a := by
        intro e
        exact h.1 (e ▸ List.mem_map_of_mem hm)
      simp only [List.filter_cons, this, decide_false, Bool.false_eq_true, if_false]
      exact ih h.2 hm

/-! ### Fit -/

theorem diagnostics_ok {m : Mmm} (u : UniqueNames m) (t : List (String × Frame)) : diagnostics m = .ok t ↔
    t = if m.fits = [] then [] else [("ModelDiagnostics", ⟨["Dataset", "R Squared", "MAPE", "wMAPE"],
      cells (TablesSpec.diagnosticsRows m)⟩)] := by
  have hd := dictOf_map m.fits (·.name) (fun r => r) u.fits
  simp only [diagnostics, hd]
  by_cases h : m.fits = []
  · simp [h, eq_comm]
  · have h' : (m.fits.map fun r => (r.name, r)).isEmpty = false := by
      cases hf : m.fits with
      | nil => exact absurd hf h
      | cons a l => rfl
    simp only [h', h, if_false, Bool.false_eq_true, Except.ok.injEq, cells, TablesSpec.diagnosticsRows,
      List.map_map, Function.comp_def, List.map_cons, List.map_nil]
    exact eq_comm

theorem fitRow_ok {p : Prediction} {r : List Cell} : fitRow p = .ok r ↔ p.start.Valid ∧
    r = [.date p.start, .num (TablesSpec.bounds p.predicted).1, .num (TablesSpec.bounds p.predicted).2,
      .num p.predicted.value, .num p.baseline, .num p.actual] := by
  simp only [fitRow]
  cases h : toDate p.start with
  | error e =>
    constructor
    · intro h; cases h
    · rintro ⟨hv, _⟩
      rw [toDate_ok.2 ⟨hv, rfl⟩] at h
      cases h
  | ok d =>
    obtain ⟨hv, rfl⟩ := toDate_ok.1 h
    simp only [hv, true_and, Except.ok.injEq, TablesSpec.bounds]
    cases p.predicted.intervals with
    | nil => exact eq_comm
    | cons i l => exact eq_comm

theorem selectFit_ok {m : Mmm} (u : UniqueNames m) {r : Fit} :
    selectFit m = .ok r ↔ TablesSpec.chosenFit m = some r := by
  have hd := dictOf_map m.fits (·.name) (fun r => r) u.fits
  simp only [selectFit, hd, TablesSpec.chosenFit]
  rw [get_map m.fits (·.name) (fun r => r)]
  cases (m.fits.filter fun r => r.name = "All Data").head? with
  | some r => simp
  | none => cases m.fits <;> simp

theorem fit_ok {m : Mmm} (u : UniqueNames m) (t : List (String × Frame)) : fit m = .ok t ↔
    (∀ r, TablesSpec.chosenFit m = some r → ∀ p ∈ r.predictions, p.start.Valid) ∧
    t = match TablesSpec.chosenFit m with
      | none => []
      | some r => [("ModelFit", ⟨["Time", "Expected CI Low", "Expected CI High", "Expected", "Baseline", "Actual"],
          cells (TablesSpec.fitRows r)⟩)] := by
  simp only [fit]
  cases hc : TablesSpec.chosenFit m with
  | none =>
    have : m.fits = [] := by
      cases hf : m.fits with
      | nil => rfl
      | cons a l =>
        simp only [TablesSpec.chosenFit, hf] at hc
        split at hc <;> simp at hc
    simp [this, eq_comm]
  | some r =>
    have hne : m.fits.isEmpty = false := by
      cases hf : m.fits with
      | nil => simp [TablesSpec.chosenFit, hf] at hc
      | cons a l => rfl
    rw [selectFit_ok u |>.2 hc]
    simp only [hne, Bool.false_eq_true, if_false, Option.some.injEq, forall_eq']
    have key := fun rows => mapE_iff (r := rows) (l := r.predictions) (f := fitRow)
      (P := fun p => p.start.Valid) (fun p _ r => fitRow_ok)
    cases hm : mapE fitRow r.predictions with
    | error e =>
      constructor
      · intro h; cases h
      · rintro ⟨hv, _⟩
        rw [(key _).2 ⟨hv, rfl⟩] at hm
        cases hm
    | ok rows =>
      obtain ⟨hv, rfl⟩ := (key _).1 hm
      simp only [Except.ok.injEq, cells, TablesSpec.fitRows, List.map_map, Function.comp_def, List.map_cons,
        List.map_nil]
      exact ⟨fun h => ⟨hv, h.symm⟩, fun h => h.2.symm⟩

/-! ### Analyses -/

theorem baselineOf_ok {a : Analysis} (h : (a.nonMedia.map (·.name)).Nodup) {n : NonMedia} :
    baselineOf a = .ok n ↔ n ∈ a.nonMedia ∧ n.name = "baseline" := by
  simp only [baselineOf]
  cases hf : a.nonMedia.find? fun n => n.name == baseline with
  | none =>
    rw [List.find?_eq_none] at hf
    constructor
    · intro h; cases h
    · rintro ⟨h1, h2⟩
      exact absurd (by simpa [baseline] using h2) (hf n h1)
  | some x =>
    have hx := List.mem_of_find?_eq_some hf
    have hn : x.name = "baseline" := by
      have := List.find?_some hf
      simpa [baseline] using this
    simp only [Except.ok.injEq]
    constructor
    · rintro rfl
      exact ⟨hx, hn⟩
    · rintro ⟨h1, h2⟩
      exact same h hx h1 (hn.trans h2.symm)

/-- There is an analysis `ALL` with a baseline. -/
def Whole (m : Mmm) : Prop :=
  ∃ a ∈ m.analyses, a.interval.tag = "ALL" ∧ ∃ n ∈ a.nonMedia, n.name = "baseline"

theorem isRevenue_ok {m : Mmm} (u : UniqueNames m) {r : Bool} :
    isRevenue m = .ok r ↔ Whole m ∧ r = TablesSpec.revenue m := by
  have hd := dictOf_map m.analyses (·.interval.tag) (fun a => a) u.tags
  simp only [isRevenue, hd]
  rw [get_map m.analyses (·.interval.tag) (fun a => a)]
  cases hh : (m.analyses.filter fun a => a.interval.tag = "ALL").head? with
  | none =>
    constructor
    · intro h; cases h
    · rintro ⟨⟨a, ha, ht, _⟩, _⟩
      rw [List.head?_eq_none_iff, List.filter_eq_nil_iff] at hh
      exact absurd (by simpa using ht) (hh a ha)
  | some a =>
    have hm := List.mem_filter.1 (List.mem_of_head? hh)
    have ht : a.interval.tag = "ALL" := by simpa using hm.2
    simp only [Option.map_some]
    cases hb : baselineOf a with
    | error e =>
      constructor
      · intro h; cases h
      · rintro ⟨⟨a', ha', ht', n, hn, he⟩, _⟩
        have := same u.tags ha' hm.1 (ht'.trans ht.symm)
        subst this
        rw [(baselineOf_ok (u.nonMedia a' ha')).2 ⟨hn, he⟩] at hb
        cases hb
    | ok n =>
      obtain ⟨hn, he⟩ := (baselineOf_ok (u.nonMedia a hm.1)).1 hb
      have hw : Whole m := ⟨a, hm.1, ht, n, hn, he⟩
      have hr : (pick true n.outcomes).isSome = TablesSpec.revenue m := by
        rw [Bool.eq_iff_iff, pick_has]
        simp only [TablesSpec.Has, TablesSpec.revenue, List.any_eq_true, Bool.and_eq_true, decide_eq_true_eq,
          if_true]
        constructor
        · rintro ⟨o, ho, hk⟩
          exact ⟨a, hm.1, ht, n, hn, he, o, ho, hk⟩
        · rintro ⟨a', ha', ht', n', hn', he', o, ho, hk⟩
          have := same u.tags ha' hm.1 (ht'.trans ht.symm)
          subst this
          have := same (u.nonMedia a' ha') hn' hn (he'.trans he.symm)
          subst this
          exact ⟨o, ho, hk⟩
      simp only [hw, true_and, Except.ok.injEq, hr]
      exact eq_comm

/-- What `MediaOutcome` needs of an analysis. -/
def OutcomeOk (rev : Bool) (a : Analysis) : Prop :=
  a.interval.start.Valid ∧ a.interval.stop.Valid ∧ ∃ n ∈ a.nonMedia, n.name = "baseline" ∧
    TablesSpec.Has rev n.outcomes

theorem outcomeRow_eq (rev : Bool) (a : Analysis) (name : String) (l : List Outcome) :
    outcomeRow rev a.interval.tag (a.interval.start, a.interval.stop) name l =
      (TablesSpec.outcomeLine rev a (if name = "All Channels" then 1 else 2) name l).map Prod.snd := by
  simp only [outcomeRow, TablesSpec.outcomeLine, TablesSpec.period, pick_eq, allChannels, List.cons_append,
    List.nil_append, List.map_cons, List.map_nil]
  rfl

theorem outcomeRows_ok {m : Mmm} (u : UniqueNames m) {a : Analysis} (ha : a ∈ m.analyses)
    {r : List (List Cell)} : outcomeRows m a = .ok r ↔
      (Whole m ∧ OutcomeOk (TablesSpec.revenue m) a) ∧
        r = cells (TablesSpec.outcomeRows (TablesSpec.revenue m) a) := by
  simp only [outcomeRows]
  cases hd : toDates a.interval.start a.interval.stop with
  | error e =>
    constructor
    · intro h; cases h
    · rintro ⟨⟨_, h1, h2, _⟩, _⟩
      rw [toDates_ok.2 ⟨⟨h1, h2⟩, rfl⟩] at hd
      cases hd
  | ok dates =>
    obtain ⟨hv, rfl⟩ := toDates_ok.1 hd
    cases hi : isRevenue m with
    | error e =>
      constructor
      · intro h; cases h
      · rintro ⟨⟨h1, _⟩, _⟩
        rw [(isRevenue_ok u).2 ⟨h1, rfl⟩] at hi
        cases hi
    | ok rev =>
      obtain ⟨hw, rfl⟩ := (isRevenue_ok u).1 hi
      cases hb : baselineOf a with
      | error e =>
        constructor
        · intro h; cases h
        · rintro ⟨⟨_, _, _, n, h1, h2, _⟩, _⟩
          rw [(baselineOf_ok (u.nonMedia a ha)).2 ⟨h1, h2⟩] at hb
          cases hb
      | ok n =>
        obtain ⟨hn, he⟩ := (baselineOf_ok (u.nonMedia a ha)).1 hb
        cases hp : pick (TablesSpec.revenue m) n.outcomes with
        | none =>
          simp only [hp]
          constructor
          · intro h; cases h
          · rintro ⟨⟨_, _, _, n', h1, h2, h3⟩, _⟩
            have := same (u.nonMedia a ha) h1 hn (h2.trans he.symm)
            subst this
            exact absurd h3 (pick_none.1 hp)
        | some o =>
          have hok : OutcomeOk (TablesSpec.revenue m) a := by
            refine ⟨hv.1, hv.2, n, hn, he, ?_⟩
            rw [← pick_has, hp]
            rfl
          have hf := filter_one (u.nonMedia a ha) hn
          rw [he] at hf
          have hd2 := dictOf_map a.nonMedia (·.name) (fun n => n) (u.nonMedia a ha)
          simp only [hp, hw, hok, and_self, true_and, Except.ok.injEq, mediaMap_eq _ (u.media a ha), hd2]
          have e2 : (a.nonMedia.map fun n => (n.name, n)).filter (fun p => p.1 != baseline) =
              (a.nonMedia.filter fun n => n.name ≠ "baseline").map fun n => (n.name, n) := by
            rw [List.filter_map]
            congr 1
            apply List.filter_congr
            intro x _
            by_cases h : x.name = "baseline" <;> simp [h, baseline]
          rw [e2]
          have e3 : cells (TablesSpec.outcomeRows (TablesSpec.revenue m) a) =
              [.int 0, .str baseline, .num o.contribution, .num o.share, .str a.interval.tag,
                .date a.interval.start, .date a.interval.stop] ::
              (a.media.map fun c => outcomeRow (TablesSpec.revenue m) a.interval.tag
                (a.interval.start, a.interval.stop) c.name c.outcomes) ++
              ((a.nonMedia.filter fun n => n.name ≠ "baseline").map fun c => outcomeRow (TablesSpec.revenue m)
                a.interval.tag (a.interval.start, a.interval.stop) c.name c.outcomes) := by
            have h0 : (TablesSpec.outcomeLine (TablesSpec.revenue m) a 0 n.name n.outcomes).map Prod.snd =
                [.int 0, .str baseline, .num o.contribution, .num o.share, .str a.interval.tag,
                  .date a.interval.start, .date a.interval.stop] := by
              simp only [TablesSpec.outcomeLine, TablesSpec.period, ← pick_eq, hp, he, baseline, List.cons_append,
                List.nil_append, List.map_cons, List.map_nil, Option.bind_some]
            simp only [cells, TablesSpec.outcomeRows, hf, List.map_append, List.map_map, Function.comp_def,
              List.map_cons, List.map_nil, h0, ← outcomeRow_eq, List.cons_append, List.nil_append]
          rw [e3]
          simp only [List.map_append, List.map_map, Function.comp_def, List.cons_append]
          exact eq_comm

/-- The columns of `MediaOutcome`. -/
def outcomeColumns : List String := ["Channel Index", "Channel", "Incremental Outcome", "Contribution Share",
  "Analysis Period", "Analysis Date Start", "Analysis Date End"]

/-- A table made from the rows of a list, if the list is not empty. -/
theorem table_ok {α : Type} {l : List α} {f : α → Except Err (List (List Cell))} {P : α → Prop}
    {g : α → List Row} {name : String} {columns : List String}
    (h : ∀ a ∈ l, ∀ b, f a = .ok b ↔ P a ∧ b = cells (g a)) (t : List (String × Frame)) :
    (match mapE f l with
      | .error e => Except.error e
      | .ok rows => Except.ok [(name, (⟨columns, rows.flatten⟩ : Frame))]) = .ok t ↔
    (∀ a ∈ l, P a) ∧ t = [(name, ⟨columns, cells (l.flatMap g)⟩)] := by
  have key := fun rows => mapE_iff (r := rows) h
  cases hm : mapE f l with
  | error e =>
    constructor
    · intro h; cases h
    · rintro ⟨hv, _⟩
      rw [(key _).2 ⟨hv, rfl⟩] at hm
      cases hm
  | ok rows =>
    obtain ⟨hv, rfl⟩ := (key _).1 hm
    simp only [Except.ok.injEq, cells_flatMap]
    exact ⟨fun h => ⟨hv, h.symm⟩, fun h => h.2.symm⟩

theorem mediaOutcome_ok {m : Mmm} (u : UniqueNames m) (t : List (String × Frame)) : mediaOutcome m = .ok t ↔
    (∀ a ∈ m.analyses, Whole m ∧ OutcomeOk (TablesSpec.revenue m) a) ∧
    t = if m.analyses = [] then [] else [("MediaOutcome", ⟨outcomeColumns,
      cells (m.analyses.flatMap (TablesSpec.outcomeRows (TablesSpec.revenue m)))⟩)] := by
  simp only [mediaOutcome]
  by_cases h : m.analyses = []
  · simp only [h, List.isEmpty_nil, if_true, Except.ok.injEq, List.not_mem_nil, false_implies, implies_true,
      true_and]
    exact eq_comm
  · have h' : m.analyses.isEmpty = false := by simpa using h
    simp only [h', Bool.false_eq_true, if_false, h]
    exact table_ok (fun a ha b => outcomeRows_ok u ha) t

/-! ### Shares -/

theorem norm_eq (rev : Bool) (l : List Media) (x : ℚ) :
    (l.map fun c => (c.name, c.spendShare, (pick rev c.outcomes).map (·.share), rev)).foldl addShare (some x) =
      if none ∈ (l.filterMap fun c => TablesSpec.outcome rev c.outcomes).map (·.share) then none else
        some (x + (((l.filterMap fun c => TablesSpec.outcome rev c.outcomes).map (·.share)).filterMap id).sum) := by
  have hnone : ∀ l : List (String × Num × Option Num × Bool), l.foldl addShare none = none := by
    intro l
    induction l with
    | nil => rfl
    | cons p l ih =>
      have : addShare none p = none := by
        simp only [addShare]
        cases p.2.2.1 with
        | none => rfl
        | some y => rfl
      rw [List.foldl_cons, this, ih]
  induction l generalizing x with
  | nil => simp
  | cons c l ih =>
    simp only [List.map_cons, List.foldl_cons, pick_eq]
    simp only [pick_eq] at ih
    cases ho : TablesSpec.outcome rev c.outcomes with
    | none =>
      have : addShare (some x) (c.name, c.spendShare, (none : Option Outcome).map (·.share), rev) = some x := rfl
      rw [this, ih]
      simp only [List.filterMap_cons, ho]
    | some o =>
      cases hs : o.share with
      | none =>
        have : addShare (some x) (c.name, c.spendShare, (some o).map (·.share), rev) = none := by
          simp only [addShare, Option.map_some, hs]
          rfl
        rw [this, hnone]
        simp [ho, hs]
      | some y =>
        have : addShare (some x) (c.name, c.spendShare, (some o).map (·.share), rev) = some (x + y) := by
          simp only [addShare, Option.map_some, hs]
          rfl
        rw [this, ih]
        have h1 : ((c :: l).filterMap fun c => TablesSpec.outcome rev c.outcomes).map (·.share) =
            some y :: (l.filterMap fun c => TablesSpec.outcome rev c.outcomes).map (·.share) := by
          simp only [List.filterMap_cons, ho, List.map_cons, hs]
        rw [h1]
        simp only [List.mem_cons, reduceCtorEq, false_or, List.filterMap_cons, id, List.sum_cons, add_assoc]

theorem pyDiv_ok {x y v : Num} : pyDiv x y = .ok v ↔ y ≠ some 0 ∧ v = match x, y with
    | some a, some b => some (a / b)
    | _, _ => none := by
  cases y with
  | none => cases x <;> simp [pyDiv, eq_comm]
  | some b =>
    by_cases hb : b = 0
    · simp [pyDiv, hb]
    · cases x <;> simp [pyDiv, hb, eq_comm]

/-- The two lines of a channel. -/
def spendLines (rev : Bool) (a : Analysis) (c : Media) : List Row :=
  [[("Channel", .str c.name), ("Share Value", .num c.spendShare), ("Label", .str "Spend Share")] ++
      TablesSpec.period a,
    [("Channel", .str c.name), ("Share Value", .num (TablesSpec.portion rev a c)),
      ("Label", .str (if rev then "Revenue Share" else "KPI Share"))] ++ TablesSpec.period a]

theorem spendRows_ok {m : Mmm} (u : UniqueNames m) {a : Analysis} (ha : a ∈ m.analyses) (hw : Whole m)
    {r : List (List Cell)} : spendRows m a = .ok r ↔
      ((a.interval.start.Valid ∧ a.interval.stop.Valid) ∧ (TablesSpec.ordinary a.media ≠ [] →
        TablesSpec.total (TablesSpec.revenue m) a ≠ some 0)) ∧
        r = cells (TablesSpec.spendRows (TablesSpec.revenue m) a) := by
  have hi := (isRevenue_ok u).2 ⟨hw, rfl⟩
  simp only [spendRows]
  cases hd : toDates a.interval.start a.interval.stop with
  | error e =>
    constructor
    · intro h; cases h
    · rintro ⟨⟨h, _⟩, _⟩
      rw [toDates_ok.2 ⟨h, rfl⟩] at hd
      cases hd
  | ok dates =>
    obtain ⟨hv, rfl⟩ := toDates_ok.1 hd
    have hs : mapE (shares m) (channels a.media) = .ok ((TablesSpec.ordinary a.media).map fun c =>
        (c.name, c.spendShare, (pick (TablesSpec.revenue m) c.outcomes).map (·.share), TablesSpec.revenue m)) := by
      rw [channels_eq _ (u.media a ha), mapE_iff (P := fun _ => True) (g := fun p => (p.1, p.2.spendShare,
        (pick (TablesSpec.revenue m) p.2.outcomes).map (·.share), TablesSpec.revenue m))]
      · simp [Function.comp_def]
      · intro p _ b
        simp [shares, hi, eq_comm]
    rw [hs]
    have hn : norm ((TablesSpec.ordinary a.media).map fun c => (c.name, c.spendShare,
        (pick (TablesSpec.revenue m) c.outcomes).map (·.share), TablesSpec.revenue m)) =
        TablesSpec.total (TablesSpec.revenue m) a := by
      rw [norm, norm_eq, zero_add]
      simp only [TablesSpec.total]
      by_cases hz : none ∈ TablesSpec.knownShares (TablesSpec.revenue m) a
      · rw [if_pos hz]
        exact if_pos hz
      · rw [if_neg hz]
        exact if_neg hz
    simp only [hn]
    have key : ∀ rows, mapE (spendRow a.interval.tag (a.interval.start, a.interval.stop)
        (TablesSpec.total (TablesSpec.revenue m) a)) ((TablesSpec.ordinary a.media).map fun c =>
        (c.name, c.spendShare, (pick (TablesSpec.revenue m) c.outcomes).map (·.share), TablesSpec.revenue m)) =
          .ok rows ↔ (∀ c ∈ TablesSpec.ordinary a.media, TablesSpec.total (TablesSpec.revenue m) a ≠ some 0) ∧
          rows = (TablesSpec.ordinary a.media).map fun c => cells (spendLines (TablesSpec.revenue m) a c) := by
      intro rows
      have := mapE_iff (r := rows) (l := TablesSpec.ordinary a.media) (f := fun c => spendRow a.interval.tag
        (a.interval.start, a.interval.stop) (TablesSpec.total (TablesSpec.revenue m) a)
        (c.name, c.spendShare, (pick (TablesSpec.revenue m) c.outcomes).map (·.share), TablesSpec.revenue m))
        (P := fun _ => TablesSpec.total (TablesSpec.revenue m) a ≠ some 0)
        (g := fun c => cells (spendLines (TablesSpec.revenue m) a c)) (by
          intro c _ b
          have e : ((pick (TablesSpec.revenue m) c.outcomes).map (·.share)).getD none =
              (TablesSpec.outcome (TablesSpec.revenue m) c.outcomes).bind (·.share) := by
            rw [pick_eq]
            cases TablesSpec.outcome (TablesSpec.revenue m) c.outcomes <;> rfl
          simp only [spendRow, e]
          cases hp : pyDiv ((TablesSpec.outcome (TablesSpec.revenue m) c.outcomes).bind (·.share))
              (TablesSpec.total (TablesSpec.revenue m) a) with
          | error e =>
            constructor
            · intro h; cases h
            · rintro ⟨h, _⟩
              rw [pyDiv_ok.2 ⟨h, rfl⟩] at hp
              cases hp
          | ok v =>
            obtain ⟨h0, rfl⟩ := pyDiv_ok.1 hp
            simp only [h0, ne_eq, not_false_eq_true, true_and, Except.ok.injEq, cells, spendLines,
              TablesSpec.period, List.cons_append, List.nil_append, List.map_cons, List.map_nil]
            exact eq_comm)
      rw [← this]
      generalize TablesSpec.ordinary a.media = l
      have e : ∀ l : List Media, mapE (spendRow a.interval.tag (a.interval.start, a.interval.stop)
          (TablesSpec.total (TablesSpec.revenue m) a)) (l.map fun c =>
          (c.name, c.spendShare, (pick (TablesSpec.revenue m) c.outcomes).map (·.share), TablesSpec.revenue m)) =
          mapE (fun c : Media => spendRow a.interval.tag (a.interval.start, a.interval.stop)
          (TablesSpec.total (TablesSpec.revenue m) a) (c.name, c.spendShare,
          (pick (TablesSpec.revenue m) c.outcomes).map (·.share), TablesSpec.revenue m)) l := by
        intro l
        induction l with
        | nil => rfl
        | cons c l ih => simp only [List.map_cons, mapE, ih]
      rw [e]
    have hc : (∀ c ∈ TablesSpec.ordinary a.media, TablesSpec.total (TablesSpec.revenue m) a ≠ some 0) ↔
        (TablesSpec.ordinary a.media ≠ [] → TablesSpec.total (TablesSpec.revenue m) a ≠ some 0) := by
      constructor
      · intro h hne
        obtain ⟨c, hc⟩ := List.exists_mem_of_ne_nil _ hne
        exact h c hc
      · intro h c hc
        exact h (List.ne_nil_of_mem hc)
    rw [hc] at key
    cases hm : mapE (spendRow a.interval.tag (a.interval.start, a.interval.stop)
        (TablesSpec.total (TablesSpec.revenue m) a)) ((TablesSpec.ordinary a.media).map fun c =>
        (c.name, c.spendShare, (pick (TablesSpec.revenue m) c.outcomes).map (·.share), TablesSpec.revenue m)) with
    | error e =>
      constructor
      · intro h; cases h
      · rintro ⟨⟨_, h⟩, _⟩
        rw [(key _).2 ⟨h, rfl⟩] at hm
        cases hm
    | ok rows =>
      obtain ⟨h0, rfl⟩ := (key _).1 hm
      have e : cells (TablesSpec.spendRows (TablesSpec.revenue m) a) =
          ((TablesSpec.ordinary a.media).map fun c => cells (spendLines (TablesSpec.revenue m) a c)).flatten :=
        cells_flatMap _ _
      simp only [Except.ok.injEq, e]
      exact ⟨fun h => ⟨⟨hv, h0⟩, h.symm⟩, fun h => h.2.symm⟩

/-- The columns of `MediaSpend`. -/
def spendColumns : List String := ["Channel", "Share Value", "Label", "Analysis Period", "Analysis Date Start",
  "Analysis Date End"]

theorem mediaSpend_ok {m : Mmm} (u : UniqueNames m) (hw : m.analyses ≠ [] → Whole m) (t : List (String × Frame)) :
    mediaSpend m = .ok t ↔ (∀ a ∈ m.analyses, (a.interval.start.Valid ∧ a.interval.stop.Valid) ∧
      (TablesSpec.ordinary a.media ≠ [] → TablesSpec.total (TablesSpec.revenue m) a ≠ some 0)) ∧
    t = if m.analyses = [] then [] else [("MediaSpend", ⟨spendColumns,
      cells (m.analyses.flatMap (TablesSpec.spendRows (TablesSpec.revenue m)))⟩)] := by
  simp only [mediaSpend]
  by_cases h : m.analyses = []
  · simp only [h, List.isEmpty_nil, if_true, Except.ok.injEq, List.not_mem_nil, false_implies, implies_true,
      true_and]
    exact eq_comm
  · have h' : m.analyses.isEmpty = false := by simpa using h
    simp only [h', Bool.false_eq_true, if_false, h]
    exact table_ok (fun a ha b => spendRows_ok u ha (hw h)) t

theorem roiRow_ok {m : Mmm} (u : UniqueNames m) (hw : Whole m) (a : Analysis) (c : Media) {r : List Cell} :
    roiRow m a.interval.tag (a.interval.start, a.interval.stop) (c.name, c) = .ok r ↔
      ∃ o, TablesSpec.outcome (TablesSpec.revenue m) c.outcomes = some o ∧
        r = [.str c.name, .num c.spend, .num o.effectiveness, .num o.roi.value, .num (TablesSpec.bounds o.roi).1,
          .num (TablesSpec.bounds o.roi).2, .num o.mroi, .flag (TablesSpec.revenue m), .str a.interval.tag,
          .date a.interval.start, .date a.interval.stop] := by
  have hi := (isRevenue_ok u).2 ⟨hw, rfl⟩
  simp only [roiRow, hi]
  cases hp : pick (TablesSpec.revenue m) c.outcomes with
  | none =>
    rw [pick_eq] at hp
    simp [hp]
  | some o =>
    have hk : decide (o.kpi = Kpi.revenue) = TablesSpec.revenue m := by
      have := List.find?_some hp
      simp only [decide_eq_true_eq] at this
      rw [this]
      cases TablesSpec.revenue m <;> rfl
    have hb : o.roi.intervals.headD (none, none) = TablesSpec.bounds o.roi := by
      simp only [TablesSpec.bounds]
      cases o.roi.intervals <;> rfl
    rw [pick_eq] at hp
    simp only [hp, Option.some.injEq, exists_eq_left', Except.ok.injEq, hk, hb]
    exact eq_comm

theorem outcome_has {rev : Bool} {l : List Outcome} :
    (TablesSpec.outcome rev l).isSome ↔ TablesSpec.Has rev l := by
  rw [← pick_eq, pick_has]

theorem roiRows_ok {m : Mmm} (u : UniqueNames m) {a : Analysis} (ha : a ∈ m.analyses) (hw : Whole m)
    {r : List (List Cell)} : roiRows m a = .ok r ↔
      ((a.interval.start.Valid ∧ a.interval.stop.Valid) ∧ ∀ c ∈ TablesSpec.ordinary a.media,
        TablesSpec.Has (TablesSpec.revenue m) c.outcomes) ∧
        r = cells (TablesSpec.roiRows (TablesSpec.revenue m) a) := by
  simp only [roiRows]
  cases hd : toDates a.interval.start a.interval.stop with
  | error e =>
    constructor
    · intro h; cases h
    · rintro ⟨⟨h, _⟩, _⟩
      rw [toDates_ok.2 ⟨h, rfl⟩] at hd
      cases hd
  | ok dates =>
    obtain ⟨hv, rfl⟩ := toDates_ok.1 hd
    simp only [channels_eq _ (u.media a ha), hv, and_self, true_and, TablesSpec.roiRows, cells_flatMap]
    generalize TablesSpec.ordinary a.media = l
    induction l generalizing r with
    | nil => simp [mapE, eq_comm]
    | cons c l ih =>
      have hc := fun r => roiRow_ok u hw a c (r := r)
      simp only [List.map_cons, mapE, List.mem_cons, forall_eq_or_imp, List.flatten_cons]
      cases ho : TablesSpec.outcome (TablesSpec.revenue m) c.outcomes with
      | none =>
        have hn : ¬ TablesSpec.Has (TablesSpec.revenue m) c.outcomes := by
          rw [← outcome_has, ho]
          simp
        simp only [hn, false_and, iff_false]
        cases hr : roiRow m a.interval.tag (a.interval.start, a.interval.stop) (c.name, c) with
        | error e => intro h; cases h
        | ok x =>
          obtain ⟨o, h1, _⟩ := (hc x).1 hr
          rw [ho] at h1
          cases h1
      | some o =>
        have hn : TablesSpec.Has (TablesSpec.revenue m) c.outcomes := by
          rw [← outcome_has, ho]
          rfl
        rw [(hc _).2 ⟨o, ho, rfl⟩]
        simp only [hn, true_and]
        cases hl : mapE (roiRow m a.interval.tag (a.interval.start, a.interval.stop))
            (l.map fun c => (c.name, c)) with
        | error e =>
          constructor
          · intro h; cases h
          · rintro ⟨h, _⟩
            rw [ih.2 ⟨h, rfl⟩] at hl
            cases hl
        | ok rs =>
          obtain ⟨h, rfl⟩ := ih.1 hl
          simp only [Except.ok.injEq]
          refine ⟨fun e => ⟨h, e.symm⟩, fun e => e.2.symm⟩

/-- The columns of `MediaROI`. -/
def roiColumns : List String := ["Channel", "Spend", "Effectiveness", "ROI", "ROI CI Low", "ROI CI High",
  "Marginal ROI", "Is Revenue KPI", "Analysis Period", "Analysis Date Start", "Analysis Date End"]

theorem mediaRoi_ok {m : Mmm} (u : UniqueNames m) (hw : m.analyses ≠ [] → Whole m) (t : List (String × Frame)) :
    mediaRoi m = .ok t ↔ (∀ a ∈ m.analyses, (a.interval.start.Valid ∧ a.interval.stop.Valid) ∧
      ∀ c ∈ TablesSpec.ordinary a.media, TablesSpec.Has (TablesSpec.revenue m) c.outcomes) ∧
    t = if m.analyses = [] then [] else [("MediaROI", ⟨roiColumns,
      cells (m.analyses.flatMap (TablesSpec.roiRows (TablesSpec.revenue m)))⟩)] := by
  simp only [mediaRoi]
  by_cases h : m.analyses = []
  · simp only [h, List.isEmpty_nil, if_true, Except.ok.injEq, List.not_mem_nil, false_implies, implies_true,
      true_and]
    exact eq_comm
  · have h' : m.analyses.isEmpty = false := by simpa using h
    simp only [h', Bool.false_eq_true, if_false, h]
    exact table_ok (fun a ha b => roiRows_ok u ha (hw h)) t

/-! ### Optimizations -/

theorem groups_iff {α : Type} (l : List α) (g : α → String) :
    ((l.map g).filter fun x => x != "").Nodup ↔ l.Pairwise fun a b => g a = g b → g a = "" := by
  induction l with
  | nil => simp
  | cons a l ih =>
    rw [List.pairwise_cons, ← ih, List.map_cons, List.filter_cons]
    by_cases h : g a = ""
    · simp [h]
    · have h' : (g a != "") = true := by simpa using h
      simp only [h', if_true, List.nodup_cons, List.mem_filter, List.mem_map, and_true, h, imp_false]
      constructor
      · rintro ⟨h1, h2⟩
        exact ⟨fun b hb e => h1 ⟨b, hb, e.symm⟩, h2⟩
      · rintro ⟨h1, h2⟩
        refine ⟨?_, h2⟩
        rintro ⟨b, hb, e⟩
        exact h1 b hb e.symm

theorem withGroups_ok {α : Type} {l : List α} {g : α → String} {r : Except Err (List (String × Frame))}
    {t : List (String × Frame)} {P : Prop} {v : List (String × Frame)} (hr : r = .ok t ↔ P ∧ t = v) :
    withGroups (l.map g) r = .ok t ↔ ((l.Pairwise fun a b => g a = g b → g a = "") ∧ (l ≠ [] → P)) ∧
      t = if l = [] then [] else v := by
  simp only [withGroups]
  by_cases h : l = []
  · subst h
    simp only [List.map_nil, List.isEmpty_nil, if_true, Except.ok.injEq, List.Pairwise.nil, ne_eq, not_true_eq_false,
      false_implies, and_self, true_and]
    exact eq_comm
  · have h' : (l.map g).isEmpty = false := by simpa using h
    simp only [h', Bool.false_eq_true, if_false, h, checkGroups, groups_iff, ne_eq, not_false_eq_true, true_implies]
    by_cases hg : l.Pairwise fun a b => g a = g b → g a = ""
    · simp only [hg, if_true, true_and]
      exact hr
    · simp [hg]

/-- The tables of the grids of the budgets. -/
def budgetTables (m : Mmm) : List (String × Frame) := m.budgets.map fun b =>
  (gridTable "budget_opt_grid" b.gridName, ⟨["Group ID", "Channel", "Spend", "Incremental Outcome"],
    cells (TablesSpec.gridRows b.group "Spend" "Incremental Outcome" b.grid)⟩)

/-- The tables of the grids of the frequencies. -/
def reachTables (m : Mmm) : List (String × Frame) := m.reaches.map fun b =>
  (gridTable "rf_opt_grid" b.gridName, ⟨["Group ID", "Channel", "Frequency", "ROI"],
    cells (TablesSpec.gridRows b.group "Frequency" "ROI" b.grid)⟩)

theorem gridRows_eq (group x y : String) (grid : List (String × List (Num × Num))) (h : (grid.map Prod.fst).Nodup) :
    gridRows group grid = cells (TablesSpec.gridRows group x y grid) := by
  simp only [gridRows, dictOf_nodup grid h, TablesSpec.gridRows, cells, List.map_flatMap, List.map_map,
    Function.comp_def, List.map_cons, List.map_nil]

/-- The groups are distinct where they are given. -/
def Groups {α : Type} (l : List α) (g : α → String) : Prop := l.Pairwise fun a b => g a = g b → g a = ""

theorem budgetGrids_ok {m : Mmm} (u : UniqueNames m) (t : List (String × Frame)) : budgetGrids m = .ok t ↔
    Groups m.budgets (·.group) ∧ t = budgetTables m := by
  have e : (m.budgets.map fun b => (gridTable "budget_opt_grid" b.gridName,
      (⟨["Group ID", "Channel", "Spend", "Incremental Outcome"], gridRows b.group b.grid⟩ : Frame))) =
      budgetTables m := by
    apply List.map_congr_left
    intro b hb
    rw [gridRows_eq _ "Spend" "Incremental Outcome" _ (u.budgetGrid b hb)]
  simp only [budgetGrids, e]
  rw [withGroups_ok (P := True) (v := budgetTables m) (by simp [eq_comm])]
  by_cases h : m.budgets = []
  · simp [h, budgetTables, Groups]
  · simp [h, Groups]

theorem reachGrids_ok {m : Mmm} (u : UniqueNames m) (t : List (String × Frame)) : reachGrids m = .ok t ↔
    Groups m.reaches (·.group) ∧ t = reachTables m := by
  have e : (m.reaches.map fun b => (gridTable "rf_opt_grid" b.gridName,
      (⟨["Group ID", "Channel", "Frequency", "ROI"], gridRows b.group b.grid⟩ : Frame))) = reachTables m := by
    apply List.map_congr_left
    intro b hb
    rw [gridRows_eq _ "Frequency" "ROI" _ (u.reachGrid b hb)]
  simp only [reachGrids, e]
  rw [withGroups_ok (P := True) (v := reachTables m) (by simp [eq_comm])]
  by_cases h : m.reaches = []
  · simp [h, reachTables, Groups]
  · simp [h, Groups]

theorem metricStr_ok {x : Metric} {s : String} : metricStr x = .ok s ↔ x ≠ .unspecified ∧
    s = TablesSpec.metricName x := by
  cases x <;> simp [metricStr, TablesSpec.metricName, eq_comm]

theorem target_ok {x : Scenario} {t : Cell × Cell} : x.target = .ok t ↔ TablesSpec.ScenarioOk x ∧
    t = (TablesSpec.scenarioCells x).2 := by
  cases x with
  | fixed b => simp [Scenario.target, TablesSpec.ScenarioOk, TablesSpec.scenarioCells, eq_comm]
  | unset => simp [Scenario.target, TablesSpec.ScenarioOk]
  | flexible b l =>
    cases l with
    | nil => simp [Scenario.target, TablesSpec.ScenarioOk]
    | cons p l =>
      simp only [Scenario.target, TablesSpec.ScenarioOk, TablesSpec.scenarioCells]
      cases hm : metricStr p.1 with
      | error e =>
        constructor
        · intro h; cases h
        · rintro ⟨h, _⟩
          rw [metricStr_ok.2 ⟨h, rfl⟩] at hm
          cases hm
      | ok s =>
        obtain ⟨h, rfl⟩ := metricStr_ok.1 hm
        simp only [h, ne_eq, not_false_eq_true, true_and, Except.ok.injEq]
        exact eq_comm

theorem isFixed_eq {x : Scenario} :
    (Cell.str (if x.isFixed then "Fixed" else "Flexible")) = (TablesSpec.scenarioCells x).1 := by
  cases x with
  | fixed b => rfl
  | unset => rfl
  | flexible b l => cases l <;> rfl

theorem budgetBounds_eq (m : Mmm) (b : Budget) :
    budgetBounds m b = TablesSpec.constraints (channelNames Point.media m) b := by
  have : b.scenario.maxBudget = TablesSpec.limit b.scenario := by cases b.scenario <;> rfl
  simp only [budgetBounds, TablesSpec.constraints, this]
  cases b.bounds <;> rfl

theorem budgetSpecRows_ok {m : Mmm} {b : Budget} {r : List (List Cell)} : budgetSpecRows m b = .ok r ↔
    (BudgetOk b ∧ PointsOk m) ∧ r = cells (TablesSpec.budgetSpecRows m (channelNames Point.media m) b) := by
  simp only [budgetSpecRows]
  cases hm : metricStr b.objective with
  | error e =>
    constructor
    · intro h; cases h
    · rintro ⟨⟨h, _⟩, _⟩
      rw [metricStr_ok.2 ⟨h.objective, rfl⟩] at hm
      cases hm
  | ok obj =>
    obtain ⟨ho, rfl⟩ := metricStr_ok.1 hm
    cases hd : toDates b.interval.start b.interval.stop with
    | error e =>
      constructor
      · intro h; cases h
      · rintro ⟨⟨h, _⟩, _⟩
        rw [toDates_ok.2 ⟨⟨h.start, h.stop⟩, rfl⟩] at hd
        cases hd
    | ok dates =>
      obtain ⟨hv, rfl⟩ := toDates_ok.1 hd
      cases hs : allSpends m b.interval.start b.interval.stop with
      | error e =>
        simp only [hs]
        constructor
        · intro h; cases h
        · rintro ⟨⟨_, h⟩, _⟩
          obtain ⟨r, hr⟩ := allSpends_some h b.interval.start b.interval.stop
          rw [hr] at hs
          cases hs
      | ok spends =>
        obtain ⟨hp, hg⟩ := allSpends_ok hs
        simp only [hs]
        cases ht : b.scenario.target with
        | error e =>
          constructor
          · intro h; cases h
          · rintro ⟨⟨h, _⟩, _⟩
            rw [target_ok.2 ⟨h.scenario, rfl⟩] at ht
            cases ht
        | ok t =>
          obtain ⟨hsc, rfl⟩ := target_ok.1 ht
          have hok : BudgetOk b := { start := hv.1, stop := hv.2, objective := ho, scenario := hsc }
          simp only [hok, hp, and_self, true_and, Except.ok.injEq, hg, isFixed_eq, budgetBounds_eq, cells,
            TablesSpec.budgetSpecRows, List.map_map, Function.comp_def, List.map_cons, List.map_nil]
          exact eq_comm

/-- The columns of `budget_opt_specs`. -/
def budgetColumns : List String := ["Group ID", "Date Interval Start", "Date Interval End", "Analysis Period",
  "Objective", "Scenario Type", "Initial Channel Spend", "Target Metric Constraint", "Target Metric Value", "Channel",
  "Channel Spend Min", "Channel Spend Max"]

theorem budgetSpecs_ok {m : Mmm} (t : List (String × Frame)) : budgetSpecs m = .ok t ↔
    (Groups m.budgets (·.group) ∧ ∀ b ∈ m.budgets, BudgetOk b ∧ PointsOk m) ∧
    t = if m.budgets = [] then [] else [("budget_opt_specs", ⟨budgetColumns, cells (m.budgets.flatMap
      (TablesSpec.budgetSpecRows m (channelNames Point.media m)))⟩)] := by
  have := table_ok (name := "budget_opt_specs") (columns := budgetColumns) (l := m.budgets) (f := budgetSpecRows m)
    (P := fun b => BudgetOk b ∧ PointsOk m) (g := TablesSpec.budgetSpecRows m (channelNames Point.media m))
    (fun b _ r => budgetSpecRows_ok) t
  refine (withGroups_ok (g := fun b : Budget => b.group) this).trans ?_
  by_cases h : m.budgets = []
  · simp [h, Groups]
  · simp [h, Groups]

theorem resultRows_eq (group : String) (c : Media) (x y : String × Cell) :
    resultRows group c.name x.2 y.2 c.outcomes = cells (TablesSpec.resultLines group c x y) := by
  simp only [resultRows, TablesSpec.resultLines, pick_eq, List.flatMap_cons, List.flatMap_nil, List.append_nil]
  cases TablesSpec.outcome true c.outcomes <;> cases TablesSpec.outcome false c.outcomes <;> rfl

/-- The columns of `budget_opt_results`. -/
def budgetResultColumns : List String := ["Group ID", "Channel", "Is Revenue KPI", "Optimal Spend",
  "Optimal Spend Share", "Optimal Impression Effectiveness", "Optimal ROI", "Optimal mROI", "Optimal CPC"]

theorem budgetResults_ok {m : Mmm} (u : UniqueNames m) (t : List (String × Frame)) : budgetResults m = .ok t ↔
    Groups m.budgets (·.group) ∧ t = if m.budgets = [] then [] else [("budget_opt_results",
      ⟨budgetResultColumns, cells (m.budgets.flatMap TablesSpec.budgetResultRows)⟩)] := by
  have e : (m.budgets.flatMap fun b => (channels b.optimized).flatMap fun p =>
      resultRows b.group p.1 (.num p.2.spend) (.num p.2.spendShare) p.2.outcomes) =
      cells (m.budgets.flatMap TablesSpec.budgetResultRows) := by
    rw [cells_flatMap, List.flatMap]
    congr 1
    apply List.map_congr_left
    intro b hb
    rw [channels_eq _ (u.budgetMedia b hb), TablesSpec.budgetResultRows, cells_flatMap, List.flatMap, List.map_map]
    congr 1
    apply List.map_congr_left
    intro c _
    exact resultRows_eq b.group c ("Optimal Spend", .num c.spend) ("Optimal Spend Share", .num c.spendShare)
  simp only [budgetResults, e]
  rw [withGroups_ok (P := True) (v := [("budget_opt_results",
      ⟨budgetResultColumns, cells (m.budgets.flatMap TablesSpec.budgetResultRows)⟩)])
      (by simp [budgetResultColumns, eq_comm])]
  by_cases h : m.budgets = []
  · simp [h, Groups]
  · simp [h, Groups]

theorem budgetCurves_ok {m : Mmm} (t : List (String × Frame)) : budgetCurves m = .ok t ↔
    Groups m.budgets (·.group) ∧ t = if m.budgets = [] then [] else [("response_curves",
      ⟨["Group ID", "Channel", "Spend", "Incremental Outcome"],
        cells (m.budgets.flatMap TablesSpec.curveRows)⟩)] := by
  have e : (m.budgets.flatMap fun b => b.optimized.flatMap fun c =>
        c.curve.map fun q => [Cell.str b.group, .str c.name, .num q.1, .num q.2]) =
      cells (m.budgets.flatMap TablesSpec.curveRows) := by
    simp only [cells, TablesSpec.curveRows, List.map_flatMap, List.map_map, Function.comp_def, List.map_cons,
      List.map_nil]
  simp only [budgetCurves, e]
  rw [withGroups_ok (P := True) (v := [("response_curves", ⟨["Group ID", "Channel", "Spend", "Incremental Outcome"],
      cells (m.budgets.flatMap TablesSpec.curveRows)⟩)]) (by simp [eq_comm])]
  by_cases h : m.budgets = []
  · simp [h, Groups]
  · simp [h, Groups]

/-! ### Reach and frequency -/

/-- What `rf_opt_specs` needs. -/
structure SpecOk (b : Reach) : Prop where
  start : b.interval.start.Valid
  stop : b.interval.stop.Valid
  objective : b.objective ≠ .unspecified
  given : b.bounds ≠ []
  same : ∀ n, n ∈ b.bounds.map (·.name) ↔ n ∈ b.frequencies.map Prod.fst
  max : ∀ c ∈ b.bounds, c.max ≠ 0

theorem same_iff (b : Reach) : ((∀ c ∈ b.bounds, c.name ∈ b.frequencies.map Prod.fst) ∧
    ∀ n ∈ b.frequencies.map Prod.fst, n ∈ b.bounds.map (·.name)) ↔
    ∀ n, n ∈ b.bounds.map (·.name) ↔ n ∈ b.frequencies.map Prod.fst := by
  constructor
  · rintro ⟨h1, h2⟩ n
    refine ⟨fun h => ?_, h2 n⟩
    obtain ⟨c, hc, rfl⟩ := List.mem_map.1 h
    exact h1 c hc
  · intro h
    exact ⟨fun c hc => (h _).1 (List.mem_map_of_mem hc), fun n hn => (h n).2 hn⟩

theorem get_rf {m : Mmm} {s t : CDate} (n : String) :
    (get ((channelNames Point.rf m).map fun ch => (ch, TablesSpec.spent Point.rf m s t ch)) n).getD 0 =
      TablesSpec.spent Point.rf m s t n := by
  rw [get_spends]
  by_cases h : n ∈ channelNames Point.rf m
  · simp [h]
  · rw [if_neg h]
    rw [mem_channelNames] at h
    exact (spent_absent h).symm

theorem reachSpecRows_ok {m : Mmm} {b : Reach} {r : List (List Cell)} : reachSpecRows m b = .ok r ↔
    (SpecOk b ∧ PointsOk m) ∧ r = cells (TablesSpec.reachSpecRows m b) := by
  simp only [reachSpecRows]
  cases hm : metricStr b.objective with
  | error e =>
    constructor
    · intro h; cases h
    · rintro ⟨⟨h, _⟩, _⟩
      rw [metricStr_ok.2 ⟨h.objective, rfl⟩] at hm
      cases hm
  | ok obj =>
    obtain ⟨ho, rfl⟩ := metricStr_ok.1 hm
    cases hd : toDates b.interval.start b.interval.stop with
    | error e =>
      constructor
      · intro h; cases h
      · rintro ⟨⟨h, _⟩, _⟩
        rw [toDates_ok.2 ⟨⟨h.start, h.stop⟩, rfl⟩] at hd
        cases hd
    | ok dates =>
      obtain ⟨hv, rfl⟩ := toDates_ok.1 hd
      cases hs : channelSpends Point.rf m b.interval.start b.interval.stop with
      | error e =>
        simp only [hs]
        constructor
        · intro h; cases h
        · rintro ⟨⟨_, h⟩, _⟩
          rw [channelSpends_ok.2 ⟨h, rfl⟩] at hs
          cases hs
      | ok spends =>
        obtain ⟨hp, rfl⟩ := channelSpends_ok.1 hs
        simp only [hs]
        by_cases hb : b.bounds = []
        · simp only [hb, List.isEmpty_nil, if_true]
          constructor
          · intro h; cases h
          · rintro ⟨⟨h, _⟩, _⟩
            exact absurd hb h.given
        · have hb' : b.bounds.isEmpty = false := by simpa using hb
          simp only [hb', Bool.false_eq_true, if_false]
          by_cases hsame : ∀ n, n ∈ b.bounds.map (·.name) ↔ n ∈ b.frequencies.map Prod.fst
          · rw [if_pos ((same_iff b).2 hsame), mapE_iff (P := fun c => c.max ≠ 0) (g := fun c => [.str b.group,
              .date b.interval.start, .date b.interval.stop, .str (TablesSpec.metricName b.objective),
              .num (some (TablesSpec.spent Point.rf m b.interval.start b.interval.stop c.name)),
              .str c.name, .num (some (if c.min = 0 then 1 else c.min)), .num (some c.max)])]
            · simp only [cells, TablesSpec.reachSpecRows, List.map_map, Function.comp_def, List.map_cons,
                List.map_nil]
              constructor
              · rintro ⟨h1, h2⟩
                exact ⟨⟨{ start := hv.1, stop := hv.2, objective := ho, given := hb, same := hsame, max := h1 }, hp⟩,
                  h2⟩
              · rintro ⟨⟨h1, _⟩, h2⟩
                exact ⟨h1.max, h2⟩
            · intro c _ x
              by_cases hc : c.max = 0
              · simp [reachSpecRow, hc]
              · simp only [reachSpecRow, hc, if_false, Except.ok.injEq, get_rf, ne_eq, not_false_eq_true, true_and]
                exact eq_comm
          · rw [if_neg fun x => hsame ((same_iff b).1 x)]
            constructor
            · intro h; cases h
            · rintro ⟨⟨h, _⟩, _⟩
              exact absurd h.same hsame

/-- The columns of `rf_opt_specs`. -/
def reachColumns : List String := ["Group ID", "Date Interval Start", "Date Interval End", "Objective",
  "Initial Channel Spend", "Channel", "Channel Frequency Min", "Channel Frequency Max"]

theorem reachSpecs_ok {m : Mmm} (t : List (String × Frame)) : reachSpecs m = .ok t ↔
    (Groups m.reaches (·.group) ∧ ∀ b ∈ m.reaches, SpecOk b ∧ PointsOk m) ∧
    t = if m.reaches = [] then [] else [("rf_opt_specs", ⟨reachColumns,
      cells (m.reaches.flatMap (TablesSpec.reachSpecRows m))⟩)] := by
  have := table_ok (name := "rf_opt_specs") (columns := reachColumns) (l := m.reaches) (f := reachSpecRows m)
    (P := fun b => SpecOk b ∧ PointsOk m) (g := TablesSpec.reachSpecRows m)
    (fun b _ r => reachSpecRows_ok) t
  refine (withGroups_ok (g := fun b : Reach => b.group) this).trans ?_
  by_cases h : m.reaches = []
  · simp [h, Groups]
  · simp [h, Groups]

/-- The channels with a frequency that are reported occur in the data. -/
def DataOk (m : Mmm) (b : Reach) : Prop := ∀ c ∈ TablesSpec.ordinary b.optimized,
  c.name ∈ b.frequencies.map Prod.fst → TablesSpec.Occurs Point.rf m c.name

theorem reachResultRow_ok {m : Mmm} {b : Reach} (h : (b.frequencies.map Prod.fst).Nodup) (c : Media)
    {r : List (List Cell)} : reachResultRow b ((channelNames Point.rf m).map fun ch =>
      (ch, TablesSpec.spent Point.rf m b.interval.start b.interval.stop ch)) (c.name, c) = .ok r ↔
      (c.name ∈ b.frequencies.map Prod.fst → TablesSpec.Occurs Point.rf m c.name) ∧
      r = cells ((b.frequencies.filter fun f => f.1 = c.name).flatMap fun f => TablesSpec.resultLines b.group c
        ("Initial Spend", .num (some (TablesSpec.spent Point.rf m b.interval.start b.interval.stop c.name)))
        ("Optimal Avg Frequency", .num f.2)) := by
  have hg : get (dictOf b.frequencies) c.name =
      ((b.frequencies.filter fun f => f.1 = c.name).head?).map Prod.snd := by
    rw [dictOf_nodup _ h]
    have := get_map b.frequencies Prod.fst Prod.snd c.name
    simpa using this
  simp only [reachResultRow, hg]
  by_cases hc : c.name ∈ b.frequencies.map Prod.fst
  · obtain ⟨f, hf, he⟩ := List.mem_map.1 hc
    have h1 := filter_one h hf
    rw [he] at h1
    simp only [h1, List.head?_cons, Option.map_some, get_spends, hc, true_implies]
    by_cases ho : c.name ∈ channelNames Point.rf m
    · have ho' := mem_channelNames.1 ho
      simp only [ho, ho', if_true, true_and, Except.ok.injEq, List.flatMap_cons, List.flatMap_nil, List.append_nil]
      rw [resultRows_eq b.group c
        ("Initial Spend", .num (some (TablesSpec.spent Point.rf m b.interval.start b.interval.stop c.name)))
        ("Optimal Avg Frequency", .num f.2)]
      exact eq_comm
    · have ho' : ¬ TablesSpec.Occurs Point.rf m c.name := fun x => ho (mem_channelNames.2 x)
      simp [ho, ho']
  · have h1 : (b.frequencies.filter fun f => f.1 = c.name) = [] := by
      rw [List.filter_eq_nil_iff]
      intro f hf
      simp only [decide_eq_true_eq]
      intro e
      exact hc (e ▸ List.mem_map_of_mem hf)
    simp only [h1, List.head?_nil, Option.map_none, Except.ok.injEq, hc, false_implies, true_and, List.flatMap_nil]
    exact eq_comm

theorem reachResultRows_ok {m : Mmm} (u : UniqueNames m) {b : Reach} (hb : b ∈ m.reaches) {r : List (List Cell)} :
    reachResultRows m b = .ok r ↔ ((b.interval.start.Valid ∧ b.interval.stop.Valid) ∧ PointsOk m ∧ DataOk m b) ∧
      r = cells (TablesSpec.reachResultRows m b) := by
  simp only [reachResultRows]
  cases hd : toDates b.interval.start b.interval.stop with
  | error e =>
    constructor
    · intro h; cases h
    · rintro ⟨⟨h, _⟩, _⟩
      rw [toDates_ok.2 ⟨h, rfl⟩] at hd
      cases hd
  | ok dates =>
    obtain ⟨hv, rfl⟩ := toDates_ok.1 hd
    cases hs : channelSpends Point.rf m b.interval.start b.interval.stop with
    | error e =>
      simp only [hs]
      constructor
      · intro h; cases h
      · rintro ⟨⟨_, h, _⟩, _⟩
        rw [channelSpends_ok.2 ⟨h, rfl⟩] at hs
        cases hs
    | ok spends =>
      obtain ⟨hp, rfl⟩ := channelSpends_ok.1 hs
      simp only [hs, channels_eq _ (u.reachMedia b hb)]
      have key := fun rows => mapE_iff (r := rows) (l := (TablesSpec.ordinary b.optimized).map fun c => (c.name, c))
        (f := reachResultRow b ((channelNames Point.rf m).map fun ch =>
          (ch, TablesSpec.spent Point.rf m b.interval.start b.interval.stop ch)))
        (P := fun p => p.2.name ∈ b.frequencies.map Prod.fst → TablesSpec.Occurs Point.rf m p.2.name)
        (g := fun p => cells ((b.frequencies.filter fun f => f.1 = p.2.name).flatMap fun f =>
          TablesSpec.resultLines b.group p.2
          ("Initial Spend", .num (some (TablesSpec.spent Point.rf m b.interval.start b.interval.stop p.2.name)))
          ("Optimal Avg Frequency", .num f.2))) (by
        intro p hp' x
        obtain ⟨c, _, rfl⟩ := List.mem_map.1 hp'
        exact reachResultRow_ok (u.frequencies b hb) c)
      have hD : (∀ a ∈ (TablesSpec.ordinary b.optimized).map fun c => (c.name, c),
          a.2.name ∈ b.frequencies.map Prod.fst → TablesSpec.Occurs Point.rf m a.2.name) ↔ DataOk m b := by
        simp only [List.forall_mem_map, DataOk]
      rw [hD] at key
      cases hm : mapE (reachResultRow b ((channelNames Point.rf m).map fun ch =>
          (ch, TablesSpec.spent Point.rf m b.interval.start b.interval.stop ch)))
          ((TablesSpec.ordinary b.optimized).map fun c => (c.name, c)) with
      | error e =>
        constructor
        · intro h; cases h
        · rintro ⟨⟨_, _, h⟩, _⟩
          rw [(key _).2 ⟨h, rfl⟩] at hm
          cases hm
      | ok rows =>
        obtain ⟨h, rfl⟩ := (key _).1 hm
        have e : cells (TablesSpec.reachResultRows m b) = _ := cells_flatMap _ _
        simp only [Except.ok.injEq, e, hv, hp, h, and_self, true_and, List.map_map, Function.comp_def]
        exact eq_comm

/-- The columns of `rf_opt_results`. -/
def reachResultColumns : List String := ["Group ID", "Channel", "Is Revenue KPI", "Initial Spend",
  "Optimal Avg Frequency", "Optimal Impression Effectiveness", "Optimal ROI", "Optimal mROI", "Optimal CPC"]

theorem reachResults_ok {m : Mmm} (u : UniqueNames m) (t : List (String × Frame)) : reachResults m = .ok t ↔
    (Groups m.reaches (·.group) ∧
      ∀ b ∈ m.reaches, (b.interval.start.Valid ∧ b.interval.stop.Valid) ∧ PointsOk m ∧ DataOk m b) ∧
    t = if m.reaches = [] then [] else [("rf_opt_results", ⟨reachResultColumns,
      cells (m.reaches.flatMap (TablesSpec.reachResultRows m))⟩)] := by
  have := table_ok (name := "rf_opt_results") (columns := reachResultColumns) (l := m.reaches)
    (f := reachResultRows m)
    (P := fun b => (b.interval.start.Valid ∧ b.interval.stop.Valid) ∧ PointsOk m ∧ DataOk m b)
    (g := TablesSpec.reachResultRows m)
    (fun b hb r => reachResultRows_ok u hb) t
  refine (withGroups_ok (g := fun b : Reach => b.group) this).trans ?_
  by_cases h : m.reaches = []
  · simp [h, Groups]
  · simp [h, Groups]

/-! ### All tables -/

/-- One table, if there is something to show. -/
def optional (b : Prop) [Decidable b] (name : String) (columns : List String) (rows : List Row) :
    List (String × Frame) := if b then [] else [(name, ⟨columns, cells rows⟩)]

/-- The table of the fit. -/
def fitTables (m : Mmm) : List (String × Frame) := match TablesSpec.chosenFit m with
  | none => []
  | some r => [("ModelFit", ⟨["Time", "Expected CI Low", "Expected CI High", "Expected", "Baseline", "Actual"],
      cells (TablesSpec.fitRows r)⟩)]

/-- The tables about fit and analyses. -/
def first (m : Mmm) : List (String × Frame) :=
  optional (m.fits = []) "ModelDiagnostics" ["Dataset", "R Squared", "MAPE", "wMAPE"]
    (TablesSpec.diagnosticsRows m) ++ fitTables m ++
  optional (m.analyses = []) "MediaOutcome" outcomeColumns
    (m.analyses.flatMap (TablesSpec.outcomeRows (TablesSpec.revenue m))) ++
  optional (m.analyses = []) "MediaSpend" spendColumns
    (m.analyses.flatMap (TablesSpec.spendRows (TablesSpec.revenue m))) ++
  optional (m.analyses = []) "MediaROI" roiColumns
    (m.analyses.flatMap (TablesSpec.roiRows (TablesSpec.revenue m)))

/-- The tables about budgets, without the grids. -/
def second (m : Mmm) : List (String × Frame) :=
  optional (m.budgets = []) "budget_opt_specs" budgetColumns
    (m.budgets.flatMap (TablesSpec.budgetSpecRows m (channelNames Point.media m))) ++
  optional (m.budgets = []) "budget_opt_results" budgetResultColumns
    (m.budgets.flatMap TablesSpec.budgetResultRows) ++
  optional (m.budgets = []) "response_curves" ["Group ID", "Channel", "Spend", "Incremental Outcome"]
    (m.budgets.flatMap TablesSpec.curveRows)

/-- The tables about frequencies, without the grids. -/
def third (m : Mmm) : List (String × Frame) :=
  optional (m.reaches = []) "rf_opt_specs" reachColumns (m.reaches.flatMap (TablesSpec.reachSpecRows m)) ++
  optional (m.reaches = []) "rf_opt_results" reachResultColumns (m.reaches.flatMap (TablesSpec.reachResultRows m))

/-- All tables. -/
def allTables (m : Mmm) : List (String × Frame) :=
  first m ++ budgetTables m ++ second m ++ reachTables m ++ third m

/-- Which grid a name belongs to. -/
def family (s : String) : ℕ :=
  if "budget_opt_grid_".toList.isPrefixOf s.toList then 1
  else if "rf_opt_grid_".toList.isPrefixOf s.toList then 2 else 0

theorem budget_toList (x : List Char) : (gridTable "budget_opt_grid" x).toList =
    "budget_opt_grid_".toList ++ underscores false x := by
  have : underscores false "budget_opt_grid".toList ++ ['_'] = "budget_opt_grid_".toList := by decide +kernel
  rw [← this]
  simp [gridTable]

theorem reach_toList (x : List Char) : (gridTable "rf_opt_grid" x).toList =
    "rf_opt_grid_".toList ++ underscores false x := by
  have : underscores false "rf_opt_grid".toList ++ ['_'] = "rf_opt_grid_".toList := by decide +kernel
  rw [← this]
  simp [gridTable]

theorem family_budget (x : List Char) : family (gridTable "budget_opt_grid" x) = 1 := by
  simp only [family]
  rw [if_pos]
  rw [budget_toList, List.isPrefixOf_iff_prefix]
  exact List.prefix_append _ _

theorem family_reach (x : List Char) : family (gridTable "rf_opt_grid" x) = 2 := by
  simp only [family]
  rw [if_neg, if_pos]
  · rw [reach_toList, List.isPrefixOf_iff_prefix]
    exact List.prefix_append _ _
  · rw [reach_toList]
    simp [List.isPrefixOf]

/-- The names which are not those of grids. -/
def fixedNames : List String := ["ModelDiagnostics", "ModelFit", "MediaOutcome", "MediaSpend", "MediaROI",
  "budget_opt_specs", "budget_opt_results", "response_curves", "rf_opt_specs", "rf_opt_results"]

theorem optional_sublist (b : Prop) [Decidable b] (name : String) (columns : List String) (rows : List Row) :
    ((optional b name columns rows).map Prod.fst).Sublist [name] := by
  simp only [optional]
  split <;> simp

theorem fitTables_sublist (m : Mmm) : ((fitTables m).map Prod.fst).Sublist ["ModelFit"] := by
  simp only [fitTables]
  split <;> simp

theorem fixed_sublist (m : Mmm) :
    ((first m ++ second m ++ third m).map Prod.fst).Sublist fixedNames := by
  simp only [first, second, third, List.map_append]
  have h := ((((((((((optional_sublist (m.fits = []) "ModelDiagnostics" ["Dataset", "R Squared", "MAPE", "wMAPE"]
    (TablesSpec.diagnosticsRows m)).append (fitTables_sublist m)).append
    (optional_sublist (m.analyses = []) "MediaOutcome" outcomeColumns
      (m.analyses.flatMap (TablesSpec.outcomeRows (TablesSpec.revenue m))))).append
    (optional_sublist (m.analyses = []) "MediaSpend" spendColumns
      (m.analyses.flatMap (TablesSpec.spendRows (TablesSpec.revenue m))))).append
    (optional_sublist (m.analyses = []) "MediaROI" roiColumns
      (m.analyses.flatMap (TablesSpec.roiRows (TablesSpec.revenue m))))).append
    (optional_sublist (m.budgets = []) "budget_opt_specs" budgetColumns
      (m.budgets.flatMap (TablesSpec.budgetSpecRows m (channelNames Point.media m))))).append
    (optional_sublist (m.budgets = []) "budget_opt_results" budgetResultColumns
      (m.budgets.flatMap TablesSpec.budgetResultRows))).append
    (optional_sublist (m.budgets = []) "response_curves" ["Group ID", "Channel", "Spend", "Incremental Outcome"]
      (m.budgets.flatMap TablesSpec.curveRows))).append
    (optional_sublist (m.reaches = []) "rf_opt_specs" reachColumns
      (m.reaches.flatMap (TablesSpec.reachSpecRows m)))).append
    (optional_sublist (m.reaches = []) "rf_opt_results" reachResultColumns
      (m.reaches.flatMap (TablesSpec.reachResultRows m))))
  simpa only [List.append_assoc, List.cons_append, List.nil_append, fixedNames] using h

theorem names_nodup (m : Mmm) : ((allTables m).map Prod.fst).Nodup ↔
    (m.budgets.Pairwise fun a b => ¬ TablesSpec.SameName a.gridName b.gridName) ∧
    m.reaches.Pairwise fun a b => ¬ TablesSpec.SameName a.gridName b.gridName := by
  have hb : ((budgetTables m).map Prod.fst).Nodup ↔
      m.budgets.Pairwise fun a b => ¬ TablesSpec.SameName a.gridName b.gridName := by
    simp only [budgetTables, List.map_map, Function.comp_def, List.Nodup, List.pairwise_map, ne_eq, gridTable_inj]
  have hr : ((reachTables m).map Prod.fst).Nodup ↔
      m.reaches.Pairwise fun a b => ¬ TablesSpec.SameName a.gridName b.gridName := by
    simp only [reachTables, List.map_map, Function.comp_def, List.Nodup, List.pairwise_map, ne_eq, gridTable_inj]
  have hp : ((allTables m).map Prod.fst).Perm (((first m ++ second m ++ third m).map Prod.fst) ++
      ((budgetTables m).map Prod.fst ++ (reachTables m).map Prod.fst)) := by
    simp only [allTables, List.map_append, ← List.map_append]
    apply List.Perm.trans (l₂ := ((first m ++ second m ++ third m) ++ (budgetTables m ++ reachTables m)).map Prod.fst)
    · apply List.Perm.map
      simp only [List.append_assoc]
      refine List.Perm.append_left _ ?_
      have h1 : (budgetTables m ++ (second m ++ (reachTables m ++ third m))).Perm
          ((second m ++ (reachTables m ++ third m)) ++ budgetTables m) := List.perm_append_comm
      refine h1.trans ?_
      simp only [List.append_assoc]
      refine List.Perm.append_left _ ?_
      have h2 : (reachTables m ++ (third m ++ budgetTables m)).Perm ((third m ++ budgetTables m) ++ reachTables m) :=
        List.perm_append_comm
      refine h2.trans ?_
      simp only [List.append_assoc]
      exact List.Perm.refl _
    · exact List.Perm.refl _
  rw [hp.nodup_iff, List.nodup_append, List.nodup_append, hb, hr]
  have hs := fixed_sublist m
  have h0 : ∀ s ∈ fixedNames, family s = 0 := by decide +kernel
  have h1 : ∀ s ∈ (budgetTables m).map Prod.fst, family s = 1 := by
    intro s hm
    simp only [budgetTables, List.map_map, List.mem_map, Function.comp] at hm
    obtain ⟨b, _, rfl⟩ := hm
    exact family_budget _
  have h2 : ∀ s ∈ (reachTables m).map Prod.fst, family s = 2 := by
    intro s hm
    simp only [reachTables, List.map_map, List.mem_map, Function.comp] at hm
    obtain ⟨b, _, rfl⟩ := hm
    exact family_reach _
  constructor
  · rintro ⟨_, ⟨h3, h4, _⟩, _⟩
    exact ⟨h3, h4⟩
  · rintro ⟨h3, h4⟩
    refine ⟨hs.nodup (by decide +kernel), ⟨h3, h4, ?_⟩, ?_⟩
    · intro a ha b hb e
      have := h1 a ha
      rw [e, h2 b hb] at this
      cases this
    · intro a ha b hb e
      have h5 := h0 a (hs.subset ha)
      rcases List.mem_append.1 hb with h | h
      · rw [e, h1 b h] at h5; cases h5
      · rw [e, h2 b h] at h5; cases h5

theorem convert_ok {m : Mmm} (u : UniqueNames m) (t : List (String × Frame)) :
    convert m = .ok t ↔ Accepted m ∧ t = allTables m := by
  have hm : ∀ l, mapE (fun f : Mmm → Except Err (List (String × Frame)) => f m) converters = .ok l ↔
      (∃ a1 a2 a3 a4 a5 a6 a7 a8 a9 a10 a11 a12, l = [a1, a2, a3, a4, a5, a6, a7, a8, a9, a10, a11, a12] ∧
        diagnostics m = .ok a1 ∧ fit m = .ok a2 ∧ mediaOutcome m = .ok a3 ∧ mediaSpend m = .ok a4 ∧
        mediaRoi m = .ok a5 ∧ budgetGrids m = .ok a6 ∧ budgetSpecs m = .ok a7 ∧ budgetResults m = .ok a8 ∧
        budgetCurves m = .ok a9 ∧ reachGrids m = .ok a10 ∧ reachSpecs m = .ok a11 ∧ reachResults m = .ok a12) := by
    intro l
    rw [mapE_ok]
    simp only [converters, List.forall₂_cons_left_iff, List.forall₂_nil_left_iff]
    constructor
    · rintro ⟨a1, _, h1, ⟨a2, _, h2, ⟨a3, _, h3, ⟨a4, _, h4, ⟨a5, _, h5, ⟨a6, _, h6, ⟨a7, _, h7, ⟨a8, _, h8, ⟨a9, _, h9,
        ⟨a10, _, h10, ⟨a11, _, h11, ⟨a12, _, h12, rfl, rfl⟩, rfl⟩, rfl⟩, rfl⟩, rfl⟩, rfl⟩, rfl⟩, rfl⟩, rfl⟩, rfl⟩,
        rfl⟩, rfl⟩
      exact ⟨a1, a2, a3, a4, a5, a6, a7, a8, a9, a10, a11, a12, rfl, h1, h2, h3, h4, h5, h6, h7, h8, h9, h10, h11,
        h12⟩
    · rintro ⟨a1, a2, a3, a4, a5, a6, a7, a8, a9, a10, a11, a12, rfl, h1, h2, h3, h4, h5, h6, h7, h8, h9, h10, h11,
        h12⟩
      exact ⟨a1, _, h1, ⟨a2, _, h2, ⟨a3, _, h3, ⟨a4, _, h4, ⟨a5, _, h5, ⟨a6, _, h6, ⟨a7, _, h7, ⟨a8, _, h8, ⟨a9, _, h9,
        ⟨a10, _, h10, ⟨a11, _, h11, ⟨a12, _, h12, rfl, rfl⟩, rfl⟩, rfl⟩, rfl⟩, rfl⟩, rfl⟩, rfl⟩, rfl⟩, rfl⟩, rfl⟩,
        rfl⟩, rfl⟩
  have hflat : [optional (m.fits = []) "ModelDiagnostics" ["Dataset", "R Squared", "MAPE", "wMAPE"]
        (TablesSpec.diagnosticsRows m), fitTables m,
      optional (m.analyses = []) "MediaOutcome" outcomeColumns
        (m.analyses.flatMap (TablesSpec.outcomeRows (TablesSpec.revenue m))),
      optional (m.analyses = []) "MediaSpend" spendColumns
        (m.analyses.flatMap (TablesSpec.spendRows (TablesSpec.revenue m))),
      optional (m.analyses = []) "MediaROI" roiColumns
        (m.analyses.flatMap (TablesSpec.roiRows (TablesSpec.revenue m))),
      budgetTables m,
      optional (m.budgets = []) "budget_opt_specs" budgetColumns
        (m.budgets.flatMap (TablesSpec.budgetSpecRows m (channelNames Point.media m))),
      optional (m.budgets = []) "budget_opt_results" budgetResultColumns
        (m.budgets.flatMap TablesSpec.budgetResultRows),
      optional (m.budgets = []) "response_curves" ["Group ID", "Channel", "Spend", "Incremental Outcome"]
        (m.budgets.flatMap TablesSpec.curveRows),
      reachTables m,
      optional (m.reaches = []) "rf_opt_specs" reachColumns (m.reaches.flatMap (TablesSpec.reachSpecRows m)),
      optional (m.reaches = []) "rf_opt_results" reachResultColumns
        (m.reaches.flatMap (TablesSpec.reachResultRows m))].flatten = allTables m := by
    simp only [List.flatten_cons, List.flatten_nil, List.append_nil, allTables, first, second, third,
      List.append_assoc]
  constructor
  · intro h
    simp only [convert] at h
    cases hl : mapE (fun f : Mmm → Except Err (List (String × Frame)) => f m) converters with
    | error e => rw [hl] at h; cases h
    | ok l =>
      rw [hl] at h
      obtain ⟨a1, a2, a3, a4, a5, a6, a7, a8, a9, a10, a11, a12, rfl, h1, h2, h3, h4, h5, h6, h7, h8, h9, h10, h11,
        h12⟩ := (hm l).1 hl
      obtain ⟨c3, e3⟩ := (mediaOutcome_ok u _).1 h3
      have hw : m.analyses ≠ [] → Whole m := by
        intro hne
        obtain ⟨a, ha⟩ := List.exists_mem_of_ne_nil _ hne
        exact (c3 a ha).1
      have e1 := (diagnostics_ok u _).1 h1
      obtain ⟨c2, e2⟩ := (fit_ok u _).1 h2
      obtain ⟨c4, e4⟩ := (mediaSpend_ok u hw _).1 h4
      obtain ⟨c5, e5⟩ := (mediaRoi_ok u hw _).1 h5
      obtain ⟨c6, e6⟩ := (budgetGrids_ok u _).1 h6
      obtain ⟨⟨_, c7⟩, e7⟩ := (budgetSpecs_ok _).1 h7
      obtain ⟨_, e8⟩ := (budgetResults_ok u _).1 h8
      obtain ⟨_, e9⟩ := (budgetCurves_ok _).1 h9
      obtain ⟨c10, e10⟩ := (reachGrids_ok u _).1 h10
      obtain ⟨⟨_, c11⟩, e11⟩ := (reachSpecs_ok _).1 h11
      obtain ⟨⟨_, c12⟩, e12⟩ := (reachResults_ok u _).1 h12
      subst e1 e2 e3 e4 e5 e6 e7 e8 e9 e10 e11 e12
      have hfl := hflat
      simp only [optional, fitTables] at hfl
      simp only [hfl] at h
      split at h
      · rename_i hn
        cases h
        obtain ⟨n1, n2⟩ := (names_nodup m).1 hn
        refine ⟨{ fit := c2, whole := hw, analyses := ?_, budgets := fun b hb => (c7 b hb).1, reaches := ?_,
                  points := ?_, budgetGroups := c6, reachGroups := c10, budgetNames := n1, reachNames := n2 }, rfl⟩
        · intro a ha
          exact { start := (c4 a ha).1.1, stop := (c4 a ha).1.2, base := (c3 a ha).2.2.2, media := (c5 a ha).2,
                  total := (c4 a ha).2 }
        · intro b hb
          have hs := (c11 b hb).1
          exact { start := hs.start, stop := hs.stop, objective := hs.objective, given := hs.given, same := hs.same,
                  max := hs.max, data := (c12 b hb).2.2 }
        · rintro (hne | hne)
          · obtain ⟨b, hb⟩ := List.exists_mem_of_ne_nil _ hne
            exact (c7 b hb).2
          · obtain ⟨b, hb⟩ := List.exists_mem_of_ne_nil _ hne
            exact (c11 b hb).2
      · cases h
  · rintro ⟨ok, rfl⟩
    have hpts : m.budgets ≠ [] ∨ m.reaches ≠ [] → PointsOk m := ok.points
    have hspec : ∀ b ∈ m.reaches, SpecOk b := by
      intro b hb
      have h := ok.reaches b hb
      exact ⟨h.start, h.stop, h.objective, h.given, h.same, h.max⟩
    have hl := (hm _).2 ⟨_, _, _, _, _, _, _, _, _, _, _, _, rfl,
      (diagnostics_ok u _).2 rfl, (fit_ok u _).2 ⟨ok.fit, rfl⟩,
      (mediaOutcome_ok u _).2 ⟨fun a ha => ⟨ok.whole (List.ne_nil_of_mem ha), (ok.analyses a ha).start,
        (ok.analyses a ha).stop, (ok.analyses a ha).base⟩, rfl⟩,
      (mediaSpend_ok u ok.whole _).2 ⟨fun a ha => ⟨⟨(ok.analyses a ha).start, (ok.analyses a ha).stop⟩,
        (ok.analyses a ha).total⟩, rfl⟩,
      (mediaRoi_ok u ok.whole _).2 ⟨fun a ha => ⟨⟨(ok.analyses a ha).start, (ok.analyses a ha).stop⟩,
        (ok.analyses a ha).media⟩, rfl⟩,
      (budgetGrids_ok u _).2 ⟨ok.budgetGroups, rfl⟩,
      (budgetSpecs_ok _).2 ⟨⟨ok.budgetGroups, fun b hb => ⟨ok.budgets b hb, hpts (.inl (List.ne_nil_of_mem hb))⟩⟩,
        rfl⟩,
      (budgetResults_ok u _).2 ⟨ok.budgetGroups, rfl⟩, (budgetCurves_ok _).2 ⟨ok.budgetGroups, rfl⟩,
      (reachGrids_ok u _).2 ⟨ok.reachGroups, rfl⟩,
      (reachSpecs_ok _).2 ⟨⟨ok.reachGroups, fun b hb => ⟨hspec b hb, hpts (.inr (List.ne_nil_of_mem hb))⟩⟩, rfl⟩,
      (reachResults_ok u _).2 ⟨⟨ok.reachGroups, fun b hb => ⟨⟨(ok.reaches b hb).start, (ok.reaches b hb).stop⟩,
        hpts (.inr (List.ne_nil_of_mem hb)), (ok.reaches b hb).data⟩⟩, rfl⟩⟩
    have hfl := hflat
    simp only [optional, fitTables] at hfl
    simp only [convert]
    rw [hl]
    simp only [hfl]
    rw [if_pos ((names_nodup m).2 ⟨ok.budgetNames, ok.reachNames⟩)]

/-- C92: **a message is accepted exactly if** the dates exist, there is an analysis `ALL`, every analysis has the
outcomes it needs, the optimizations are complete and the names of groups and grids are distinct. -/
theorem converts_iff {m : Mmm} (u : UniqueNames m) : (∃ t, convert m = .ok t) ↔ Accepted m := by
  constructor
  · rintro ⟨t, h⟩
    exact ((convert_ok u t).1 h).1
  · intro h
    exact ⟨_, (convert_ok u _).2 ⟨h, rfl⟩⟩

theorem table_at {m : Mmm} (u : UniqueNames m) {t : List (String × Frame)} (h : convert m = .ok t) {name : String}
    {columns : List String} {rows : List Row} (hm : (name, (⟨columns, cells rows⟩ : Frame)) ∈ allTables m)
    (hc : ∀ r ∈ rows, r.map Prod.fst = columns) : IsTable t name columns rows := by
  obtain ⟨ok, rfl⟩ := (convert_ok u t).1 h
  refine ⟨⟨⟨columns, cells rows⟩, ?_, rfl, rfl⟩, hc⟩
  exact filter_one (k := Prod.fst) ((names_nodup m).2 ⟨ok.budgetNames, ok.reachNames⟩) hm

theorem optional_mem {b : Prop} [Decidable b] (h : ¬ b) (name : String) (columns : List String) (rows : List Row) :
    (name, (⟨columns, cells rows⟩ : Frame)) ∈ optional b name columns rows := by
  simp [optional, h]

/-- C92: **which tables there are**: those of the parts which the message has, the grids under their names, and no
others. -/
theorem names_exact {m : Mmm} (u : UniqueNames m) {t : List (String × Frame)} (h : convert m = .ok t) :
    t.map Prod.fst =
      (if m.fits = [] then [] else ["ModelDiagnostics", "ModelFit"]) ++
      (if m.analyses = [] then [] else ["MediaOutcome", "MediaSpend", "MediaROI"]) ++
      (m.budgets.map fun b => gridTable "budget_opt_grid" b.gridName) ++
      (if m.budgets = [] then [] else ["budget_opt_specs", "budget_opt_results", "response_curves"]) ++
      (m.reaches.map fun b => gridTable "rf_opt_grid" b.gridName) ++
      (if m.reaches = [] then [] else ["rf_opt_specs", "rf_opt_results"]) := by
  obtain ⟨_, rfl⟩ := (convert_ok u t).1 h
  have hf : (fitTables m).map Prod.fst = if m.fits = [] then [] else ["ModelFit"] := by
    simp only [fitTables, TablesSpec.chosenFit]
    cases m.fits with
    | nil => rfl
    | cons a l =>
      simp only [reduceCtorEq, if_false, List.head?_cons]
      split
      · rename_i hx
        split at hx <;> simp at hx
      · rfl
  simp only [allTables, first, second, third, List.map_append, hf, optional, budgetTables, reachTables, List.map_map,
    Function.comp_def]
  split_ifs <;> simp

/-- C92: **the name of a grid table** is the prefix and the name of the grid with every run of white space turned into
one underscore. -/
theorem grid_name (x z : List Char) : (gridTable "budget_opt_grid" x = String.ofList ("budget_opt_grid_".toList ++ z) ↔
    TablesSpec.Normal x z) ∧
    (gridTable "rf_opt_grid" x = String.ofList ("rf_opt_grid_".toList ++ z) ↔ TablesSpec.Normal x z) := by
  rw [normal_iff]
  constructor
  · rw [← String.toList_inj, budget_toList]
    simp
  · rw [← String.toList_inj, reach_toList]
    simp

/-- C92: **the quality of the fit**. -/
theorem diagnostics_exact {m : Mmm} (u : UniqueNames m) {t : List (String × Frame)} (h : convert m = .ok t)
    (hne : m.fits ≠ []) : IsTable t "ModelDiagnostics" ["Dataset", "R Squared", "MAPE", "wMAPE"]
      (TablesSpec.diagnosticsRows m) := by
  apply table_at u h
  · simp only [allTables, first, List.mem_append]
    exact .inl (.inl (.inl (.inl (.inl (.inl (.inl (.inl (optional_mem hne _ _ _))))))))
  · intro r hr
    simp only [TablesSpec.diagnosticsRows, List.mem_map] at hr
    obtain ⟨_, _, rfl⟩ := hr
    rfl

/-- C92: **expected and actual outcome over time**. -/
theorem fit_exact {m : Mmm} (u : UniqueNames m) {t : List (String × Frame)} (h : convert m = .ok t) {f : Fit}
    (hf : TablesSpec.chosenFit m = some f) : IsTable t "ModelFit" ["Time", "Expected CI Low", "Expected CI High",
      "Expected", "Baseline", "Actual"] (TablesSpec.fitRows f) := by
  apply table_at u h
  · simp only [allTables, first, List.mem_append]
    exact .inl (.inl (.inl (.inl (.inl (.inl (.inl (.inr (by simp [fitTables, hf]))))))))
  · intro r hr
    simp only [TablesSpec.fitRows, List.mem_map] at hr
    obtain ⟨_, _, rfl⟩ := hr
    rfl

/-- C92: **the outcome of every channel and treatment in every analysis**. -/
theorem outcome_exact {m : Mmm} (u : UniqueNames m) {t : List (String × Frame)} (h : convert m = .ok t)
    (hne : m.analyses ≠ []) : IsTable t "MediaOutcome" ["Channel Index", "Channel", "Incremental Outcome",
      "Contribution Share", "Analysis Period", "Analysis Date Start", "Analysis Date End"]
      (m.analyses.flatMap (TablesSpec.outcomeRows (TablesSpec.revenue m))) := by
  apply table_at u h
  · simp only [allTables, first, List.mem_append]
    exact .inl (.inl (.inl (.inl (.inl (.inl (.inr (optional_mem hne _ _ _)))))))
  · intro r hr
    simp only [List.mem_flatMap, TablesSpec.outcomeRows, List.mem_append, List.mem_map] at hr
    obtain ⟨a, _, (⟨_, _, rfl⟩ | ⟨_, _, rfl⟩) | ⟨_, _, rfl⟩⟩ := hr <;> rfl

/-- C92: **the share in spend and in outcome of every channel in every analysis**. -/
theorem spend_exact {m : Mmm} (u : UniqueNames m) {t : List (String × Frame)} (h : convert m = .ok t)
    (hne : m.analyses ≠ []) : IsTable t "MediaSpend" ["Channel", "Share Value", "Label", "Analysis Period",
      "Analysis Date Start", "Analysis Date End"]
      (m.analyses.flatMap (TablesSpec.spendRows (TablesSpec.revenue m))) := by
  apply table_at u h
  · simp only [allTables, first, List.mem_append]
    exact .inl (.inl (.inl (.inl (.inl (.inr (optional_mem hne _ _ _))))))
  · intro r hr
    simp only [List.mem_flatMap, TablesSpec.spendRows, List.mem_cons, List.not_mem_nil, or_false] at hr
    obtain ⟨a, _, c, _, rfl | rfl⟩ := hr <;> rfl

/-- C92: **the returns of every channel in every analysis**. -/
theorem roi_exact {m : Mmm} (u : UniqueNames m) {t : List (String × Frame)} (h : convert m = .ok t)
    (hne : m.analyses ≠ []) : IsTable t "MediaROI" ["Channel", "Spend", "Effectiveness", "ROI", "ROI CI Low",
      "ROI CI High", "Marginal ROI", "Is Revenue KPI", "Analysis Period", "Analysis Date Start", "Analysis Date End"]
      (m.analyses.flatMap (TablesSpec.roiRows (TablesSpec.revenue m))) ∧
      ∀ a ∈ m.analyses, (TablesSpec.roiRows (TablesSpec.revenue m) a).length =
        (TablesSpec.ordinary a.media).length := by
  refine ⟨?_, ?_⟩
  · apply table_at u h
    · simp only [allTables, first, List.mem_append]
      exact .inl (.inl (.inl (.inl (.inr (optional_mem hne _ _ _)))))
    · intro r hr
      simp only [List.mem_flatMap, TablesSpec.roiRows] at hr
      obtain ⟨a, _, c, _, hr⟩ := hr
      split at hr
      · simp at hr
      · simp only [List.mem_cons, List.not_mem_nil, or_false] at hr
        subst hr
        rfl
  · intro a ha
    obtain ⟨ok, _⟩ := (convert_ok u t).1 h
    have hc := (ok.analyses a ha).media
    simp only [TablesSpec.roiRows, List.length_flatMap]
    have : ∀ l : List Media, (∀ c ∈ l, TablesSpec.Has (TablesSpec.revenue m) c.outcomes) →
        (l.map fun c => (match TablesSpec.outcome (TablesSpec.revenue m) c.outcomes with
          | none => []
          | some o => [[("Channel", Cell.str c.name), ("Spend", .num c.spend),
              ("Effectiveness", .num o.effectiveness), ("ROI", .num o.roi.value),
              ("ROI CI Low", .num (TablesSpec.bounds o.roi).1), ("ROI CI High", .num (TablesSpec.bounds o.roi).2),
              ("Marginal ROI", .num o.mroi), ("Is Revenue KPI", .flag (TablesSpec.revenue m))] ++
              TablesSpec.period a]).length).sum = l.length := by
      intro l hl
      induction l with
      | nil => rfl
      | cons c l ih =>
        have h1 := hl c List.mem_cons_self
        rw [← outcome_has, Option.isSome_iff_exists] at h1
        obtain ⟨o, ho⟩ := h1
        rw [List.map_cons, List.sum_cons, ih fun x hx => hl x (List.mem_cons_of_mem _ hx), ho, List.length_cons]
        simp only [List.length_cons, List.length_nil]
        omega
    exact this _ hc

/-- C92: **the grid of a budget**: one table for each result, with one line for each cell. -/
theorem budget_grid_exact {m : Mmm} (u : UniqueNames m) {t : List (String × Frame)} (h : convert m = .ok t)
    {b : Budget} (hb : b ∈ m.budgets) : IsTable t (gridTable "budget_opt_grid" b.gridName)
      ["Group ID", "Channel", "Spend", "Incremental Outcome"]
      (TablesSpec.gridRows b.group "Spend" "Incremental Outcome" b.grid) := by
  apply table_at u h
  · simp only [allTables, List.mem_append]
    exact .inl (.inl (.inl (.inr (List.mem_map.2 ⟨b, hb, rfl⟩))))
  · intro r hr
    simp only [TablesSpec.gridRows, List.mem_flatMap, List.mem_map] at hr
    obtain ⟨_, _, _, _, rfl⟩ := hr
    rfl

/-- C92: **the questions of the budget optimizations**: a line for each constrained channel, with its spend in the
data between the dates of the question. -/
theorem budget_specs_exact {m : Mmm} (u : UniqueNames m) {t : List (String × Frame)} (h : convert m = .ok t)
    (hne : m.budgets ≠ []) : ∃ media, TablesSpec.IsChannels Point.media m media ∧
      IsTable t "budget_opt_specs" ["Group ID", "Date Interval Start", "Date Interval End", "Analysis Period",
        "Objective", "Scenario Type", "Initial Channel Spend", "Target Metric Constraint", "Target Metric Value",
        "Channel", "Channel Spend Min", "Channel Spend Max"]
        (m.budgets.flatMap (TablesSpec.budgetSpecRows m media)) := by
  refine ⟨_, channelNames_isChannels _ m, table_at u h ?_ ?_⟩
  · simp only [allTables, second, List.mem_append]
    exact .inl (.inl (.inr (.inl (.inl (optional_mem hne _ _ _)))))
  · intro r hr
    simp only [TablesSpec.budgetSpecRows, List.mem_flatMap, List.mem_map] at hr
    obtain ⟨_, _, _, _, rfl⟩ := hr
    rfl

theorem resultLines_columns {group : String} {c : Media} {x y : String × Cell} {r : Row}
    (h : r ∈ TablesSpec.resultLines group c x y) : r.map Prod.fst = ["Group ID", "Channel", "Is Revenue KPI", x.1,
      y.1, "Optimal Impression Effectiveness", "Optimal ROI", "Optimal mROI", "Optimal CPC"] := by
  simp only [TablesSpec.resultLines, List.mem_flatMap] at h
  obtain ⟨_, _, h⟩ := h
  split at h
  · simp at h
  · simp only [List.mem_cons, List.not_mem_nil, or_false] at h
    subst h
    rfl

/-- C92: **the answers of the budget optimizations**: a line for each channel and each kind of outcome. -/
theorem budget_results_exact {m : Mmm} (u : UniqueNames m) {t : List (String × Frame)} (h : convert m = .ok t)
    (hne : m.budgets ≠ []) : IsTable t "budget_opt_results" ["Group ID", "Channel", "Is Revenue KPI",
      "Optimal Spend", "Optimal Spend Share", "Optimal Impression Effectiveness", "Optimal ROI", "Optimal mROI",
      "Optimal CPC"] (m.budgets.flatMap TablesSpec.budgetResultRows) := by
  apply table_at u h
  · simp only [allTables, second, List.mem_append]
    exact .inl (.inl (.inr (.inl (.inr (optional_mem hne _ _ _)))))
  · intro r hr
    simp only [TablesSpec.budgetResultRows, List.mem_flatMap] at hr
    obtain ⟨_, _, _, _, hr⟩ := hr
    exact resultLines_columns hr

/-- C92: **the response curves**. -/
theorem curves_exact {m : Mmm} (u : UniqueNames m) {t : List (String × Frame)} (h : convert m = .ok t)
    (hne : m.budgets ≠ []) : IsTable t "response_curves" ["Group ID", "Channel", "Spend", "Incremental Outcome"]
      (m.budgets.flatMap TablesSpec.curveRows) := by
  apply table_at u h
  · simp only [allTables, second, List.mem_append]
    exact .inl (.inl (.inr (.inr (optional_mem hne _ _ _))))
  · intro r hr
    simp only [TablesSpec.curveRows, List.mem_flatMap, List.mem_map] at hr
    obtain ⟨_, _, _, _, _, _, rfl⟩ := hr
    rfl

/-- C92: **the grid of the frequencies**. -/
theorem reach_grid_exact {m : Mmm} (u : UniqueNames m) {t : List (String × Frame)} (h : convert m = .ok t)
    {b : Reach} (hb : b ∈ m.reaches) : IsTable t (gridTable "rf_opt_grid" b.gridName)
      ["Group ID", "Channel", "Frequency", "ROI"] (TablesSpec.gridRows b.group "Frequency" "ROI" b.grid) := by
  apply table_at u h
  · simp only [allTables, List.mem_append]
    exact .inl (.inr (List.mem_map.2 ⟨b, hb, rfl⟩))
  · intro r hr
    simp only [TablesSpec.gridRows, List.mem_flatMap, List.mem_map] at hr
    obtain ⟨_, _, _, _, rfl⟩ := hr
    rfl

/-- C92: **the questions of the frequency optimizations**. -/
theorem reach_specs_exact {m : Mmm} (u : UniqueNames m) {t : List (String × Frame)} (h : convert m = .ok t)
    (hne : m.reaches ≠ []) : IsTable t "rf_opt_specs" ["Group ID", "Date Interval Start", "Date Interval End",
      "Objective", "Initial Channel Spend", "Channel", "Channel Frequency Min", "Channel Frequency Max"]
      (m.reaches.flatMap (TablesSpec.reachSpecRows m)) := by
  apply table_at u h
  · simp only [allTables, third, List.mem_append]
    exact .inr (.inl (optional_mem hne _ _ _))
  · intro r hr
    simp only [TablesSpec.reachSpecRows, List.mem_flatMap, List.mem_map] at hr
    obtain ⟨_, _, _, _, rfl⟩ := hr
    rfl

/-- C92: **the answers of the frequency optimizations**. -/
theorem reach_results_exact {m : Mmm} (u : UniqueNames m) {t : List (String × Frame)} (h : convert m = .ok t)
    (hne : m.reaches ≠ []) : IsTable t "rf_opt_results" ["Group ID", "Channel", "Is Revenue KPI", "Initial Spend",
      "Optimal Avg Frequency", "Optimal Impression Effectiveness", "Optimal ROI", "Optimal mROI", "Optimal CPC"]
      (m.reaches.flatMap (TablesSpec.reachResultRows m)) := by
  apply table_at u h
  · simp only [allTables, third, List.mem_append]
    exact .inr (.inr (optional_mem hne _ _ _))
  · intro r hr
    simp only [TablesSpec.reachResultRows, List.mem_flatMap] at hr
    obtain ⟨_, _, _, _, _, _, hr⟩ := hr
    exact resultLines_columns hr

/-- C92: **the shares in the outcome add up to one**: for every analysis whose channels all have a share. -/
theorem shares_sum {m : Mmm} (u : UniqueNames m) {t : List (String × Frame)} (h : convert m = .ok t) {a : Analysis}
    (ha : a ∈ m.analyses) (hne : TablesSpec.ordinary a.media ≠ [])
    (hs : ∀ c ∈ TablesSpec.ordinary a.media, ∀ o, TablesSpec.outcome (TablesSpec.revenue m) c.outcomes = some o →
      o.share ≠ none) :
    ∃ q : Media → ℚ, (∀ c ∈ TablesSpec.ordinary a.media,
      TablesSpec.portion (TablesSpec.revenue m) a c = some (q c)) ∧
      ((TablesSpec.ordinary a.media).map q).sum = 1 := by
  obtain ⟨ok, _⟩ := (convert_ok u t).1 h
  have hm := (ok.analyses a ha).media
  have ht := (ok.analyses a ha).total hne
  generalize TablesSpec.revenue m = rev at *
  have hx : ∃ x : Media → ℚ, ∀ c ∈ TablesSpec.ordinary a.media,
      ∃ o, TablesSpec.outcome rev c.outcomes = some o ∧ o.share = some (x c) := by
    refine ⟨fun c => ((TablesSpec.outcome rev c.outcomes).bind (·.share)).getD 0, fun c hc => ?_⟩
    have h1 := hm c hc
    rw [← outcome_has, Option.isSome_iff_exists] at h1
    obtain ⟨o, ho⟩ := h1
    refine ⟨o, ho, ?_⟩
    have h2 := hs c hc o ho
    cases hso : o.share with
    | none => exact absurd hso h2
    | some y => simp [ho, hso]
  obtain ⟨x, hx⟩ := hx
  have hk : TablesSpec.knownShares rev a = (TablesSpec.ordinary a.media).map fun c => some (x c) := by
    simp only [TablesSpec.knownShares]
    have : ∀ l : List Media, (∀ c ∈ l, ∃ o, TablesSpec.outcome rev c.outcomes = some o ∧ o.share = some (x c)) →
        (l.filterMap fun c => TablesSpec.outcome rev c.outcomes).map (·.share) = l.map fun c => some (x c) := by
      intro l hl
      induction l with
      | nil => rfl
      | cons c l ih =>
        obtain ⟨o, ho, hs⟩ := hl c List.mem_cons_self
        simp only [List.filterMap_cons, ho, List.map_cons, hs, ih fun y hy => hl y (List.mem_cons_of_mem _ hy)]
    exact this _ hx
  have htot : TablesSpec.total rev a = some ((TablesSpec.ordinary a.media).map x).sum := by
    simp only [TablesSpec.total, hk]
    rw [if_neg (by simp)]
    simp [List.filterMap_map, Function.comp_def]
  rw [htot] at ht
  have h0 : ((TablesSpec.ordinary a.media).map x).sum ≠ 0 := fun e => ht (by rw [e])
  refine ⟨fun c => x c / ((TablesSpec.ordinary a.media).map x).sum, fun c hc => ?_, ?_⟩
  · obtain ⟨o, ho, hso⟩ := hx c hc
    simp [TablesSpec.portion, htot, ho, hso]
  · have : ∀ (l : List Media) (s : ℚ), (l.map fun c => x c / s).sum = (l.map x).sum / s := by
      intro l s
      induction l with
      | nil => simp
      | cons c l ih => simp [ih, add_div]
    rw [this, div_self h0]

/-! ### A concrete message -/

/-- An outcome with these numbers. -/
def out (k : Kpi) (c s : ℚ) : Outcome :=
  ⟨k, some c, some s, some (c / 10), ⟨some (c / 4), [(some (c / 5), some (c / 3))]⟩, some (c / 8), some (4 / c)⟩

/-- The period of the message. -/
def whole : Interval := ⟨⟨2024, 1, 1⟩, ⟨2024, 1, 15⟩, "ALL"⟩

/-- The analysis of the whole period. -/
def analysis : Analysis := ⟨whole,
  [⟨"tv", some 30, some (3 / 5), [out .revenue 60 (1 / 5)], []⟩,
    ⟨"video", some 20, some (2 / 5), [out .nonRevenue 7 (1 / 2), out .revenue 90 (3 / 10)], []⟩,
    ⟨"All Channels", some 50, some 1, [out .revenue 150 (1 / 2)], []⟩],
  [⟨"promo", [out .revenue 15 (1 / 20)]⟩, ⟨"baseline", [out .revenue 135 (9 / 20)]⟩]⟩

/-- A budget for the first week. -/
def budget : Budget := ⟨"g1", ⟨⟨2024, 1, 1⟩, ⟨2024, 1, 8⟩, "W1"⟩, .roi, .flexible 90 [(.mroi, 2)],
  [⟨"tv", 5, 60⟩, ⟨"video", 0, 30⟩],
  [⟨"tv", some 25, some (5 / 8), [out .revenue 55 (1 / 5), out .nonRevenue 5 (1 / 5)], [(some 0, some 0), (some 25, some 55)]⟩,
    ⟨"video", some 15, some (3 / 8), [out .revenue 80 (3 / 10)], [(some 15, some 80)]⟩],
  "first  week".toList, [("tv", [(some 0, some 0), (some 25, some 55)]), ("video", [(some 15, some 80)])]⟩

/-- The frequencies for the first week. -/
def reach : Reach := ⟨"g1", ⟨⟨2024, 1, 1⟩, ⟨2024, 1, 8⟩, "W1"⟩, .kpi, [⟨"video", 0, 9⟩], [("video", some 3)],
  [⟨"tv", some 12, some (1 / 2), [out .revenue 55 (1 / 5)], []⟩,
    ⟨"video", some 12, some (1 / 2), [out .revenue 85 (3 / 10)], []⟩],
  "first  week".toList, [("video", [(some 1, some 4), (some 3, some 5)])]⟩

/-- The data: two weeks. -/
def points : List Point := [⟨⟨2024, 1, 1⟩, ⟨2024, 1, 8⟩, [("tv", 14)], [("video", 12)]⟩,
  ⟨⟨2024, 1, 8⟩, ⟨2024, 1, 15⟩, [("tv", 16)], [("video", 8)]⟩]

/-- A message with all parts. -/
def message : Mmm := ⟨points,
  [⟨"Train", [], some (1 / 2), some (1 / 10), some (1 / 9)⟩,
    ⟨"All Data", [⟨⟨2024, 1, 1⟩, ⟨some 140, [(some 120, some 160)]⟩, some 70, some 150⟩,
      ⟨⟨2024, 1, 8⟩, ⟨some 130, []⟩, some 65, some 120⟩], some (9 / 10), some (1 / 5), some (1 / 4)⟩],
  [analysis], [budget], [reach]⟩

theorem message_unique : UniqueNames message where
  fits := by decide +kernel
  tags := by decide +kernel
  media := by decide +kernel
  nonMedia := by decide +kernel
  budgetGrid := by decide +kernel
  budgetMedia := by decide +kernel
  reachGrid := by decide +kernel
  reachMedia := by decide +kernel
  frequencies := by decide +kernel

/-- Whether a conversion succeeds and satisfies a test. -/
def succeeds (r : Except Err (List (String × Frame))) (test : List (String × Frame) → Bool) : Bool := match r with
  | .ok t => test t
  | .error _ => false

/-- Whether a conversion fails with an error. -/
def failsWith (r : Except Err (List (String × Frame))) (e : Err) : Bool := match r with
  | .ok _ => false
  | .error e' => decide (e' = e)

/-- The rows of a table. -/
def rowsOf (t : List (String × Frame)) (name : String) : Option (List (List Cell)) :=
  (get t name).map (·.rows)

/-- The message is converted; the spend of the first week and the shares are as expected. -/
theorem message_converts : ∃ t, convert message = .ok t := by
  have h : succeeds (convert message) (fun _ => true) = true := by decide +kernel
  cases hc : convert message with
  | ok t => exact ⟨t, rfl⟩
  | error e => rw [hc] at h; cases h

example : ∃ t, convert message = .ok t ∧ t.length = 12 ∧
    (∃ r ∈ TablesSpec.budgetSpecRows message ["tv"] budget, ("Initial Channel Spend", Cell.num (some 14)) ∈ r ∧
      ("Channel", Cell.str "tv") ∈ r) ∧
    ((TablesSpec.ordinary analysis.media).map (TablesSpec.portion true analysis)) = [some (2 / 5), some (3 / 5)] := by
  obtain ⟨t, ht⟩ := message_converts
  refine ⟨t, ht, ?_, ?_, by decide +kernel⟩
  · have := congrArg List.length (names_exact message_unique ht)
    rw [List.length_map] at this
    rw [this]
    decide +kernel
  · refine ⟨_, List.mem_cons_self, ?_, ?_⟩ <;> decide +kernel

example : succeeds (convert message) (fun t =>
    decide (rowsOf t "MediaSpend" = some [
      [.str "tv", .num (some (3 / 5)), .str "Spend Share", .str "ALL", .date ⟨2024, 1, 1⟩, .date ⟨2024, 1, 15⟩],
      [.str "tv", .num (some (2 / 5)), .str "Revenue Share", .str "ALL", .date ⟨2024, 1, 1⟩, .date ⟨2024, 1, 15⟩],
      [.str "video", .num (some (2 / 5)), .str "Spend Share", .str "ALL", .date ⟨2024, 1, 1⟩, .date ⟨2024, 1, 15⟩],
      [.str "video", .num (some (3 / 5)), .str "Revenue Share", .str "ALL", .date ⟨2024, 1, 1⟩,
        .date ⟨2024, 1, 15⟩]]) &&
    decide (rowsOf t "budget_opt_specs" = some [
      [.str "g1", .date ⟨2024, 1, 1⟩, .date ⟨2024, 1, 8⟩, .str "W1", .str "ROI", .str "Flexible", .num (some 14),
        .str "Marginal ROI", .num (some 2), .str "tv", .num (some 5), .num (some 60)],
      [.str "g1", .date ⟨2024, 1, 1⟩, .date ⟨2024, 1, 8⟩, .str "W1", .str "ROI", .str "Flexible", .num (some 12),
        .str "Marginal ROI", .num (some 2), .str "video", .num (some 0), .num (some 30)]]) &&
    decide (rowsOf t "rf_opt_specs" = some [
      [.str "g1", .date ⟨2024, 1, 1⟩, .date ⟨2024, 1, 8⟩, .str "KPI", .num (some 12), .str "video", .num (some 1),
        .num (some 9)]]) &&
    decide (rowsOf t "budget_opt_grid_first_week" = some [
      [.str "g1", .str "tv", .num (some 0), .num (some 0)], [.str "g1", .str "tv", .num (some 25), .num (some 55)],
      [.str "g1", .str "video", .num (some 15), .num (some 80)]])) = true := by decide +kernel

/-! ### Where the tables fall short -/

/-- C92, finding: a budget without constraints is shown with one line for each media channel, as if it had no reach and
frequency channels, although these take part in the optimization and have spend. -/
theorem implicit_constraints_omit_reach {m : Mmm} {media : List String}
    (hc : TablesSpec.IsChannels Point.media m media) {b : Budget} (hb : b.bounds = []) {n : String}
    (hn : ¬ TablesSpec.Occurs Point.media m n) :
    ∀ r ∈ TablesSpec.budgetSpecRows m media b, ("Channel", Cell.str n) ∉ r := by
  intro r hr hm
  simp only [TablesSpec.budgetSpecRows, TablesSpec.constraints, hb, if_true, List.map_map, List.mem_map,
    Function.comp] at hr
  obtain ⟨ch, hch, rfl⟩ := hr
  simp only [List.mem_cons, Prod.mk.injEq, List.not_mem_nil, or_false] at hm
  have e : ch = n := by
    rcases hm with h | h | h | h | h | h | h | h | h | h | h | h
    all_goals first
      | exact absurd h.1 (by decide)
      | exact (Cell.str.inj h.2).symm
  exact hn ((hc.2 n).1 (e ▸ hch))

example : ∃ n, ¬ TablesSpec.Occurs Point.media message n ∧ TablesSpec.Occurs Point.rf message n ∧
    TablesSpec.spent Point.rf message budget.interval.start budget.interval.stop n = 12 := by
  refine ⟨"video", ?_, ⟨_, List.mem_cons_self, _, List.mem_cons_self, rfl⟩, by decide +kernel⟩
  rintro ⟨p, hp, v, hv, e⟩
  have : ∀ p ∈ message.points, ∀ v ∈ p.media, v.1 ≠ "video" := by decide +kernel
  exact this p hp v hv e

/-- The message in which a channel only has an outcome of the other kind. -/
def lacking : Mmm := { message with analyses := [{ analysis with media :=
  [⟨"tv", some 30, some (3 / 5), [out .nonRevenue 60 (1 / 5)], []⟩,
    ⟨"video", some 20, some (2 / 5), [out .revenue 90 (3 / 10)], []⟩] }] }

/-- C92, finding: a channel without an outcome of the kind of the baseline is NaN, with a warning, in two tables; but
the table of returns raises, so that no table at all is made. -/
theorem missing_outcome_refused : succeeds (mediaOutcome lacking) (fun _ => true) = true ∧
    succeeds (mediaSpend lacking) (fun _ => true) = true ∧ failsWith (convert lacking) .noOutcome = true := by
  decide +kernel

/-- The message in which the shares of the channels cancel. -/
def cancelling : Mmm := { message with analyses := [{ analysis with media :=
  [⟨"tv", some 30, some (3 / 5), [out .revenue 60 (1 / 5)], []⟩,
    ⟨"video", some 20, some (2 / 5), [out .revenue (-60) (-1 / 5)], []⟩] }] }

/-- C92, finding: if the shares add up to zero the conversion ends with a division by zero. -/
theorem zero_total_fails : UniqueNames cancelling ∧ failsWith (convert cancelling) .zeroDivision = true := by
  refine ⟨?_, by decide +kernel⟩
  constructor <;> decide +kernel

/-- The message with two budgets whose grids have similar names. -/
def similar : Mmm := { message with budgets :=
  [{ budget with gridName := "first week".toList }, { budget with group := "g2", gridName := "first_week".toList }] }

/-- C92, finding: two grids whose names differ only in white space and underscores make the conversion fail, although
the names and groups are distinct. -/
theorem similar_names_refused : (similar.budgets.map (·.gridName)).Nodup ∧ (similar.budgets.map (·.group)).Nodup ∧
    failsWith (convert similar) .duplicateTable = true := by decide +kernel

/-- C92, finding: the line of all channels has an index between that of the baseline and those of the channels, so
that it is sorted second and not last. -/
theorem all_channels_second (rev : Bool) (a : Analysis) {c d : Media} (hc : c ∈ a.media)
    (hd : d ∈ TablesSpec.ordinary a.media) (he : c.name = "All Channels") :
    TablesSpec.outcomeLine rev a 1 c.name c.outcomes ∈ TablesSpec.outcomeRows rev a ∧
      TablesSpec.outcomeLine rev a 2 d.name d.outcomes ∈ TablesSpec.outcomeRows rev a := by
  simp only [TablesSpec.outcomeRows, List.mem_append, List.mem_map]
  have hd' := List.mem_filter.1 hd
  have hn : d.name ≠ "All Channels" := by simpa using hd'.2
  refine ⟨.inl (.inr ⟨c, hc, by rw [if_pos he]⟩), .inl (.inr ⟨d, hd'.1, by rw [if_neg hn]⟩)⟩

/-- The message whose only analysis is for a quarter. -/
def untagged : Mmm := { message with analyses := [{ analysis with interval := { whole with tag := "2024 Q1" } }] }

/-- C92, finding: without an analysis `ALL` the conversion ends with a `KeyError`. -/
theorem needs_all : failsWith (convert untagged) .key = true := by decide +kernel

/-- The message with a budget whose scenario has no target. -/
def untargeted : Mmm := { message with budgets := [{ budget with scenario := .flexible 90 [] }] }

/-- C92, finding: a flexible budget without a target ends with an `IndexError`. -/
theorem needs_target : failsWith (convert untargeted) .index = true := by decide +kernel

end Verif.Tables.Props

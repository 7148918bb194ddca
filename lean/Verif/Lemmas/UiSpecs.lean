import Verif.Spec.UiSpecs
import Verif.Props.DatedSpec
import Verif.Props.DateBuckets
import Mathlib.Tactic

/-! # Lemmas about the specs behind the dashboard -/

namespace Verif.UiSpecs

open Verif Verif.Calendar Verif.UiSpecs.Wanted
open Verif.DateBuckets (Cadence)
open Verif.BudgetProto (BSpec Scenario)
open Verif.ReachProto (RSpec)
open Verif.MarketingProto (MSpec)
open Verif.TimeCoordinates.Spec (Increasing Within Next days)

theorem mapE_iff {α β : Type} {f : α → Except Err β} {P : α → Prop} {g : α → β} {l : List α} {r : List β}
    (h : ∀ a ∈ l, ∀ b, f a = .ok b ↔ P a ∧ b = g a) :
    mapE f l = .ok r ↔ (∀ a ∈ l, P a) ∧ r = l.map g := by
  induction l generalizing r with
  | nil => simp [mapE, eq_comm]
  | cons a l ih =>
    simp only [mapE]
    cases hf : f a with
    | error e =>
      have hn : ¬ P a := by
        intro hp
        have := (h a (by simp) (g a)).2 ⟨hp, rfl⟩
        rw [hf] at this; cases this
      simp [hn]
    | ok b =>
      obtain ⟨hp, hb⟩ := (h a (by simp) b).1 hf
      have ih' : ∀ r, mapE f l = .ok r ↔ (∀ a ∈ l, P a) ∧ r = l.map g := fun r =>
        ih (fun a ha => h a (by simp [ha]))
      cases hm : mapE f l with
      | error e =>
        have hn : ¬ ∀ a ∈ l, P a := by
          intro hall
          have := (ih' (l.map g)).2 ⟨hall, rfl⟩
          rw [hm] at this; cases this
        simp only [List.mem_cons, forall_eq_or_imp, reduceCtorEq, false_iff]
        intro hc; exact hn hc.1.2
      | ok r' =>
        obtain ⟨h1, h2⟩ := (ih' r').1 hm
        simp only [List.mem_cons, forall_eq_or_imp, Except.ok.injEq, List.map_cons, hp, h2, hb, true_and]
        constructor
        · intro h; exact ⟨h1, h.symm⟩
        · intro h; exact h.2.symm

/-! ### Dates -/

section Dates

variable {dates : List CDate} {k : ℕ}

theorem selected_eq (hne : dates ≠ []) (hv : ∀ d ∈ dates, d.Valid) (hk : DatedSpec.interval dates = .ok k)
    {d : DatedSpec.Spec} (he : ∀ b ∈ d.stop, b.Valid) {r} (h : DatedSpec.selectedTimes dates d = .ok r) :
    r.getD dates = selected dates k d := by
  obtain ⟨e, hc, hx, hn, hs⟩ := DatedSpec.Props.selected_ok hk he h
  rw [TimeCoordinates.Props.selection_exact dates hne hv d.start e r hx]
  apply List.filter_congr
  intro x hx
  rw [decide_eq_decide]
  unfold Within
  refine and_congr_right fun _ => ?_
  cases e with
  | none => rw [hn.2 rfl]; simp
  | some c =>
    cases hst : d.stop with
    | none => exact absurd (hn.1 hst) (by simp)
    | some b =>
      have := (hs c rfl b hst).2.1
      simp only [Option.mem_def, Option.some.injEq, forall_eq']
      omega

/-- The range of dates that is broken down. -/
def rangeOf (dates : List CDate) (k : ℕ) (d : DatedSpec.Spec) : List CDate :=
  selected dates k d ++
    [d.stop.getD (DatedSpec.plusDays ((selected dates k d).getLastD ⟨1, 1, 1⟩) k)]

theorem enumerate_ok (hne : dates ≠ []) (hv : ∀ d ∈ dates, d.Valid)
    (hk : DatedSpec.interval dates = .ok k) {d : DatedSpec.Spec} (he : ∀ b ∈ d.stop, b.Valid) (l : List CDate) :
    enumerateDates dates d = .ok l ↔ Resolves dates k d ∧ l = rangeOf dates k d := by
  have hr := DatedSpec.Props.resolves_iff dates hne hv k hk d he
  simp only [enumerateDates, rangeOf]
  cases hs : DatedSpec.selectedTimes dates d with
  | error e =>
    have : ¬ Resolves dates k d := by
      intro hc
      obtain ⟨r, hr'⟩ := hr.2 hc
      rw [hs] at hr'; cases hr'
    simp [this]
  | ok r =>
    have h1 : Resolves dates k d := hr.1 ⟨r, hs⟩
    rw [← selected_eq hne hv hk he hs]
    cases hst : d.stop with
    | none => simp [hk, h1, eq_comm]
    | some b => simp [h1, eq_comm]

theorem selected_mem {d : DatedSpec.Spec} {x : CDate} (h : x ∈ selected dates k d) : x ∈ dates :=
  (List.mem_filter.1 h).1

theorem selected_ne (hne : dates ≠ []) (hv : ∀ d ∈ dates, d.Valid) (hinc : Increasing dates)
    (hk : DatedSpec.interval dates = .ok k) {d : DatedSpec.Spec} (he : ∀ b ∈ d.stop, b.Valid)
    (h : Resolves dates k d) : selected dates k d ≠ [] := by
  have : ∃ x ∈ dates, (∀ a ∈ d.start, a.ordinal ≤ x.ordinal) ∧ ∀ b ∈ d.stop, x.ordinal + k ≤ b.ordinal := by
    obtain ⟨h1, h2, h3⟩ := h
    cases hst : d.stop with
    | some b =>
      obtain ⟨x, hx, hxb⟩ := h2 b hst
      refine ⟨x, hx, ?_, by simp [hxb]⟩
      intro a ha
      have := h3 a ha b hst
      omega
    | none =>
      cases hsa : d.start with
      | some a => exact ⟨a, h1 a hsa, by simp, by simp⟩
      | none =>
        cases dates with
        | nil => exact absurd rfl hne
        | cons x t => exact ⟨x, by simp, by simp, by simp⟩
  obtain ⟨x, hx, h1, h2⟩ := this
  exact List.ne_nil_of_mem (List.mem_filter.2 ⟨hx, by simpa using ⟨h1, h2⟩⟩)

/-- The end of the range comes `k` days after the last selected date. -/
theorem rangeOf_spec (hne : dates ≠ []) (hv : ∀ d ∈ dates, d.Valid) (hinc : Increasing dates)
    (hk : DatedSpec.interval dates = .ok k) {d : DatedSpec.Spec} (he : ∀ b ∈ d.stop, b.Valid)
    (h : Resolves dates k d) : IsRange dates k d (rangeOf dates k d) := by
  have hsn := selected_ne hne hv hinc hk he h
  obtain ⟨r, hr⟩ := (DatedSpec.Props.resolves_iff dates hne hv k hk d he).2 h
  have hse := selected_eq hne hv hk he hr
  have hends := (DatedSpec.Props.selected_ends hne hv hinc hk he hr ⟨1, 1, 1⟩).2
  rw [hse] at hends
  have hlast : (selected dates k d).getLastD ⟨1, 1, 1⟩ = (selected dates k d).getLast hsn := by
    rw [List.getLastD_eq_getLast?, List.getLast?_eq_some_getLast hsn, Option.getD_some]
  have hlv : ((selected dates k d).getLast hsn).Valid := hv _ (selected_mem (List.getLast_mem hsn))
  obtain ⟨p1, p2⟩ := DatedSpec.Props.plusDays_spec hlv k
  refine ⟨d.stop.getD (DatedSpec.plusDays ((selected dates k d).getLastD ⟨1, 1, 1⟩) k), ?_, rfl, ?_, ?_⟩
  · cases hst : d.stop with
    | some b => exact he b hst
    | none => rw [Option.getD_none, hlast]; exact p1
  · intro b hb
    rw [Option.mem_def] at hb
    simp [hb]
  · intro x hx
    rw [List.getLast?_eq_some_getLast hsn, Option.mem_def, Option.some.injEq] at hx
    subst hx
    cases hst : d.stop with
    | none => rw [Option.getD_none, hlast]; exact p2
    | some b =>
      rw [hst] at hends
      simp only [Option.getD_some] at hends ⊢
      rw [← hends, hlast, p2]

theorem rangeOf_increasing (hne : dates ≠ []) (hv : ∀ d ∈ dates, d.Valid) (hinc : Increasing dates)
    (hpos : 0 < k) (hk : DatedSpec.interval dates = .ok k) {d : DatedSpec.Spec} (he : ∀ b ∈ d.stop, b.Valid)
    (h : Resolves dates k d) :
    rangeOf dates k d ≠ [] ∧ (∀ x ∈ rangeOf dates k d, x.Valid) ∧ Increasing (rangeOf dates k d) := by
  have hsn := selected_ne hne hv hinc hk he h
  obtain ⟨e, hev, hl, -, h3⟩ := rangeOf_spec hne hv hinc hk he h
  rw [hl]
  have hsi : Increasing (selected dates k d) := List.Pairwise.sublist List.filter_sublist hinc
  refine ⟨by simp, ?_, ?_⟩
  · intro x hx
    rcases List.mem_append.1 hx with hx | hx
    · exact hv x (selected_mem hx)
    · rw [List.mem_singleton.1 hx]; exact hev
  · refine List.pairwise_append.2 ⟨hsi, by simp, ?_⟩
    intro x hx y hy
    rw [List.mem_singleton.1 hy]
    have hm := (DatedSpec.Props.last_max hsi hsn ⟨1, 1, 1⟩).2 x hx
    rw [List.getLastD_eq_getLast?, List.getLast?_eq_some_getLast hsn, Option.getD_some] at hm
    have := h3 _ (List.getLast?_eq_some_getLast hsn)
    omega

theorem checkDates_ok (hne : dates ≠ []) (hv : ∀ d ∈ dates, d.Valid) (hk : DatedSpec.interval dates = .ok k)
    {d : DatedSpec.Spec} (hs : ∀ a ∈ d.start, a.Valid) (he : ∀ b ∈ d.stop, b.Valid) :
    checkDates dates d = .ok () ↔ InSample dates k d := by
  obtain ⟨lo, hlo, lom, lol⟩ := TimeCoordinates.minDate_spec hne hv
  obtain ⟨hi, hhi, him, hih⟩ := TimeCoordinates.maxDate_spec hne hv
  obtain ⟨p1, p2⟩ := DatedSpec.Props.plusDays_spec (hv hi him) k
  have hstart : (d.start.any fun a => a.lt lo || hi.lt a) = false ↔
      ∀ a ∈ d.start, (∃ x ∈ dates, x.ordinal ≤ a.ordinal) ∧ ∃ x ∈ dates, a.ordinal ≤ x.ordinal := by
    cases hst : d.start with
    | none => simp
    | some a =>
      have ha := hs a hst
      have e1 := lt_iff_ordinal ha (hv lo lom)
      have e2 := lt_iff_ordinal (hv hi him) ha
      simp only [Option.any_some, Bool.or_eq_false_iff, Option.mem_def, Option.some.injEq, forall_eq']
      constructor
      · rintro ⟨n1, n2⟩
        refine ⟨⟨lo, lom, ?_⟩, hi, him, ?_⟩
        · by_contra hc
          rw [e1.2 (by omega)] at n1; cases n1
        · by_contra hc
          rw [e2.2 (by omega)] at n2; cases n2
      · rintro ⟨⟨x, hx, hxa⟩, y, hy, hya⟩
        have b1 := lol x hx
        have b2 := hih y hy
        constructor
        · rw [Bool.eq_false_iff, Ne, e1]; omega
        · rw [Bool.eq_false_iff, Ne, e2]; omega
  have hstop : (d.stop.any fun b => b.le lo || (DatedSpec.plusDays hi k).lt b) = false ↔
      ∀ b ∈ d.stop, (∃ x ∈ dates, x.ordinal < b.ordinal) ∧ ∃ x ∈ dates, b.ordinal ≤ x.ordinal + k := by
    cases hst : d.stop with
    | none => simp
    | some b =>
      have hb := he b hst
      have e1 := le_iff_ordinal hb (hv lo lom)
      have e2 := lt_iff_ordinal p1 hb
      simp only [Option.any_some, Bool.or_eq_false_iff, Option.mem_def, Option.some.injEq, forall_eq']
      constructor
      · rintro ⟨n1, n2⟩
        refine ⟨⟨lo, lom, ?_⟩, hi, him, ?_⟩
        · by_contra hc
          rw [e1.2 (by omega)] at n1; cases n1
        · by_contra hc
          rw [e2.2 (by omega)] at n2; cases n2
      · rintro ⟨⟨x, hx, hxa⟩, y, hy, hya⟩
        have b1 := lol x hx
        have b2 := hih y hy
        constructor
        · rw [Bool.eq_false_iff, Ne, e1]; omega
        · rw [Bool.eq_false_iff, Ne, e2]; omega
  simp only [checkDates, hlo, hhi, Option.getD_some, hk]
  unfold InSample
  rw [← hstart, ← hstop]
  cases (d.start.any fun a => a.lt lo || hi.lt a) <;>
    cases (d.stop.any fun b => b.le lo || (DatedSpec.plusDays hi k).lt b) <;> simp

theorem resolves_inSample (hpos : 0 < k) {d : DatedSpec.Spec} (h : Resolves dates k d) :
    InSample dates k d := by
  obtain ⟨h1, h2, h3⟩ := h
  refine ⟨fun a ha => ⟨⟨a, h1 a ha, le_rfl⟩, a, h1 a ha, le_rfl⟩, ?_⟩
  intro b hb
  obtain ⟨x, hx, hxb⟩ := h2 b hb
  exact ⟨⟨x, hx, by omega⟩, x, hx, by omega⟩

theorem key_number {c : Cadence} {a : CDate} (h : a.Valid) : c.key a = number c a := by
  obtain ⟨h1, h2, -⟩ := h
  cases c with
  | month => rfl
  | year => rfl
  | quarter => simp only [Cadence.key, number]; omega

theorem createTag_label {c : Cadence} {a : CDate} (h : a.Valid) : createTag c a = label c a := by
  obtain ⟨h1, h2, h3, -⟩ := h
  obtain ⟨y, m, d⟩ := a
  cases c with
  | year => rfl
  | quarter =>
    have e : (m - 1) / 3 + 1 = (m + 2) / 3 := by simp only at h2; omega
    simp only [createTag, label, number, e]
    rfl
  | month =>
    have e : abbreviation m = monthName m := by
      simp only at h2 h3
      interval_cases m <;> rfl
    simp only [createTag, label, e]
    rfl

/-- The periods of a range. -/
def bucketsOf (range : List CDate) (c : Cadence) : List (CDate × CDate) :=
  match DateBuckets.generate c range with
  | .error _ => []
  | .ok l => l

/-- The parts of a range. -/
def partsOf (gens : List Cadence) (range : List CDate) : List (List DatedSpec.Spec) :=
  gens.map fun c => (bucketsOf range c).map fun p => ⟨some p.1, some p.2, createTag c p.1⟩

theorem periods_ok {range : List CDate} (hne : range ≠ []) (hv : ∀ x ∈ range, x.Valid) (hinc : Increasing range)
    (gens : List Cadence) (r) : mapE (periods range) gens = .ok r ↔ r = partsOf gens range := by
  have h := mapE_iff (f := periods range) (P := fun _ => True)
    (g := fun c => (bucketsOf range c).map fun p => (⟨some p.1, some p.2, createTag c p.1⟩ : DatedSpec.Spec))
    (l := gens) (r := r) (by
      intro c _ b
      obtain ⟨l, hl⟩ := (DateBuckets.Props.buckets_accepted_iff c range hv).2 ⟨hne, hinc⟩
      simp only [periods, bucketsOf, hl, Except.ok.injEq, true_and]
      exact eq_comm)
  rw [h]
  simp [partsOf]

theorem period_iff {c : Cadence} {range : List CDate} (hv : ∀ x ∈ range, x.Valid) {l}
    (hl : DateBuckets.generate c range = .ok l) (a b : CDate) : (a, b) ∈ l ↔ Period c range a b := by
  have hrun : DateBuckets.Spec.Run c.key range a b ↔ DateBuckets.Spec.Run (number c) range a b := by
    have hval : ∀ (m : ℕ) x, range[m]? = some x → c.key x = number c x := fun m x hx =>
      key_number (hv x (List.mem_of_getElem? hx))
    unfold DateBuckets.Spec.Run
    constructor
    · rintro ⟨i, j, hij, hi, hj, hn, h1, h2⟩
      rw [hval i a hi, hval j b hj] at hn
      exact ⟨i, j, hij, hi, hj, hn, fun m x a1 a2 a3 => by rw [← hval m x a3, ← hval i a hi]; exact h1 m x a1 a2 a3,
        fun m x a1 a3 => by rw [← hval m x a3, ← hval i a hi]; exact h2 m x a1 a3⟩
    · rintro ⟨i, j, hij, hi, hj, hn, h1, h2⟩
      rw [← hval i a hi, ← hval j b hj] at hn
      exact ⟨i, j, hij, hi, hj, hn, fun m x a1 a2 a3 => by rw [hval m x a3, hval i a hi]; exact h1 m x a1 a2 a3,
        fun m x a1 a3 => by rw [hval m x a3, hval i a hi]; exact h2 m x a1 a3⟩
  rw [DateBuckets.Props.buckets_exact c range hv l hl a b, hrun]; rfl

theorem parts_spec {range : List CDate} (hne : range ≠ []) (hv : ∀ x ∈ range, x.Valid) (hinc : Increasing range)
    (gens : List Cadence) : List.Forall₂ (fun c l => IsBreakdown c range l) gens (partsOf gens range) := by
  unfold partsOf
  rw [List.forall₂_map_right_iff, List.forall₂_same]
  intro c _
  obtain ⟨l, hl⟩ := (DateBuckets.Props.buckets_accepted_iff c range hv).2 ⟨hne, hinc⟩
  have hex := period_iff hv hl
  obtain ⟨o1, o2⟩ := DateBuckets.Props.buckets_disjoint c range hv l hl
  refine ⟨l, ?_, hex, o1, o2⟩
  simp only [bucketsOf, hl]
  apply List.map_congr_left
  intro p hp
  obtain ⟨⟨i, j, -, hi, -⟩, -⟩ := (hex p.1 p.2).1 hp
  rw [createTag_label (hv p.1 (List.mem_of_getElem? hi))]

end Dates

/-! ### Replacing dates -/

theorem replaceM_ok {δ : Type} {s r : MSpec δ} : replaceM s = .ok r ↔ s.validate = .ok () ∧ r = s := by
  simp only [replaceM]
  cases s.validate with
  | error e => simp
  | ok u => simp [eq_comm]

theorem replaceB_ok {δ γ : Type} {s r : BSpec δ γ} : replaceB s = .ok r ↔ s.validate = .ok () ∧ r = s := by
  simp only [replaceB]
  cases s.validate with
  | error e => simp
  | ok u => simp [eq_comm]

theorem replaceR_ok {s r : RSpec} : replaceR s = .ok r ↔ s.validate = .ok () ∧ r = s := by
  simp only [replaceR]
  cases s.validate with
  | error e => simp
  | ok u => simp [eq_comm]

theorem marketing_valid {δ : Type} (s : MSpec δ) : s.validate = .ok () ↔
    DatedSpec.validate s.dated = .ok () ∧ 0 < s.level ∧ s.level < 1 ∧ ¬ (s.media.isNone ∧ s.inc.isNone) ∧
      ¬ (s.media.isSome ∧ s.inc.isSome) := by
  unfold MSpec.validate
  cases DatedSpec.validate s.dated with
  | error e => simp
  | ok u =>
    simp only [Bool.and_eq_true]
    split_ifs with h1 h2 h3
    · simp only [reduceCtorEq, false_iff]
      rintro ⟨-, a, b, -⟩
      rcases h1 with h | h <;> linarith
    · simp [h2]
    · simp [h3]
    · push Not at h1
      simp only [true_iff, true_and]
      exact ⟨h1.1, h1.2, h2, h3⟩

theorem budget_valid {δ γ : Type} (s : BSpec δ γ) : s.validate = .ok () ↔
    DatedSpec.validateOptimization s.dated s.name s.gridName s.level = .ok () ∧ 0 < s.batch ∧
      BudgetProto.timeless s.newData = false ∧
      (s.optimalFrequency && BudgetProto.belowOne s.maxFrequency) = false := by
  unfold BSpec.validate
  cases DatedSpec.validateOptimization s.dated s.name s.gridName s.level with
  | error e => simp
  | ok u =>
    simp only
    split_ifs with h1 h2 h3
    · simp only [reduceCtorEq, false_iff]; rintro ⟨-, h, -⟩; omega
    · simp [h2]
    · simp [h3]
    · simp only [true_iff, true_and]
      exact ⟨by omega, by simpa using h2, by simpa using h3⟩

theorem reach_valid (s : RSpec) : s.validate = .ok () ↔
    DatedSpec.validateOptimization s.dated s.name s.gridName s.level = .ok () ∧ 0 ≤ s.min ∧
      ∀ m ∈ s.max, s.min ≤ m := by
  unfold RSpec.validate
  cases DatedSpec.validateOptimization s.dated s.name s.gridName s.level with
  | error e => simp
  | ok u =>
    simp only
    have hm : ReachProto.maxBelow s.min s.max = true ↔ ¬ ∀ m ∈ s.max, s.min ≤ m := by
      cases s.max <;> simp [ReachProto.maxBelow]
    split_ifs with h1 h2
    · simp only [reduceCtorEq, false_iff]; rintro ⟨-, h, -⟩; linarith
    · simp only [reduceCtorEq, false_iff]; rintro ⟨-, -, h⟩; exact hm.1 h2 h
    · simp only [true_iff, true_and]
      exact ⟨by linarith, by by_contra hc; exact h2 (hm.2 hc)⟩

theorem optimization_replace {d d' : DatedSpec.Spec} {n g x y z : List Char} {level : ℚ}
    (h : DatedSpec.validateOptimization d n g level = .ok ()) (hd : DatedSpec.validate d' = .ok ()) :
    DatedSpec.validateOptimization d' (x ++ n ++ y) (g ++ z) level = .ok () := by
  rw [DatedSpec.Props.optimization_accepted_iff] at h ⊢
  obtain ⟨-, ⟨c, hc, hcw⟩, ⟨e, he, hew⟩, h4⟩ := h
  exact ⟨hd, ⟨c, by simp [hc], hcw⟩, ⟨e, by simp [he], hew⟩, h4⟩

/-- The spec for a period. -/
def placed {δ γ : Type} (part : Bool) (s : UiSpec δ γ) (d : DatedSpec.Spec) : UiSpec δ γ :=
  match s with
  | .marketing m => .marketing { m with dated := d }
  | .budget b => .budget { b with
      dated := d
      group := tagGroup b.group d.tag
      name := tagName b.name d.tag
      gridName := tagGrid b.gridName d.tag
      scenario := if part then historical b.scenario else b.scenario }
  | .reach r => .reach { r with
      dated := d
      group := tagGroup r.group d.tag
      name := tagName r.name d.tag
      gridName := tagGrid r.gridName d.tag }
  | s => s

theorem forPeriod_ok {δ γ : Type} (part : Bool) (s : UiSpec δ γ) (hs : Constructed s) {d : DatedSpec.Spec}
    (hd : DatedSpec.validate d = .ok ()) : forPeriod part s d = .ok (placed part s d) := by
  cases s with
  | fit f => rfl
  | other => rfl
  | marketing m =>
    have h : ({ m with dated := d } : MSpec δ).validate = .ok () := by
      have := (marketing_valid m).1 hs
      exact (marketing_valid _).2 ⟨hd, this.2⟩
    simp only [forPeriod, placed]
    rw [replaceM_ok.2 ⟨h, rfl⟩]
  | budget b =>
    have h : ({ b with
        dated := d
        group := tagGroup b.group d.tag
        name := tagName b.name d.tag
        gridName := tagGrid b.gridName d.tag
        scenario := if part then historical b.scenario else b.scenario } : BSpec δ γ).validate = .ok () := by
      have := (budget_valid b).1 hs
      refine (budget_valid _).2 ⟨?_, this.2⟩
      have h := optimization_replace (x := []) (y := " for ".toList ++ d.tag.toList)
        (z := '_' :: underscored d.tag) this.1 hd
      simpa [tagName, tagGrid] using h
    simp only [forPeriod, placed]
    rw [replaceB_ok.2 ⟨h, rfl⟩]
  | reach r =>
    have h : ({ r with
        dated := d
        group := tagGroup r.group d.tag
        name := tagName r.name d.tag
        gridName := tagGrid r.gridName d.tag } : RSpec).validate = .ok () := by
      have := (reach_valid r).1 hs
      refine (reach_valid _).2 ⟨?_, this.2⟩
      have h := optimization_replace (x := []) (y := " for ".toList ++ d.tag.toList)
        (z := '_' :: underscored d.tag) this.1 hd
      simpa [tagName, tagGrid] using h
    simp only [forPeriod, placed]
    rw [replaceR_ok.2 ⟨h, rfl⟩]

theorem constructed_dated {δ γ : Type} {s : UiSpec δ γ} (hs : Constructed s) {d} (hd : s.dated? = some d) :
    DatedSpec.validate d = .ok () := by
  have opt : ∀ {d : DatedSpec.Spec} {n g : List Char} {l : ℚ},
      DatedSpec.validateOptimization d n g l = .ok () → DatedSpec.validate d = .ok () := fun h =>
    ((DatedSpec.Props.optimization_accepted_iff _ _ _ _).1 h).1
  cases s with
  | fit f => cases hd
  | other => cases hd
  | marketing m => cases hd; exact ((marketing_valid m).1 hs).1
  | budget b => cases hd; exact opt ((budget_valid b).1 hs).1
  | reach r => cases hd; exact opt ((reach_valid r).1 hs).1

section Expand

variable {dates : List CDate} {k : ℕ}

/-- The parts of the dates of a spec. -/
def partsFor (dates : List CDate) (k : ℕ) (gens : List Cadence) (d : DatedSpec.Spec) : List DatedSpec.Spec :=
  (partsOf gens (rangeOf dates k d)).flatten

/-- The specs that replace a spec. -/
def expanded {δ γ : Type} (dates : List CDate) (k : ℕ) (gens : List Cadence) (s : UiSpec δ γ) :
    List (UiSpec δ γ) :=
  match s.dated? with
  | none => [s]
  | some d => placed false s (whole d) :: (partsFor dates k gens d).map (placed true s)

theorem isParts (hne : dates ≠ []) (hv : ∀ d ∈ dates, d.Valid) (hinc : Increasing dates)
    (hpos : 0 < k) (hk : DatedSpec.interval dates = .ok k) {d : DatedSpec.Spec} (he : ∀ b ∈ d.stop, b.Valid)
    (h : Resolves dates k d) (gens : List Cadence) : IsParts dates k gens d (partsFor dates k gens d) := by
  obtain ⟨h1, h2, h3⟩ := rangeOf_increasing hne hv hinc hpos hk he h
  exact ⟨_, _, rangeOf_spec hne hv hinc hk he h, parts_spec h1 h2 h3 gens, rfl⟩

theorem period_mem {c : Cadence} {range : List CDate} {a b : CDate} (h : Period c range a b) :
    a ∈ range ∧ b ∈ range := by
  obtain ⟨⟨i, j, -, hi, hj, -⟩, -⟩ := h
  exact ⟨List.mem_of_getElem? hi, List.mem_of_getElem? hj⟩

theorem breakdown_mem {gens : List Cadence} {range : List CDate} {lists : List (List DatedSpec.Spec)}
    (h : List.Forall₂ (fun c l => IsBreakdown c range l) gens lists) {p : DatedSpec.Spec} (hp : p ∈ lists.flatten) :
    ∃ c ∈ gens, ∃ a b, p = ⟨some a, some b, label c a⟩ ∧ Period c range a b ∧ a.ordinal < b.ordinal := by
  induction h with
  | nil => simp at hp
  | @cons c l gens lists hcl _ ih =>
    rw [List.flatten_cons, List.mem_append] at hp
    rcases hp with hp | hp
    · obtain ⟨ps, rfl, h1, h2, -⟩ := hcl
      obtain ⟨q, hq, rfl⟩ := List.mem_map.1 hp
      exact ⟨c, by simp, q.1, q.2, rfl, (h1 _ _).1 hq, h2 q hq⟩
    · obtain ⟨c', hc', x⟩ := ih hp
      exact ⟨c', by simp [hc'], x⟩

theorem expand_ok {δ γ : Type} (hne : dates ≠ []) (hv : ∀ d ∈ dates, d.Valid) (hinc : Increasing dates)
    (hpos : 0 < k) (hk : DatedSpec.interval dates = .ok k) (gens : List Cadence) (s : UiSpec δ γ)
    (hs : Constructed s) (hr : RealDates s) (r) :
    expand dates gens s = .ok r ↔ (∀ d ∈ s.dated?, Resolves dates k d) ∧ r = expanded dates k gens s := by
  unfold expand expanded
  cases hd : s.dated? with
  | none => simp [eq_comm]
  | some d =>
    have he : ∀ b ∈ d.stop, b.Valid := (hr d hd).2
    have hen := enumerate_ok hne hv hk he
    simp only [Option.mem_def, Option.some.injEq, forall_eq']
    cases hx : enumerateDates dates d with
    | error e =>
      have : ¬ Resolves dates k d := by
        intro hc
        have := (hen _).2 ⟨hc, rfl⟩
        rw [hx] at this; cases this
      simp [this]
    | ok range =>
      obtain ⟨hres, rfl⟩ := (hen range).1 hx
      obtain ⟨h1, h2, h3⟩ := rangeOf_increasing hne hv hinc hpos hk he hres
      have hdv := constructed_dated hs hd
      have hw : forPeriod false s { d with tag := "ALL" } = .ok (placed false s (whole d)) :=
        forPeriod_ok false s hs hdv
      have hps := (periods_ok h1 h2 h3 gens _).2 rfl
      have hm := (mapE_iff (f := forPeriod true s) (P := fun _ => True) (g := placed true s)
        (l := (partsOf gens (rangeOf dates k d)).flatten)
        (r := ((partsOf gens (rangeOf dates k d)).flatten).map (placed true s)) (by
          intro p hp b
          obtain ⟨c, -, x, y, rfl, hper, hxy⟩ := breakdown_mem (parts_spec h1 h2 h3 gens) hp
          have hval : DatedSpec.validate ⟨some x, some y, label c x⟩ = .ok () := by
            obtain ⟨m1, m2⟩ := period_mem hper
            refine (DatedSpec.Props.spec_accepted_iff _ ?_ ?_).2 ?_
            · simpa using h2 x m1
            · simpa using h2 y m2
            · simpa using hxy.le
          rw [forPeriod_ok true s hs hval]
          simp [eq_comm])).2 ⟨fun _ _ => trivial, rfl⟩
      simp only [createSubspecs, hw, hps, hm, hres, true_and, partsFor, Except.ok.injEq]
      exact eq_comm

end Expand

/-! ### The first loop -/

/-- The budget spec with its group. -/
def withGroup {δ γ : Type} (fresh : ℕ → String) (i : ℕ) (b : BSpec δ γ) : BSpec δ γ :=
  { b with group := some (groupOf fresh i (UiSpec.budget b)) }

/-- The derived spec. -/
def derived {δ γ : Type} (b : BSpec δ γ) : RSpec :=
  { dated := b.dated
    name := "derived RF optimization from ".toList ++ b.name
    gridName := "derived_from_".toList ++ b.name
    group := b.group
    level := b.level
    max := b.maxFrequency }

/-- What the first loop makes of the `i`-th spec. -/
def unit {δ γ : Type} (rf : Bool) (fresh : ℕ → String) (i : ℕ) : UiSpec δ γ → List (UiSpec δ γ)
  | .budget b => .budget (withGroup fresh i b) :: if rf then [.reach (derived (withGroup fresh i b))] else []
  | s => [s]

theorem withGroup_valid {δ γ : Type} (fresh : ℕ → String) (i : ℕ) {b : BSpec δ γ} (h : b.validate = .ok ()) :
    (withGroup fresh i b).validate = .ok () := h

theorem derived_valid {δ γ : Type} {b : BSpec δ γ} (h : b.validate = .ok ()) :
    (derived b).validate = .ok () ↔ ∀ f ∈ b.maxFrequency, 1 ≤ f := by
  have hb := (budget_valid b).1 h
  rw [reach_valid]
  have hopt : DatedSpec.validateOptimization (derived b).dated (derived b).name (derived b).gridName
      (derived b).level = .ok () := by
    have h1 := hb.1
    rw [DatedSpec.Props.optimization_accepted_iff] at h1 ⊢
    obtain ⟨h1, ⟨c, hc, hcw⟩, -, h4⟩ := h1
    exact ⟨h1, ⟨c, by simp [derived, hc], hcw⟩, ⟨c, by simp [derived, hc], hcw⟩, h4⟩
  simp only [hopt, true_and]
  constructor
  · exact fun h => h.2
  · exact fun h => ⟨by simp [derived], h⟩

theorem derive_ok {δ γ : Type} {b : BSpec δ γ} (h : b.validate = .ok ()) (r) :
    derive b = .ok r ↔ (∀ f ∈ b.maxFrequency, 1 ≤ f) ∧ r = derived b := by
  rw [← derived_valid h]
  exact replaceR_ok

theorem pair_ok {δ γ : Type} (rf : Bool) {b : BSpec δ γ} (h : b.validate = .ok ()) (r) :
    pair rf b = .ok r ↔ (rf = true → ∀ f ∈ b.maxFrequency, 1 ≤ f) ∧
      r = .budget b :: if rf then [.reach (derived b)] else [] := by
  cases rf with
  | false => simp [pair, eq_comm]
  | true =>
    simp only [pair, if_true, forall_const]
    have hd := derive_ok h
    cases hx : derive b with
    | error e =>
      have : ¬ ∀ f ∈ b.maxFrequency, 1 ≤ f := by
        intro hc
        have := (hd _).2 ⟨hc, rfl⟩
        rw [hx] at this; cases this
      simp only [reduceCtorEq, false_iff]
      exact fun hc => this hc.1
    | ok x =>
      obtain ⟨h1, rfl⟩ := (hd x).1 hx
      simp only [Except.ok.injEq]
      constructor
      · rintro rfl; exact ⟨h1, rfl⟩
      · rintro ⟨-, rfl⟩; rfl

theorem identify_ok {δ γ : Type} (fresh : ℕ → String) (i : ℕ) (seen : List String) {b : BSpec δ γ}
    (h : b.validate = .ok ()) (r) :
    identify (fresh i) seen b = .ok r ↔ (∀ g ∈ givenGroups [UiSpec.budget b], g ∉ seen) ∧
      r = (withGroup fresh i b, givenGroups [UiSpec.budget b] ++ seen) := by
  have hrep := fun g : String => (replaceB_ok (s := { b with group := some g }) (r := { b with group := some g })).2 ⟨h, rfl⟩
  obtain ⟨dated, name, gridName, group, level, scenario, constraints, revenue, grid, curves, newData, opt, mf, batch⟩ := b
  cases group with
  | none =>
    have := hrep (fresh i)
    simp only [identify, this, withGroup, groupOf, givenGroups]
    simp [eq_comm]
  | some g =>
    by_cases hg : g = ""
    · have := hrep (fresh i)
      subst hg
      simp only [identify, this, withGroup, groupOf, givenGroups]
      simp [eq_comm]
    · simp only [identify, hg, if_false, withGroup, groupOf, givenGroups]
      by_cases hm : g ∈ seen
      · simp [hm, hg]
      · simp [hm, hg, eq_comm]

theorem givenGroups_cons {δ γ : Type} (s : UiSpec δ γ) (l : List (UiSpec δ γ)) :
    givenGroups (s :: l) = givenGroups [s] ++ givenGroups l := by
  unfold givenGroups
  rw [← List.filterMap_append]; rfl

theorem givenGroups_single {δ γ : Type} (s : UiSpec δ γ) : (givenGroups [s]).Nodup := by
  have h : (givenGroups [s]).length ≤ 1 := List.length_filterMap_le _ _
  match hl : givenGroups [s] with
  | [] => simp
  | [x] => simp
  | x :: y :: t => rw [hl] at h; simp at h

theorem gather_ok {δ γ : Type} (dates : List CDate) (rf : Bool) (fresh : ℕ → String) (specs : List (UiSpec δ γ))
    (hs : ∀ s ∈ specs, Constructed s) (i : ℕ) (seen : List String) (r) :
    gather dates rf fresh i seen specs = .ok r ↔
      ((∀ s ∈ specs, admit dates s = .ok ()) ∧ (givenGroups specs).Nodup ∧ (∀ g ∈ givenGroups specs, g ∉ seen) ∧
        (rf = true → ∀ b, .budget b ∈ specs → ∀ f ∈ b.maxFrequency, 1 ≤ f)) ∧
      r = (specs.zipIdx i).flatMap fun p => unit rf fresh p.2 p.1 := by
  induction specs generalizing i seen r with
  | nil => simp [gather, givenGroups, eq_comm]
  | cons s rest ih =>
    have ih' := ih (fun s hs' => hs s (by simp [hs']))
    rw [givenGroups_cons, List.zipIdx_cons, List.flatMap_cons]
    simp only [gather, List.mem_cons, forall_eq_or_imp]
    cases ha : admit dates s with
    | error e => simp
    | ok u =>
      by_cases hb : ∃ b, s = .budget b
      · obtain ⟨b, rfl⟩ := hb
        have hv : b.validate = .ok () := hs (UiSpec.budget b) (by simp)
        have hid := identify_ok fresh i seen hv
        simp only [true_and]
        cases hx : identify (fresh i) seen b with
        | error e =>
          have hn : ¬ ∀ g ∈ givenGroups [UiSpec.budget b], g ∉ seen := by
            intro hc
            have := (hid _).2 ⟨hc, rfl⟩
            rw [hx] at this; cases this
          simp only [reduceCtorEq, false_iff]
          rintro ⟨⟨-, -, h3, -⟩, -⟩
          exact hn fun g hg => h3 g (List.mem_append.2 (.inl hg))
        | ok x =>
          obtain ⟨hseen, rfl⟩ := (hid x).1 hx
          have hp := pair_ok rf (withGroup_valid fresh i hv)
          simp only
          cases hy : pair rf (withGroup fresh i b) with
          | error e =>
            have hn : ¬ (rf = true → ∀ f ∈ b.maxFrequency, 1 ≤ f) := by
              intro hc
              have := (hp _).2 ⟨hc, rfl⟩
              rw [hy] at this; cases this
            simp only [reduceCtorEq, false_iff]
            rintro ⟨⟨-, -, -, h4⟩, -⟩
            exact hn fun hrf => h4 hrf b (.inl rfl)
          | ok l =>
            obtain ⟨hfreq, rfl⟩ := (hp l).1 hy
            simp only
            have key := ih' (i + 1) (givenGroups [UiSpec.budget b] ++ seen)
            have cond : ((∀ s ∈ rest, admit dates s = .ok ()) ∧ (givenGroups rest).Nodup ∧
                (∀ g ∈ givenGroups rest, g ∉ givenGroups [UiSpec.budget b] ++ seen) ∧
                (rf = true → ∀ b, .budget b ∈ rest → ∀ f ∈ b.maxFrequency, 1 ≤ f)) ↔
                ((∀ s ∈ rest, admit dates s = .ok ()) ∧ (givenGroups [UiSpec.budget b] ++ givenGroups rest).Nodup ∧
                (∀ g ∈ givenGroups [UiSpec.budget b] ++ givenGroups rest, g ∉ seen) ∧
                (rf = true → ∀ c, (UiSpec.budget c = UiSpec.budget b ∨ .budget c ∈ rest) →
                  ∀ f ∈ c.maxFrequency, 1 ≤ f)) := by
              constructor
              · rintro ⟨c1, c2, c3, c4⟩
                refine ⟨c1, ?_, ?_, ?_⟩
                · refine List.nodup_append.2 ⟨givenGroups_single _, c2, ?_⟩
                  rintro x hx y hy rfl
                  exact c3 x hy (List.mem_append.2 (.inl hx))
                · intro g hg
                  rcases List.mem_append.1 hg with hg | hg
                  · exact hseen g hg
                  · exact fun hc => c3 g hg (List.mem_append.2 (.inr hc))
                · rintro hrf c (hc | hc)
                  · cases hc; exact hfreq hrf
                  · exact c4 hrf c hc
              · rintro ⟨c1, c2, c3, c4⟩
                obtain ⟨-, n2, n3⟩ := List.nodup_append.1 c2
                refine ⟨c1, n2, ?_, fun hrf c hc => c4 hrf c (.inr hc)⟩
                intro g hg hc
                rcases List.mem_append.1 hc with hc | hc
                · exact n3 g hc g hg rfl
                · exact c3 g (List.mem_append.2 (.inr hg)) hc
            rw [← cond]
            cases hz : gather dates rf fresh (i + 1) (givenGroups [UiSpec.budget b] ++ seen) rest with
            | error e =>
              simp only [reduceCtorEq, false_iff]
              rintro ⟨hc, -⟩
              have := (key _).2 ⟨hc, rfl⟩
              rw [hz] at this; cases this
            | ok q =>
              obtain ⟨hc, rfl⟩ := (key q).1 hz
              refine Iff.trans ?_ (and_iff_right hc).symm
              simp only [Except.ok.injEq]
              exact eq_comm
      · have e1 : givenGroups [s] = [] := by
          cases s with
          | budget b => exact absurd ⟨b, rfl⟩ hb
          | _ => rfl
        have e2 : unit rf fresh i s = [s] := by
          cases s with
          | budget b => exact absurd ⟨b, rfl⟩ hb
          | _ => rfl
        have e3 : ∀ b, .budget b ≠ s := fun b hc => hb ⟨b, hc.symm⟩
        rw [e1, e2]
        simp only [List.nil_append, e3, false_or, true_and]
        have key := ih' (i + 1) seen
        cases s with
        | budget b => exact absurd ⟨b, rfl⟩ hb
        | _ =>
          simp only
          cases hz : gather dates rf fresh (i + 1) seen rest with
          | error e =>
            simp only [reduceCtorEq, false_iff]
            rintro ⟨hc, -⟩
            have := (key _).2 ⟨hc, rfl⟩
            rw [hz] at this; cases this
          | ok q =>
            obtain ⟨hc, rfl⟩ := (key q).1 hz
            refine Iff.trans ?_ (and_iff_right hc).symm
            simp only [Except.ok.injEq]
            exact eq_comm

/-! ### Tags -/

/-- What follows the year in a tag. -/
def tagTail : Cadence → CDate → List Char
  | .year, _ => []
  | .quarter, a => ' ' :: 'Q' :: Nat.toDigits 10 (number .quarter a)
  | .month, a => ' ' :: (monthName a.m).toList

theorem label_toList (c : Cadence) (a : CDate) :
    (label c a).toList = 'Y' :: Nat.toDigits 10 a.y ++ tagTail c a := by
  have hs : ∀ n : ℕ, (toString n).toList = Nat.toDigits 10 n := fun n => Nat.toList_repr
  cases c with
  | year =>
    show ("Y" ++ toString a.y).toList = _
    rw [String.toList_append, hs]; simp [tagTail]
  | quarter =>
    show ("Y" ++ toString a.y ++ " Q" ++ toString (number .quarter a)).toList = _
    simp only [String.toList_append, hs]; simp [tagTail]
  | month =>
    show ("Y" ++ toString a.y ++ " " ++ monthName a.m).toList = _
    simp only [String.toList_append, hs]; simp [tagTail]

theorem digits_ne {n : ℕ} {c : Char} (h : c.isDigit = false) : c ∉ Nat.toDigits 10 n := by
  intro hc
  have := Nat.isDigit_of_mem_toDigits (b := 10) (by norm_num) (by norm_num) hc
  rw [h] at this; cases this

theorem digits_inj {m n : ℕ} (h : Nat.toDigits 10 m = Nat.toDigits 10 n) : m = n := by
  have := congrArg (fun l => Nat.ofDigitChars 10 l 0) h
  simpa [Nat.ofDigitChars_ten_toDigits] using this

theorem label_no_colon {c : Cadence} {a : CDate} : ':' ∉ (label c a).toList := by
  rw [label_toList]
  simp only [List.cons_append, List.mem_cons, List.mem_append, not_or]
  refine ⟨by decide, digits_ne (by decide), ?_⟩
  cases c with
  | year => simp [tagTail]
  | quarter =>
    simp only [tagTail, List.mem_cons, not_or]
    exact ⟨by decide, by decide, digits_ne (by decide)⟩
  | month =>
    simp only [tagTail, List.mem_cons, not_or]
    refine ⟨by decide, ?_⟩
    unfold monthName
    split <;> decide

theorem split_blank {d d' t t' : List Char} (hd : ' ' ∉ d) (hd' : ' ' ∉ d')
    (ht : t = [] ∨ ∃ r, t = ' ' :: r) (ht' : t' = [] ∨ ∃ r, t' = ' ' :: r) (h : d ++ t = d' ++ t') :
    d = d' ∧ t = t' := by
  have key : ∀ {d t : List Char}, ' ' ∉ d → (t = [] ∨ ∃ r, t = ' ' :: r) →
      (d ++ t).takeWhile (· != ' ') = d := by
    intro d t hd ht
    rw [List.takeWhile_append_of_pos]
    · rcases ht with rfl | ⟨r, rfl⟩ <;> simp
    · intro c hc
      simp only [bne_iff_ne, ne_eq]
      rintro rfl; exact hd hc
  have h1 := key hd ht
  rw [h, key hd' ht'] at h1
  subst h1
  exact ⟨rfl, List.append_cancel_left h⟩

theorem label_inj {c c' : Cadence} {a a' : CDate} (ha : a.Valid) (ha' : a'.Valid) (h : label c a = label c' a') :
    c = c' ∧ a.y = a'.y ∧ number c a = number c' a' := by
  have h' := congrArg String.toList h
  rw [label_toList, label_toList, List.cons_append, List.cons_append, List.cons.injEq] at h'
  have hb : ∀ (c : Cadence) (a : CDate), tagTail c a = [] ∨ ∃ r, tagTail c a = ' ' :: r := by
    intro c a; cases c <;> simp [tagTail]
  obtain ⟨h1, h2⟩ := split_blank (digits_ne (by decide)) (digits_ne (by decide)) (hb _ _) (hb _ _) h'.2
  have hy := digits_inj h1
  obtain ⟨-, m1, m2, -⟩ := ha
  obtain ⟨-, n1, n2, -⟩ := ha'
  obtain ⟨y, m, d⟩ := a
  obtain ⟨y', m', d'⟩ := a'
  simp only at m1 m2 n1 n2 hy
  subst hy
  cases c <;> cases c' <;> simp only [tagTail, List.cons.injEq, true_and, reduceCtorEq] at h2 ⊢
  · have key : m = m' := by
      revert h2
      interval_cases m <;> interval_cases m' <;> simp [monthName]
    exact key
  · exfalso
    revert h2
    interval_cases m <;> simp [monthName]
  · exfalso
    revert h2
    interval_cases m' <;> simp [monthName]
  · exact digits_inj h2
  · rfl

theorem parts_tags {gens : List Cadence} {range : List CDate} {lists : List (List DatedSpec.Spec)}
    (hv : ∀ x ∈ range, x.Valid) (hg : gens.Nodup)
    (h : List.Forall₂ (fun c l => IsBreakdown c range l) gens lists) :
    (lists.flatten.map fun p => p.tag).Nodup := by
  induction h with
  | nil => simp
  | @cons c l gens lists hcl hrest ih =>
    obtain ⟨hc, hg'⟩ := List.nodup_cons.1 hg
    rw [List.flatten_cons, List.map_append, List.nodup_append]
    refine ⟨?_, ih hg', ?_⟩
    · obtain ⟨ps, rfl, h1, h2, h3⟩ := hcl
      rw [List.map_map, List.Nodup, List.pairwise_map]
      refine (List.pairwise_iff_getElem.2 fun i j hi hj hij => ?_)
      have hord := List.pairwise_iff_getElem.1 h3 i j hi hj hij
      have hpi := (h1 _ _).1 (List.getElem_mem hi)
      have hpj := (h1 _ _).1 (List.getElem_mem hj)
      have hlt := h2 _ (List.getElem_mem hi)
      obtain ⟨va, vb⟩ := period_mem hpi
      have vq := (period_mem hpj).1
      have v1 := hv _ va
      have v2 := hv _ vb
      have v3 := hv _ vq
      simp only [Function.comp_apply, ne_eq]
      intro hlab
      obtain ⟨-, hy, hn⟩ := label_inj v1 v3 hlab
      obtain ⟨⟨_, _, _, _, _, hdiff, _⟩, _⟩ := hpi
      apply hdiff
      have o1 := (le_iff_ordinal v1 v2).2 hlt.le
      have o2 := (le_iff_ordinal v2 v3).2 hord
      have hle : ∀ {a b : CDate}, a.le b = true → a.y < b.y ∨ (a.y = b.y ∧ a.m ≤ b.m) := by
        intro a b hab
        unfold CDate.le at hab
        simp only [Bool.or_eq_true, decide_eq_true_eq, lt_iff] at hab
        rcases hab with h | rfl
        · omega
        · omega
      have q1 := hle o1
      have q2 := hle o2
      cases c with
      | month => simp only [number] at hn ⊢; omega
      | quarter => simp only [number] at hn ⊢; omega
      | year => simp only [number] at hn ⊢; omega
    · intro t ht t' ht'
      rintro rfl
      obtain ⟨p, hp, rfl⟩ := List.mem_map.1 ht
      obtain ⟨q, hq, hqt⟩ := List.mem_map.1 ht'
      obtain ⟨ps, rfl, h1, -⟩ := hcl
      obtain ⟨x, hx, rfl⟩ := List.mem_map.1 hp
      obtain ⟨c', hc', a, b, rfl, hper, -⟩ := breakdown_mem hrest hq
      have := (label_inj (hv _ (period_mem hper).1) (hv _ (period_mem ((h1 _ _).1 hx)).1) hqt).1
      exact hc (this ▸ hc')

theorem all_ne_label {c : Cadence} {a : CDate} : "ALL" ≠ label c a := by
  intro h
  have := congrArg String.toList h
  rw [label_toList] at this
  simp at this

/-- The tags of all periods are different and contain no colon. -/
theorem tags_nodup {dates : List CDate} {k : ℕ} (hv : ∀ d ∈ dates, d.Valid) {gens : List Cadence} (hg : gens.Nodup)
    {d : DatedSpec.Spec} {parts} (h : IsParts dates k gens d parts) :
    ((whole d :: parts).map fun p => p.tag).Nodup ∧ ∀ p ∈ whole d :: parts, ':' ∉ p.tag.toList := by
  obtain ⟨range, lists, ⟨e, hev, hl, -⟩, hf, rfl⟩ := h
  have hrv : ∀ x ∈ range, x.Valid := by
    intro x hx
    rw [hl] at hx
    rcases List.mem_append.1 hx with hx | hx
    · exact hv x (selected_mem hx)
    · rw [List.mem_singleton.1 hx]; exact hev
  constructor
  · rw [List.map_cons, List.nodup_cons]
    refine ⟨?_, parts_tags hrv hg hf⟩
    intro hm
    obtain ⟨p, hp, hpt⟩ := List.mem_map.1 hm
    obtain ⟨c, -, a, b, rfl, -⟩ := breakdown_mem hf hp
    exact all_ne_label hpt.symm
  · intro p hp
    rcases List.mem_cons.1 hp with rfl | hp
    · show ':' ∉ "ALL".toList
      decide
    · obtain ⟨c, -, a, b, rfl, -⟩ := breakdown_mem hf hp
      exact label_no_colon

theorem colon_inj {g g' t t' : String} (ht : ':' ∉ t.toList) (ht' : ':' ∉ t'.toList)
    (h : s!"{g}:{t}" = s!"{g'}:{t'}") : g = g' ∧ t = t' := by
  have h' : (g ++ ":" ++ t).toList = (g' ++ ":" ++ t').toList := congrArg String.toList h
  simp only [String.toList_append] at h'
  have h2 := congrArg List.reverse h'
  simp only [List.reverse_append] at h2
  have key : ∀ {t g : List Char}, ':' ∉ t → (t.reverse ++ (":".toList.reverse ++ g.reverse)).takeWhile (· != ':') = t.reverse := by
    intro t g ht
    rw [List.takeWhile_append_of_pos]
    · simp
    · intro c hc
      simp only [bne_iff_ne, ne_eq]
      rintro rfl; exact ht (by simpa using hc)
  have h3 := key (g := g.toList) ht
  rw [h2, key ht', List.reverse_inj] at h3
  rw [h3] at h2
  have h4 := List.append_cancel_left (List.append_cancel_left h2)
  exact ⟨String.toList_inj.1 (List.reverse_inj.1 h4), String.toList_inj.1 h3.symm⟩

/-! ### Data at a fixed step -/

section Step

open Verif.DatedSpec.Spec (Every)

variable {dates : List CDate} {k : ℕ}

theorem successor (hinc : Increasing dates) (hev : Every k dates) {x y : CDate} (hx : x ∈ dates) (hy : y ∈ dates)
    (h : x.ordinal < y.ordinal) :
    (∃ z ∈ dates, z.ordinal = x.ordinal + k ∧ z.ordinal ≤ y.ordinal) ∧
    ∃ z ∈ dates, z.ordinal + k = y.ordinal := by
  obtain ⟨i, hi, rfl⟩ := List.getElem_of_mem hx
  obtain ⟨j, hj, rfl⟩ := List.getElem_of_mem hy
  have hp := List.pairwise_iff_getElem.1 hinc
  have hc := List.isChain_iff_getElem.1 hev
  have hij : i < j := by
    rcases lt_trichotomy i j with h' | h' | h'
    · exact h'
    · subst h'; omega
    · have := hp j i hj hi h'; omega
  constructor
  · refine ⟨dates[i + 1], List.getElem_mem _, hc i (by omega), ?_⟩
    rcases Nat.lt_or_eq_of_le (Nat.succ_le_of_lt hij) with h' | h'
    · exact (hp (i + 1) j (by omega) hj h').le
    · subst h'; exact le_rfl
  · have := hc (j - 1) (by omega)
    have e : j - 1 + 1 = j := by omega
    refine ⟨dates[j - 1], List.getElem_mem _, ?_⟩
    simp only [e] at this
    omega

/-- The last selected date is the last of the range but one. -/
theorem range_cases (hpos : 0 < k) (hinc : Increasing dates) {d : DatedSpec.Spec} {range : List CDate}
    (hr : IsRange dates k d range) {i : ℕ} {x y : CDate} {j : ℕ} (hij : i < j) (hi : range[i]? = some x)
    (hj : range[j]? = some y) : x ∈ selected dates k d ∧ x.ordinal + k ≤ y.ordinal + (k - 1) ∧
      (y ∈ selected dates k d ∨ ∃ z ∈ selected dates k d, x.ordinal ≤ z.ordinal ∧ y.ordinal = z.ordinal + k ∧
        ∀ w ∈ selected dates k d, w.ordinal ≤ z.ordinal) := by
  obtain ⟨e, hev, rfl, -, hlast⟩ := hr
  have hsi : Increasing (selected dates k d) := List.Pairwise.sublist List.filter_sublist hinc
  have hjl : j < (selected dates k d).length + 1 := by
    obtain ⟨h, -⟩ := List.getElem?_eq_some_iff.1 hj
    simpa using h
  have hil : i < (selected dates k d).length := by omega
  rw [List.getElem?_append_left hil] at hi
  have hxm : x ∈ selected dates k d := List.mem_of_getElem? hi
  have hsn : selected dates k d ≠ [] := List.ne_nil_of_mem hxm
  have hmax := (DatedSpec.Props.last_max hsi hsn ⟨1, 1, 1⟩)
  rw [List.getLastD_eq_getLast?, List.getLast?_eq_some_getLast hsn, Option.getD_some] at hmax
  have hle := hlast _ (List.getLast?_eq_some_getLast hsn)
  by_cases hjs : j < (selected dates k d).length
  · rw [List.getElem?_append_left hjs] at hj
    refine ⟨hxm, ?_, .inl (List.mem_of_getElem? hj)⟩
    obtain ⟨h1, rfl⟩ := List.getElem?_eq_some_iff.1 hi
    obtain ⟨h2, rfl⟩ := List.getElem?_eq_some_iff.1 hj
    have := List.pairwise_iff_getElem.1 hsi i j h1 h2 hij
    omega
  · have hje : j = (selected dates k d).length := by omega
    subst hje
    rw [List.getElem?_append_right le_rfl] at hj
    simp only [Nat.sub_self, List.getElem?_cons_zero, Option.some.injEq] at hj
    subst hj
    have := hmax.2 x hxm
    exact ⟨hxm, by omega, .inr ⟨_, hmax.1, this, hle, hmax.2⟩⟩

/-- Consecutive dates of the range are one step apart. -/
theorem range_step (hpos : 0 < k) (hinc : Increasing dates) (hev : Every k dates) {d : DatedSpec.Spec} {range : List CDate}
    (hr : IsRange dates k d range) (hri : Increasing range) {x y : CDate} (h : Next range x y) :
    y.ordinal = x.ordinal + k := by
  obtain ⟨i, hi, hj⟩ := h
  obtain ⟨h1, -, h2⟩ := range_cases hpos hinc hr (Nat.lt_succ_self i) hi hj
  obtain ⟨g1, e1⟩ := List.getElem?_eq_some_iff.1 hi
  obtain ⟨g2, e2⟩ := List.getElem?_eq_some_iff.1 hj
  have hxy := List.pairwise_iff_getElem.1 hri i (i + 1) g1 g2 (by omega)
  rw [e1, e2] at hxy
  have between : ∀ z ∈ selected dates k d, x.ordinal < z.ordinal → z.ordinal < y.ordinal → False := by
    intro z hz l1 l2
    have hzr : z ∈ range := by
      obtain ⟨e, -, rfl, -⟩ := hr
      exact List.mem_append.2 (.inl hz)
    obtain ⟨m, hm, rfl⟩ := List.getElem_of_mem hzr
    have m1 : i < m := by
      rcases lt_trichotomy i m with h' | h' | h'
      · exact h'
      · subst h'; rw [e1] at l1; omega
      · have := List.pairwise_iff_getElem.1 hri m i hm g1 h'; rw [e1] at this; omega
    have m2 : m < i + 1 := by
      rcases lt_trichotomy m (i + 1) with h' | h' | h'
      · exact h'
      · subst h'; rw [e2] at l2; omega
      · have := List.pairwise_iff_getElem.1 hri (i + 1) m g2 hm h'; rw [e2] at this; omega
    omega
  rcases h2 with hy | ⟨z, hz, hxz, hyz, -⟩
  · obtain ⟨z, hz, hzk, hzy⟩ := (successor hinc hev (selected_mem h1) (selected_mem hy) hxy).1
    rcases Nat.lt_or_eq_of_le hzy with hlt | heq
    · exfalso
      refine between z ?_ (by omega) hlt
      have hx' := (List.mem_filter.1 h1).2
      have hy' := (List.mem_filter.1 hy).2
      simp only [decide_eq_true_eq] at hx' hy'
      refine List.mem_filter.2 ⟨hz, ?_⟩
      simp only [decide_eq_true_eq]
      exact ⟨fun a ha => by have := hx'.1 a ha; omega, fun b hb => by have := hy'.2 b hb; omega⟩
    · omega
  · rcases Nat.lt_or_eq_of_le hxz with hlt | heq
    · exact absurd (between z hz hlt (by omega)) id
    · omega

end Step

end Verif.UiSpecs

import Mathlib.Data.List.Sort
import Verif.Lemmas.TimeCoordinates
import Verif.Model.Page
import Verif.Props.Accuracy
import Verif.Props.Formatter
import Verif.Props.TimeCoordinates
import Verif.Spec.Page

/-!
# C99: the summary page
-/

namespace Verif.Page.Props

open Verif Verif.Calendar Verif.Accuracy Verif.Accuracy.Spec Verif.Formatter Verif.Page.Spec
open Verif.TimeCoordinates.Spec
open Verif.Formatter.Spec (Shows)
open Verif.TimeCoordinates (minDate maxDate expandSelected meanInterval isRegular)

/-! ### The period -/

theorem lt_iff {a b : CDate} (ha : a.Valid) (hb : b.Valid) : a.lt b = true ↔ a.ordinal < b.ordinal := by
  rw [Calendar.lt_iff_ordinal ha hb]

theorem period_unfold {dates : List CDate} (hne : dates ≠ []) (hv : ∀ d ∈ dates, d.Valid)
    (s e : Option CDate) : ∃ lo hi, lo ∈ dates ∧ hi ∈ dates ∧ (∀ d ∈ dates, lo.ordinal ≤ d.ordinal) ∧
      (∀ d ∈ dates, d.ordinal ≤ hi.ordinal) ∧ period dates s e =
        if s.getD lo ∉ dates then .error .startUnknown
        else if e.getD hi ∉ dates then .error .endUnknown
        else if (e.getD hi).lt (s.getD lo) then .error .startAfterEnd
        else
          match expandSelected dates (some (s.getD lo)) (some (e.getD hi)) with
          | .error x => .error x
          | .ok sel =>
            match meanInterval dates with
            | .error x => .error x
            | .ok k => .ok ⟨sel, s.getD lo, (e.getD hi).ordinal + k⟩ := by
  obtain ⟨lo, hlo, lom, lol⟩ := TimeCoordinates.minDate_spec hne hv
  obtain ⟨hi, hhi, him, hil⟩ := TimeCoordinates.maxDate_spec hne hv
  exact ⟨lo, hi, lom, him, lol, hil, by unfold period; rw [hlo, hhi]; rfl⟩

/-- What an accepted request is: its limits are dates of the data in order, and what the page says. -/
theorem period_ok {dates : List CDate} (hne : dates ≠ []) (hv : ∀ d ∈ dates, d.Valid)
    {s e : Option CDate} {p : Period} (h : period dates s e = .ok p) :
    ∃ a b k, a ∈ dates ∧ b ∈ dates ∧ a.ordinal ≤ b.ordinal ∧ (∀ x ∈ s, x = a) ∧ (∀ x ∈ e, x = b) ∧
      (s = none → ∀ d ∈ dates, a.ordinal ≤ d.ordinal) ∧ (e = none → ∀ d ∈ dates, d.ordinal ≤ b.ordinal) ∧
      expandSelected dates (some a) (some b) = .ok p.selected ∧ meanInterval dates = .ok k ∧
      p.start = a ∧ p.shownEnd = b.ordinal + k := by
  obtain ⟨lo, hi, lom, him, lol, hil, hp⟩ := period_unfold hne hv s e
  rw [hp] at h
  split_ifs at h with h1 h2 h3
  cases hx : expandSelected dates (some (s.getD lo)) (some (e.getD hi)) with
  | error _ => rw [hx] at h; cases h
  | ok sel =>
    rw [hx] at h
    cases hk : meanInterval dates with
    | error _ => rw [hk] at h; cases h
    | ok k =>
      rw [hk] at h
      cases h
      refine ⟨s.getD lo, e.getD hi, k, h1, h2, ?_, ?_, ?_, ?_, ?_, hx, rfl, rfl, rfl⟩
      · rw [lt_iff (hv _ h2) (hv _ h1)] at h3; omega
      · rintro x hx; rw [Option.mem_def.1 hx]; rfl
      · rintro x hx; rw [Option.mem_def.1 hx]; rfl
      · rintro rfl; exact lol
      · rintro rfl; exact hil

/-- **C99 (which requests are accepted).** The page is made exactly if every limit given is a date of the
data, the first is not after the last, and the dates are regular. -/
theorem page_accepted_iff (dates : List CDate) (h2 : 2 ≤ dates.length) (hv : ∀ d ∈ dates, d.Valid)
    (s e : Option CDate) : (∃ p, period dates s e = .ok p) ↔
      (∀ a ∈ s, a ∈ dates) ∧ (∀ b ∈ e, b ∈ dates) ∧ (∀ a ∈ s, ∀ b ∈ e, a.ordinal ≤ b.ordinal) ∧
        isRegular dates = true := by
  have hne : dates ≠ [] := by rintro rfl; simp at h2
  constructor
  · rintro ⟨p, h⟩
    obtain ⟨a, b, k, ha, hb, hab, hs, he, -, -, -, hk, -, -⟩ := period_ok hne hv h
    refine ⟨fun x hx => hs x hx ▸ ha, fun x hx => he x hx ▸ hb, fun x hx y hy => ?_, ?_⟩
    · rw [hs x hx, he y hy]; exact hab
    · exact (TimeCoordinates.Props.interval_days_correct dates h2).1.1 ⟨k, hk⟩
  · rintro ⟨hs, he, hse, hr⟩
    obtain ⟨lo, hi, lom, him, lol, hil, hp⟩ := period_unfold hne hv s e
    have ha : s.getD lo ∈ dates := by
      cases s with
      | none => exact lom
      | some a => exact hs a rfl
    have hb : e.getD hi ∈ dates := by
      cases e with
      | none => exact him
      | some b => exact he b rfl
    have hab : (s.getD lo).ordinal ≤ (e.getD hi).ordinal := by
      cases s with
      | none => exact lol _ hb
      | some a =>
        cases e with
        | none => exact hil _ ha
        | some b => exact hse a rfl b rfl
    obtain ⟨r, hx⟩ := (TimeCoordinates.Props.selection_accepted_iff dates hne hv
      (some (s.getD lo)) (some (e.getD hi))).2
      ⟨fun x hx => by cases hx; exact ha, fun x hx => by cases hx; exact hb,
        fun x hx y hy => by cases hx; cases hy; exact hab⟩
    obtain ⟨k, hk⟩ := (TimeCoordinates.Props.interval_days_correct dates h2).1.2 hr
    refine ⟨⟨r, s.getD lo, (e.getD hi).ordinal + k⟩, ?_⟩
    rw [hp, if_neg (not_not.2 ha), if_neg (not_not.2 hb), if_neg, hx, hk]
    rw [lt_iff (hv _ hb) (hv _ ha)]
    omega

/-- **C99 (period).** The page covers exactly the dates between the limits.  They are never empty, so every
card that reads an empty selection as "everything" shows the same dates.  The first date shown is the first
of them, and the last date shown is one mean interval after the last of them. -/
theorem page_period (dates : List CDate) (hne : dates ≠ []) (hv : ∀ d ∈ dates, d.Valid)
    (hinc : Increasing dates) (s e : Option CDate) (p : Period) (h : period dates s e = .ok p) :
    p.selected.getD dates = dates.filter (fun d => decide (Within s e d)) ∧
    orNone p.selected = p.selected ∧
    (p.selected.getD dates).head? = some p.start ∧
    ∃ last k, (p.selected.getD dates).getLast? = some last ∧ meanInterval dates = .ok k ∧
      p.shownEnd = last.ordinal + k := by
  obtain ⟨a, b, k, ha, hb, hab, hs, he, hsn, hen, hx, hk, hst, hend⟩ := period_ok hne hv h
  have hsel := TimeCoordinates.Props.selection_exact dates hne hv _ _ _ hx
  have hw : ∀ d ∈ dates, (Within (some a) (some b) d ↔ Within s e d) := by
    intro d hd
    unfold Within
    constructor
    · rintro ⟨w1, w2⟩
      exact ⟨fun x hx => by rw [hs x hx]; exact w1 a rfl, fun x hx => by rw [he x hx]; exact w2 b rfl⟩
    · rintro ⟨w1, w2⟩
      refine ⟨fun x hx => ?_, fun x hx => ?_⟩
      · cases hx
        cases s with
        | none => exact hsn rfl d hd
        | some y => rw [← hs y rfl]; exact w1 y rfl
      · cases hx
        cases e with
        | none => exact hen rfl d hd
        | some y => rw [← he y rfl]; exact w2 y rfl
  have hmem : ∀ d, d ∈ p.selected.getD dates ↔ d ∈ dates ∧ a.ordinal ≤ d.ordinal ∧ d.ordinal ≤ b.ordinal := by
    intro d
    rw [hsel, List.mem_filter]
    simp [Within]
  have hinc' : Increasing (p.selected.getD dates) := by
    rw [hsel]; exact List.Pairwise.filter _ hinc
  have hA : a ∈ p.selected.getD dates := (hmem a).2 ⟨ha, le_rfl, hab⟩
  have hB : b ∈ p.selected.getD dates := (hmem b).2 ⟨hb, hab, le_rfl⟩
  refine ⟨?_, ?_, ?_, b, k, ?_, hk, hend⟩
  · rw [hsel]
    exact List.filter_congr fun d hd => by simp only [hw d hd]
  · cases hp : p.selected with
    | none => rfl
    | some l =>
      cases l with
      | nil => rw [hp] at hA; cases hA
      | cons x l => rfl
  · cases hl : p.selected.getD dates with
    | nil => rw [hl] at hA; cases hA
    | cons x l =>
      rw [hl] at hA hinc'
      rw [hst]
      rcases List.mem_cons.1 hA with rfl | hA'
      · rfl
      · have := (List.pairwise_cons.1 hinc').1 a hA'
        have := ((hmem x).1 (by rw [hl]; simp)).2.1
        omega
  · rcases List.eq_nil_or_concat (p.selected.getD dates) with hl | ⟨l, x, hl⟩
    · rw [hl] at hA; cases hA
    · rw [List.concat_eq_append] at hl
      rw [hl] at hB hinc'
      rw [hl, List.getLast?_concat]
      rcases List.mem_append.1 hB with hB' | hB'
      · have := (List.pairwise_append.1 hinc').2.2 b hB' x (by simp)
        have := ((hmem x).1 (by rw [hl]; simp)).2.2
        omega
      · rw [List.mem_singleton.1 hB']

/-- **C99 (days and weeks).** For dates at equal distances the last date shown is the day after the period:
the day where the next date of the data begins, if there is one. -/
theorem shown_end_regular (dates : List CDate) (h2 : 2 ≤ dates.length) (hv : ∀ d ∈ dates, d.Valid)
    (hinc : Increasing dates) (n : ℤ) (hn : ∀ a b, Next dates a b → days a b = n)
    (s e : Option CDate) (p : Period) (h : period dates s e = .ok p) (last : CDate)
    (hl : (p.selected.getD dates).getLast? = some last) :
    p.shownEnd = last.ordinal + n ∧ ∀ b, Next dates last b → p.shownEnd = b.ordinal := by
  have hne : dates ≠ [] := by rintro rfl; simp at h2
  obtain ⟨-, -, -, last', k, hl', hk, hend⟩ := page_period dates hne hv hinc s e p h
  have : last' = last := by rw [hl] at hl'; cases hl'; rfl
  subst this
  obtain ⟨k1, k2⟩ := (TimeCoordinates.Props.interval_days_correct dates h2).2 k n n hk
    (fun a b hab => by rw [hn a b hab]; exact ⟨le_rfl, le_rfl⟩)
  have hkn : k = n := by omega
  refine ⟨by rw [hend, hkn], fun b hb => ?_⟩
  have := hn _ _ hb
  unfold days at this
  rw [hend, hkn]
  omega

/-- Two months of a monthly model. -/
def months : List CDate := [⟨2021, 1, 1⟩, ⟨2021, 2, 1⟩, ⟨2021, 3, 1⟩]

/-- **C99 (finding, months).** For monthly data the last date shown need not be the end of the period: the
page for January 2021 ends on January 31 and the page for January and February on March 3. -/
theorem shown_end_months :
    (∃ p, period months none (some ⟨2021, 1, 1⟩) = .ok p ∧ p.shownEnd = CDate.ordinal ⟨2021, 1, 31⟩) ∧
    ∃ p, period months none (some ⟨2021, 2, 1⟩) = .ok p ∧ p.shownEnd = CDate.ordinal ⟨2021, 3, 3⟩ :=
  ⟨⟨_, rfl, by decide +kernel⟩, ⟨_, rfl, by decide +kernel⟩⟩

/-- **C99 (granularity).** The charts over time are weekly exactly if fewer than 52 dates are selected. -/
theorem charts_granularity (dates : List CDate) (hne : dates ≠ []) (hv : ∀ d ∈ dates, d.Valid)
    (hinc : Increasing dates) (s e : Option CDate) (p : Period) (h : period dates s e = .ok p) :
    granularity dates p.selected = .weekly ↔
      (dates.filter fun d => decide (Within s e d)).length < 52 := by
  rw [← (page_period dates hne hv hinc s e p h).1]
  unfold granularity
  cases p.selected with
  | none =>
    simp only [Option.getD_none]
    split_ifs with h1 <;> simp [h1]
  | some l =>
    simp only [Option.getD_some]
    split_ifs with h1 <;> simp [h1]

/-- **C99 (finding, granularity).** The rule counts dates, not days: a page on three years of monthly data
has "weekly" charts, a page on two months of daily data has "quarterly" ones. -/
theorem granularity_ignores_cadence :
    (let d := TimeCoordinates.Props.calendarDates ⟨2021, 1, 1⟩ 1 36
     granularity d none = .weekly ∧ d.getLast? = some ⟨2023, 12, 1⟩) ∧
    let d := (List.range 31).map (fun i => (⟨2021, 1, i + 1⟩ : CDate)) ++
      (List.range 28).map fun i => (⟨2021, 2, i + 1⟩ : CDate)
    granularity d none = .quarterly ∧ d.getLast? = some ⟨2021, 2, 28⟩ := by
  decide +kernel

example : period ((List.range 4).map fun i => (⟨2024, 1, 1 + 7 * i⟩ : CDate)) (some ⟨2024, 1, 8⟩)
    (some ⟨2024, 1, 15⟩) =
      .ok ⟨some [⟨2024, 1, 8⟩, ⟨2024, 1, 15⟩], ⟨2024, 1, 8⟩, (CDate.ordinal ⟨2024, 1, 22⟩ : ℕ)⟩ := by
  decide +kernel

/-! ### The table of accuracy -/

/-- The row of the table for a set of observations. -/
def whole (label : String) (pc : Fl → Text) (r : Row) : String × Text × Text × Text :=
  (label, flText 2 r.rsquared, pc r.mape, pc r.wmape)

/-- **C99 (accuracy table).** The table has one row per evaluation set (one, without a holdout), and each
row shows the metrics of the national totals over all geos and the selected times. -/
theorem accuracy_rows {norm : String → Option String} {c : Ctx} (wf : WellFormed c)
    (hn : Verif.Accuracy.Props.DistinctDates norm c.times) (hg : c.geos ≠ []) {sel : Option (List String)}
    (hT : ∀ l, sel = some l → ∀ t ∈ l, t ∈ c.times) (hne : sel ≠ some []) :
    table norm c sel = .ok (match c.hold with
      | none => [whole "All Data" pct0
          (metrics (nationalObs c (List.range c.geos.length) (chosen c.times sel) fun _ _ => true))]
      | some held => [("Training Data", EvalSet.train), ("Testing Data", .test), ("All Data", .all)].map
          fun x => whole x.1 pct (metrics (nationalObs c (List.range c.geos.length) (chosen c.times sel)
            (inSet held x.2)))) := by
  have hs : orNone sel = sel := by
    cases sel with
    | none => rfl
    | some l => cases l with
      | nil => exact absurd rfl hne
      | cons => rfl
  have hch : chosen c.geos none ≠ [] := by
    simp only [chosen, ne_eq, List.range_eq_nil, List.length_eq_zero_iff]; exact hg
  have ht := Verif.Accuracy.Props.accuracy_table (norm := norm) (selG := none) (selT := sel) wf hn
    (by rintro l ⟨⟩) hT hch
  unfold table
  rw [hs, ht]
  simp only
  unfold Verif.Accuracy.Spec.table grans
  cases hc : c.hold with
  | none =>
    cases c.national <;> rfl
  | some held =>
    cases c.national <;> rfl

open Verif.Accuracy.Props in
/-- Two geos, three weeks, the second held out: its national row is a single observation. -/
example : table day demo none = .ok
    [("Training Data", "0.75".toList, "7%".toList, "7%".toList),
     ("Testing Data", "-inf".toList, "7%".toList, "7%".toList),
     ("All Data", "0.62".toList, "7%".toList, "7%".toList)] := by
  rw [accuracy_rows (by intro h; cases h) ⟨by decide +kernel, by decide +kernel⟩ (by simp [demo])
    (by intro l hl; cases hl) (by simp)]
  decide +kernel

/-- **C99 (reading the table).** A finite R-squared is shown with two decimals, within half a hundredth; a
finite MAPE of at least 1% within half a percent, with or without a holdout. -/
theorem cells_read (q : ℚ) :
    (∃ v, Shows (decide (q < 0)) [] (flText 2 (.fin q)) 2 1 v ∧ |v - q| ≤ 1 / 200) ∧
    (1 / 100 ≤ q → pct (.fin q) = pct0 (.fin q) ∧
      ∃ body v, pct (.fin q) = body ++ ['%'] ∧ Formatter.Spec.Plain body 0 v ∧ |v - 100 * q| ≤ 1 / 2) := by
  constructor
  · obtain ⟨v, h1, h2⟩ := Formatter.Props.fixed_read q 2
    exact ⟨v, h1, le_trans h2 (by norm_num)⟩
  · intro h
    refine ⟨?_, (Formatter.Props.percent_read q).1 h⟩
    simp only [pct, pct0, percent, if_pos h]

/-- **C99 (finding, small errors).** An error of 0.4% is shown as 0.4% in the page of a model with a
holdout and as 0% in the page of a model without one. -/
theorem small_error_shown : pct (.fin (4 / 1000)) = "0.4%".toList ∧ pct0 (.fin (4 / 1000)) = "0%".toList := by
  decide +kernel

/-! ### The channels named -/

theorem sorted_first {sort} (hs : Sorts sort) (small : Bool) (x : Metric) (p : String × Fl) (l : Metric)
    (h : sorted sort small x = p :: l) : Best small x p := by
  obtain ⟨h1, h2⟩ := hs small (channels x)
  have hd : sort small (channels x) = p :: l := h
  rw [hd] at h1 h2
  refine ⟨h1.subset (by simp), fun q hq hn => ?_⟩
  rcases List.mem_cons.1 (h1.symm.subset hq) with rfl | hq'
  · cases hq2 : q.2 with
    | nan => exact absurd hq2 hn
    | pinf => cases small <;> simp [AsGood, Le]
    | ninf => cases small <;> simp [AsGood, Le]
    | fin a => cases small <;> simp [AsGood, Le]
  · rcases (List.pairwise_cons.1 h2).1 q hq' with h3 | h3
    · exact absurd h3 hn
    · exact h3

/-- **C99 (sentences on performance).** The sentences can be written exactly if there is a paid channel in
each metric, and each of them names a channel that is best among the paid channels, with its own value. -/
theorem insights_best {sort} (hs : Sorts sort) (m : Metrics) (i : Insights) (h : insights sort m = .ok i) :
    (∃ p, Best false m.roi p ∧ i.roiChannel = title p.1 ∧ i.roiShort = flText 1 p.2 ∧ i.roiLong = flText 2 p.2) ∧
    (∃ p, Best false m.effectiveness p ∧ i.effectivenessChannel = title p.1) ∧
    (∃ p, Best false m.mroi p ∧ i.mroiChannel = title p.1 ∧ i.mroi = flText 2 p.2) ∧
    ∃ p, Best true m.cpik p ∧ i.cpikChannel = title p.1 ∧ i.cpik = flText 2 p.2 := by
  have hlead : ∀ {b x p}, lead sort b x = .ok p → Best b x p := by
    intro b x p hp
    unfold lead at hp
    cases hl : sorted sort b x with
    | nil => rw [hl] at hp; cases hp
    | cons y l => rw [hl] at hp; cases hp; exact sorted_first hs b x p l hl
  unfold insights at h
  cases h1 : lead sort false m.roi with
  | error _ => rw [h1] at h; cases h
  | ok a =>
  cases h2 : lead sort false m.effectiveness with
  | error _ => rw [h1, h2] at h; cases h
  | ok b =>
  cases h3 : lead sort false m.mroi with
  | error _ => rw [h1, h2, h3] at h; cases h
  | ok c =>
  cases h4 : lead sort true m.cpik with
  | error _ => rw [h1, h2, h3, h4] at h; cases h
  | ok d =>
    rw [h1, h2, h3, h4] at h
    cases h
    exact ⟨⟨a, hlead h1, rfl, rfl, rfl⟩, ⟨b, hlead h2, rfl⟩, ⟨c, hlead h3, rfl, rfl⟩, d, hlead h4, rfl, rfl⟩

theorem lead_ok_iff {sort} (hs : Sorts sort) (small : Bool) (x : Metric) :
    (∃ p, lead sort small x = .ok p) ↔ channels x ≠ [] := by
  have hp := (hs small (channels x)).1
  have hd : sorted sort small x = sort small (channels x) := rfl
  unfold lead
  rw [hd]
  cases hl : sort small (channels x) with
  | nil =>
    rw [hl] at hp
    simp [hp.symm.eq_nil]
  | cons y l =>
    rw [hl] at hp
    refine ⟨fun _ h0 => ?_, fun _ => ⟨y, rfl⟩⟩
    rw [h0] at hp
    exact absurd hp.eq_nil (by simp)

/-- **C99 (sentences on performance, accepted).** They are written exactly if each metric has a channel. -/
theorem insights_ok_iff {sort} (hs : Sorts sort) (m : Metrics) : (∃ i, insights sort m = .ok i) ↔
    channels m.roi ≠ [] ∧ channels m.effectiveness ≠ [] ∧ channels m.mroi ≠ [] ∧ channels m.cpik ≠ [] := by
  rw [← lead_ok_iff hs false, ← lead_ok_iff hs false, ← lead_ok_iff hs false, ← lead_ok_iff hs true]
  unfold insights
  constructor
  · rintro ⟨i, h⟩
    cases h1 : lead sort false m.roi with
    | error _ => rw [h1] at h; cases h
    | ok a =>
    cases h2 : lead sort false m.effectiveness with
    | error _ => rw [h1, h2] at h; cases h
    | ok b =>
    cases h3 : lead sort false m.mroi with
    | error _ => rw [h1, h2, h3] at h; cases h
    | ok c =>
    cases h4 : lead sort true m.cpik with
    | error _ => rw [h1, h2, h3, h4] at h; cases h
    | ok d => exact ⟨⟨a, rfl⟩, ⟨b, rfl⟩, ⟨c, rfl⟩, d, rfl⟩
  · rintro ⟨⟨a, h1⟩, ⟨b, h2⟩, ⟨c, h3⟩, d, h4⟩
    rw [h1, h2, h3, h4]
    exact ⟨_, rfl⟩

/-- **C99 (sentence on the outcome).** With two channels or more the sentence names two of them: no other
channel with a number has a larger incremental outcome than either, and the first named is not smaller than
the second. -/
theorem two_largest_named {sort} (hs : Sorts sort) (x : Metric) (h2 : 2 ≤ (channels x).length) :
    ∃ p q rest, (channels x).Perm (p :: q :: rest) ∧
      leadText sort x = title p.1 ++ " and ".toList ++ title q.1 ∧
      (q.2 ≠ .nan → Le q.2 p.2) ∧ ∀ r ∈ rest, r.2 ≠ .nan → Le r.2 q.2 ∧ Le r.2 p.2 := by
  obtain ⟨hp, ho⟩ := hs false (channels x)
  have hd : sorted sort false x = sort false (channels x) := rfl
  have hlen := hp.length_eq
  match hl : sort false (channels x) with
  | [] => rw [hl] at hlen; simp at hlen; omega
  | [a] => rw [hl] at hlen; simp at hlen; omega
  | a :: b :: l =>
    rw [hl] at hp ho
    obtain ⟨o1, o2⟩ := List.pairwise_cons.1 ho
    obtain ⟨o3, -⟩ := List.pairwise_cons.1 o2
    refine ⟨a, b, l, hp.symm, ?_, ?_, ?_⟩
    · unfold leadText leadNames
      rw [hd, hl]
      rfl
    · intro hn
      exact (o1 b (by simp)).resolve_left hn
    · intro r hr hn
      exact ⟨(o3 r hr).resolve_left hn, (o1 r (by simp [hr])).resolve_left hn⟩

/-- **C99 (one channel).** With one channel the sentence names it. -/
theorem single_named {sort} (hs : Sorts sort) (x : Metric) (p) (h : channels x = [p]) :
    leadText sort x = title p.1 := by
  have hp := (hs false (channels x)).1
  have hd : sorted sort false x = sort false (channels x) := rfl
  rw [h] at hp hd
  rw [List.perm_singleton.1 hp] at hd
  unfold leadText leadNames
  rw [hd]
  rfl

/-- **C99 (finding, no spend).** A channel whose ROI is infinite, as that of a channel without spend in the
period but with an effect from earlier, has an infinite ROI in the sentence on the highest ROI, whatever the
other channels are. -/
theorem infinite_roi_named {sort} (hs : Sorts sort) (m : Metrics) (i : Insights)
    (h : insights sort m = .ok i) (p) (hp : p ∈ channels m.roi) (hi : p.2 = .pinf) :
    i.roiLong = "inf".toList := by
  obtain ⟨⟨q, ⟨-, hq⟩, -, -, h3⟩, -⟩ := insights_best hs m i h
  have := hq p hp (by rw [hi]; simp)
  rw [hi] at this
  rw [h3]
  cases hq2 : q.2 <;> rw [hq2] at this <;> simp [AsGood, Le] at this
  decide

/-- **C99 (finding, negative cost).** A channel whose incremental KPI is estimated to be negative has a
negative cost per incremental KPI; if there is one, the sentence on the lowest cost names such a channel. -/
theorem negative_cost_named {sort} (hs : Sorts sort) (m : Metrics) (i : Insights)
    (h : insights sort m = .ok i) (p) (hp : p ∈ channels m.cpik) (q : ℚ) (hq : p.2 = .fin q) (h0 : q < 0) :
    ∃ r ∈ channels m.cpik, i.cpikChannel = title r.1 ∧ i.cpik = flText 2 r.2 ∧
      (r.2 = .ninf ∨ ∃ z, r.2 = .fin z ∧ z < 0) := by
  obtain ⟨-, -, -, ⟨r, ⟨hr, hb⟩, h1, h2⟩⟩ := insights_best hs m i h
  have := hb p hp (by rw [hq]; simp)
  rw [hq] at this
  refine ⟨r, hr, h1, h2, ?_⟩
  cases hr2 : r.2 <;> rw [hr2] at this <;> simp [AsGood, Le] at this
  · exact .inl rfl
  · exact .inr ⟨_, rfl, this.trans_lt h0⟩

/-- **C99 (finding, names).** The sentences change the capitals of a name, so that different channels can be
named alike. -/
theorem names_alike : title "TV" = title "tv" ∧ title "YouTube" = "Youtube".toList := by decide +kernel

/-- Stable insertion of a row, as a sort of the table library. -/
def insertRow (small : Bool) (p : String × Fl) : Metric → Metric
  | [] => [p]
  | q :: l => if q.2 = .nan ∨ AsGood small p.2 q.2 then p :: q :: l else q :: insertRow small p l

/-- A sort by insertion. -/
def demoSort (small : Bool) (l : Metric) : Metric := l.foldr (insertRow small) []

theorem good_total (small : Bool) {a b : Fl} (ha : a ≠ .nan) (hb : b ≠ .nan) :
    AsGood small a b ∨ AsGood small b a := by
  cases small <;> cases a <;> cases b <;> simp_all [AsGood, Le] <;> exact le_total _ _

theorem good_trans (small : Bool) {a b c : Fl} (h1 : AsGood small a b) (h2 : AsGood small b c) :
    AsGood small a c := by
  cases small <;> cases a <;> cases b <;> cases c <;> simp_all [AsGood, Le] <;> exact le_trans ‹_› ‹_›

theorem good_nan (small : Bool) {a b : Fl} (h : AsGood small a b) : a ≠ .nan ∧ b ≠ .nan := by
  cases small <;> cases a <;> cases b <;> simp_all [AsGood, Le]

theorem insertRow_perm (small : Bool) (p) (l : Metric) : (insertRow small p l).Perm (p :: l) := by
  induction l with
  | nil => exact List.Perm.refl _
  | cons q l ih =>
    unfold insertRow
    split_ifs
    · exact List.Perm.refl _
    · exact (ih.cons q).trans (List.Perm.swap p q l)

/-- There is such a sort. -/
theorem demo_sorts : Sorts demoSort := by
  intro small l
  induction l with
  | nil => exact ⟨List.Perm.refl _, List.Pairwise.nil⟩
  | cons p l ih =>
    obtain ⟨h1, h2⟩ := ih
    refine ⟨(insertRow_perm small p _).trans (h1.cons p), ?_⟩
    show (insertRow small p (demoSort small l)).Pairwise _
    generalize demoSort small l = k at h2
    induction k with
    | nil => exact List.pairwise_singleton _ _
    | cons q k ih =>
      obtain ⟨o1, o2⟩ := List.pairwise_cons.1 h2
      unfold insertRow
      split_ifs with hc
      · refine List.pairwise_cons.2 ⟨fun r hr => ?_, h2⟩
        rcases List.mem_cons.1 hr with rfl | hr'
        · exact hc
        · rcases o1 r hr' with h | h
          · exact .inl h
          · rcases hc with hc | hc
            · exact absurd hc (good_nan small h).1
            · exact .inr (good_trans small hc h)
      · refine List.pairwise_cons.2 ⟨fun r hr => ?_, ih o2⟩
        rcases List.mem_cons.1 ((insertRow_perm small p k).subset hr) with rfl | hr'
        · push Not at hc
          by_cases hr : r.2 = .nan
          · exact .inl hr
          · exact .inr ((good_total small hr hc.1).resolve_left hc.2)
        · exact o1 r hr'

/-- Three channels and the total; the cost of the second is negative. -/
def demoMetrics : Metrics where
  roi := [("tv", .fin (5 / 4)), ("search", .fin (-1 / 2)), ("print", .pinf), ("All Channels", .fin 1)]
  effectiveness := [("tv", .fin 2), ("search", .fin (-3)), ("print", .nan), ("All Channels", .fin 9)]
  mroi := [("tv", .fin (1 / 2)), ("search", .fin 3), ("print", .fin 1), ("All Channels", .fin 9)]
  cpik := [("tv", .fin (4 / 5)), ("search", .fin (-2)), ("print", .fin 0), ("All Channels", .fin 1)]

example : insights demoSort demoMetrics = .ok ⟨"Print".toList, "inf".toList, "inf".toList, "Tv".toList,
    "Search".toList, "3.00".toList, "Search".toList, "-2.00".toList⟩ := by decide +kernel

example : leadText demoSort demoMetrics.effectiveness = "Tv and Search".toList := by decide +kernel

/-! ### The optimal frequency -/

theorem idxmaxFrom_spec (l : List (String × Num)) (best : Option (String × ℚ)) (n : String)
    (h : idxmaxFrom best l = some n) :
    ∃ x, ((best = some (n, x)) ∨ ∃ a b, l = a ++ (n, some x) :: b ∧
        (∀ m y, best = some (m, y) → y < x) ∧ ∀ m y, (m, some y) ∈ a → y < x) ∧
      (∀ m y, best = some (m, y) → y ≤ x) ∧ ∀ m y, (m, some y) ∈ l → y ≤ x := by
  induction l generalizing best with
  | nil =>
    unfold idxmaxFrom at h
    cases best with
    | none => cases h
    | some b =>
      cases h
      exact ⟨b.2, .inl rfl, fun m y hm => by cases hm; exact le_rfl, fun m y hm => by cases hm⟩
  | cons q l ih =>
    obtain ⟨qn, qx⟩ := q
    cases qx with
    | none =>
      simp only [idxmaxFrom] at h
      obtain ⟨x, h1, h2, h3⟩ := ih best h
      refine ⟨x, ?_, h2, fun m y hm => ?_⟩
      · rcases h1 with h1 | ⟨a, b, h1, h4, h5⟩
        · exact .inl h1
        · refine .inr ⟨(qn, none) :: a, b, by rw [h1]; rfl, h4, fun m y hm => ?_⟩
          rcases List.mem_cons.1 hm with hm | hm
          · cases hm
          · exact h5 m y hm
      · rcases List.mem_cons.1 hm with hm | hm
        · cases hm
        · exact h3 m y hm
    | some z =>
      have key : ∀ x, ((some (qn, z) = some (n, x)) ∨ ∃ a b, l = a ++ (n, some x) :: b ∧
            (∀ m y, some (qn, z) = some (m, y) → y < x) ∧ ∀ m y, (m, some y) ∈ a → y < x) →
          (∀ m y, some (qn, z) = some (m, y) → y ≤ x) → (∀ m y, (m, some y) ∈ l → y ≤ x) →
          (∀ m y, best = some (m, y) → y < z) →
          ((best = some (n, x)) ∨ ∃ a b, (qn, some z) :: l = a ++ (n, some x) :: b ∧
            (∀ m y, best = some (m, y) → y < x) ∧ ∀ m y, (m, some y) ∈ a → y < x) ∧
          (∀ m y, best = some (m, y) → y ≤ x) ∧ ∀ m y, (m, some y) ∈ (qn, some z) :: l → y ≤ x := by
        intro x h1 h2 h3 hb
        have hzx := h2 qn z rfl
        refine ⟨.inr ?_, fun m y hm => ((hb m y hm).trans_le hzx).le, fun m y hm => ?_⟩
        · rcases h1 with h1 | ⟨a, b, h1, h4, h5⟩
          · cases h1
            exact ⟨[], l, rfl, hb, fun m y hm => by cases hm⟩
          · refine ⟨(qn, some z) :: a, b, by rw [h1]; rfl, fun m y hm => (hb m y hm).trans_le hzx,
              fun m y hm => ?_⟩
            rcases List.mem_cons.1 hm with hm | hm
            · cases hm; exact h4 qn z rfl
            · exact h5 m y hm
        · rcases List.mem_cons.1 hm with hm | hm
          · cases hm; exact hzx
          · exact h3 m y hm
      cases best with
      | none =>
        simp only [idxmaxFrom] at h
        obtain ⟨x, h1, h2, h3⟩ := ih _ h
        exact ⟨x, key x h1 h2 h3 (fun m y hm => by cases hm)⟩
      | some b =>
        simp only [idxmaxFrom] at h
        split_ifs at h with hc
        · obtain ⟨x, h1, h2, h3⟩ := ih _ h
          exact ⟨x, key x h1 h2 h3 (fun m y hm => by cases hm; exact hc)⟩
        · obtain ⟨x, h1, h2, h3⟩ := ih _ h
          have hbx := h2 b.1 b.2 rfl
          refine ⟨x, ?_, h2, fun m y hm => ?_⟩
          · rcases h1 with h1 | ⟨a, b', h1, h4, h5⟩
            · exact .inl h1
            · refine .inr ⟨(qn, some z) :: a, b', by rw [h1]; rfl, h4, fun m y hm => ?_⟩
              rcases List.mem_cons.1 hm with hm | hm
              · cases hm
                exact (not_lt.1 hc).trans_lt (h4 b.1 b.2 rfl)
              · exact h5 m y hm
          · rcases List.mem_cons.1 hm with hm | hm
            · cases hm; exact (not_lt.1 hc).trans hbx
            · exact h3 m y hm

theorem idxmaxFrom_some (l : List (String × Num)) (best : Option (String × ℚ)) :
    (∃ n, idxmaxFrom best l = some n) ↔ best ≠ none ∨ ∃ m y, (m, some y) ∈ l := by
  induction l generalizing best with
  | nil => cases best <;> simp [idxmaxFrom]
  | cons q l ih =>
    obtain ⟨qn, qx⟩ := q
    cases qx with
    | none => simp only [idxmaxFrom]; rw [ih]; simp
    | some z =>
      cases best with
      | none =>
        simp only [idxmaxFrom]; rw [ih]
        exact ⟨fun _ => .inr ⟨qn, z, by simp⟩, fun _ => .inl (by simp)⟩
      | some b =>
        simp only [idxmaxFrom]
        split_ifs <;> rw [ih] <;> simp

theorem find_name {α : Type} {l : List (String × α)} (hd : (l.map Prod.fst).Nodup) {n : String} {x : α}
    (h : (n, x) ∈ l) : (l.find? fun p => p.1 = n) = some (n, x) := by
  induction l with
  | nil => cases h
  | cons q l ih =>
    simp only [List.map_cons, List.nodup_cons] at hd
    rw [List.find?_cons]
    rcases List.mem_cons.1 h with rfl | h'
    · simp
    · have : q.1 ≠ n := by
        rintro rfl
        exact hd.1 (List.mem_map.2 ⟨_, h', rfl⟩)
      simp only [this, decide_false]
      exact ih hd.2 h'

theorem select_spec (spend : List (String × Num)) (names : List String) :
    ((∃ l, select spend names = .ok l) ↔ ∀ n ∈ names, n ∈ spend.map Prod.fst) ∧
    ∀ l, select spend names = .ok l → l.map Prod.fst = names ∧ ∀ p ∈ l, p ∈ spend := by
  induction names with
  | nil => simp [select]
  | cons n names ih =>
    unfold select
    cases hf : spend.find? fun p => p.1 = n with
    | none =>
      simp only [List.find?_eq_none, decide_eq_true_eq] at hf
      refine ⟨⟨by rintro ⟨l, ⟨⟩⟩, fun h => ?_⟩, by rintro l ⟨⟩⟩
      obtain ⟨p, hp, he⟩ := List.mem_map.1 (h n (by simp))
      exact absurd he (hf p hp)
    | some p =>
      have hp1 : p.1 = n := by simpa using List.find?_some hf
      have hp2 := List.mem_of_find?_eq_some hf
      cases hr : select spend names with
      | error _ =>
        refine ⟨⟨by rintro ⟨l, ⟨⟩⟩, fun h => ?_⟩, by rintro l ⟨⟩⟩
        obtain ⟨l, hl⟩ := ih.1.2 fun m hm => h m (by simp [hm])
        rw [hr] at hl; cases hl
      | ok r =>
        obtain ⟨i1, i2⟩ := ih.2 r hr
        refine ⟨⟨fun _ => ?_, fun _ => ⟨_, rfl⟩⟩, ?_⟩
        · intro m hm
          rcases List.mem_cons.1 hm with rfl | hm
          · exact List.mem_map.2 ⟨p, hp2, hp1⟩
          · exact ih.1.1 ⟨r, hr⟩ m hm
        · rintro l ⟨⟩
          refine ⟨by simp [hp1, i1], fun q hq => ?_⟩
          rcases List.mem_cons.1 hq with rfl | hq
          · exact hp2
          · exact i2 q hq

/-- **C99 (optimal frequency).** The sentence names the reach and frequency channel with the largest spend,
the first of them if several are equal, and its own optimal frequency, rounded to a tenth. -/
theorem frequency_named {spend : List (String × Num)} {optimal : List (String × ℚ)}
    (hs : (spend.map Prod.fst).Nodup) (ho : (optimal.map Prod.fst).Nodup) (n : String) (t : Text)
    (h : frequencyText spend optimal = .ok (n, t)) :
    ∃ before after f x, optimal = before ++ (n, f) :: after ∧ (n, some x) ∈ spend ∧ t = fixed f 1 ∧
      (∀ m g y, (m, g) ∈ optimal → (m, some y) ∈ spend → y ≤ x) ∧
      ∀ m g y, (m, g) ∈ before → (m, some y) ∈ spend → y < x := by
  unfold frequencyText optimalRf at h
  cases hl : select spend (optimal.map Prod.fst) with
  | error _ => rw [hl] at h; cases h
  | ok l =>
  rw [hl] at h
  simp only at h
  cases hi : idxmaxFrom none l with
  | none => rw [hi] at h; cases h
  | some k =>
  rw [hi] at h
  simp only at h
  cases hf : optimal.find? fun p => p.1 = k with
  | none => rw [hf] at h; cases h
  | some p =>
  rw [hf] at h
  cases h
  have hk : p.1 = k := by simpa using List.find?_some hf
  obtain ⟨s1, s2⟩ := (select_spec spend _).2 l hl
  obtain ⟨x, h1, -, h3⟩ := idxmaxFrom_spec l none k hi
  obtain ⟨a, b, h1, -, h5⟩ := h1.resolve_left (by simp)
  -- the rows of the spend of a reach and frequency channel
  have hrow : ∀ m y, m ∈ l.map Prod.fst → (m, some y) ∈ spend → (m, some y) ∈ l := by
    intro m y hm hy
    obtain ⟨r, hr, rfl⟩ := List.mem_map.1 hm
    have e1 := find_name hs (s2 r hr)
    have e2 := find_name hs hy
    rw [e1] at e2
    cases r
    cases e2
    exact hr
  have hsplit : optimal.map Prod.fst = a.map Prod.fst ++ k :: b.map Prod.fst := by rw [← s1, h1]; simp
  obtain ⟨o1, o2, ho1, ho2, ho3⟩ := List.map_eq_append_iff.1 hsplit
  obtain ⟨q, o3, ho4, ho5, ho6⟩ := List.map_eq_cons_iff.1 ho3
  have hq : q = p := by
    have e := find_name ho (n := q.1) (x := q.2) (by rw [ho1, ho4]; simp)
    rw [ho5] at e
    rw [e] at hf
    have := Option.some.inj hf
    rw [← this, ← ho5]
  subst hq
  refine ⟨o1, o3, q.2, x, by rw [ho1, ho4], ?_, rfl, ?_, ?_⟩
  · rw [hk]; exact s2 _ (by rw [h1]; simp)
  · intro m g y hm hy
    exact h3 m y (hrow m y (by rw [s1]; exact List.mem_map.2 ⟨_, hm, rfl⟩) hy)
  · intro m g y hm hy
    have hma : m ∈ a.map Prod.fst := by rw [← ho2]; exact List.mem_map.2 ⟨_, hm, rfl⟩
    obtain ⟨r, hr, hrm⟩ := List.mem_map.1 hma
    have hrl : r ∈ l := by rw [h1]; simp [hr]
    have e1 := find_name hs (s2 r hrl)
    rw [hrm, find_name hs hy] at e1
    have e2 : r.2 = some y := by
      have := Option.some.inj e1
      rw [← (Prod.mk.inj this).2]
    exact h5 m y (by rw [← hrm, ← e2]; exact hr)

/-- **C99 (optimal frequency, accepted).** The sentence can be written exactly if every reach and frequency
channel is a paid channel of the summary and one of them has a number as its spend. -/
theorem frequency_ok_iff {spend : List (String × Num)} {optimal : List (String × ℚ)}
    (hs : (spend.map Prod.fst).Nodup) : (∃ r, frequencyText spend optimal = .ok r) ↔
      (∀ p ∈ optimal, p.1 ∈ spend.map Prod.fst) ∧
        ∃ p ∈ optimal, ∃ y, (p.1, some y) ∈ spend := by
  obtain ⟨q1, q2⟩ := select_spec spend (optimal.map Prod.fst)
  unfold frequencyText optimalRf
  constructor
  · rintro ⟨r, h⟩
    cases hl : select spend (optimal.map Prod.fst) with
    | error _ => rw [hl] at h; cases h
    | ok l =>
    rw [hl] at h
    simp only at h
    cases hi : idxmaxFrom none l with
    | none => rw [hi] at h; cases h
    | some k =>
    obtain ⟨s1, s2⟩ := q2 l hl
    refine ⟨fun p hp => q1.1 ⟨l, hl⟩ _ (List.mem_map.2 ⟨p, hp, rfl⟩), ?_⟩
    obtain ⟨m, y, hm⟩ := ((idxmaxFrom_some l none).1 ⟨k, hi⟩).resolve_left (by simp)
    have hml : m ∈ optimal.map Prod.fst := by rw [← s1]; exact List.mem_map.2 ⟨_, hm, rfl⟩
    obtain ⟨p, hp, rfl⟩ := List.mem_map.1 hml
    exact ⟨p, hp, y, s2 _ hm⟩
  · rintro ⟨h1, p, hp, y, hy⟩
    obtain ⟨l, hl⟩ := q1.2 fun n hn => by
      obtain ⟨p, hp, rfl⟩ := List.mem_map.1 hn
      exact h1 p hp
    obtain ⟨s1, s2⟩ := q2 l hl
    have hpl : p.1 ∈ l.map Prod.fst := by rw [s1]; exact List.mem_map.2 ⟨p, hp, rfl⟩
    obtain ⟨r, hr, hrp⟩ := List.mem_map.1 hpl
    have e1 := find_name hs (s2 r hr)
    rw [hrp, find_name hs hy] at e1
    have e2 : r.2 = some y := by
      have := Option.some.inj e1
      rw [← (Prod.mk.inj this).2]
    obtain ⟨k, hk⟩ := (idxmaxFrom_some l none).2 (.inr ⟨p.1, y, by rw [← hrp, ← e2]; exact hr⟩)
    obtain ⟨x, h2, -, -⟩ := idxmaxFrom_spec l none k hk
    obtain ⟨a, b, h2, -, -⟩ := h2.resolve_left (by simp)
    have hkl : k ∈ optimal.map Prod.fst := by rw [← s1, h2]; simp
    obtain ⟨z, hz, hzk⟩ := List.mem_map.1 hkl
    rw [hl]
    simp only [hk]
    cases hf : optimal.find? fun p => p.1 = k with
    | none =>
      simp only [List.find?_eq_none, decide_eq_true_eq] at hf
      exact absurd hzk (hf z hz)
    | some w => exact ⟨_, rfl⟩

/-- **C99 (tenths).** A frequency that is a number of tenths, as those the optimal frequency is searched
over, is shown without rounding. -/
theorem tenths_exact (k : ℕ) : ∃ v, Shows false [] (fixed ((k : ℚ) / 10) 1) 1 1 v ∧ v = k / 10 := by
  have h0 : ¬ ((k : ℚ) / 10 < 0) := not_lt.2 (by positivity)
  have e : |(k : ℚ) / 10| * 10 ^ 1 = k := by
    rw [abs_of_nonneg (by positivity)]; ring
  have hf : fixed ((k : ℚ) / 10) 1 = unsigned k 1 := by
    unfold fixed
    rw [if_neg h0, e, rint_natCast]
    simp
  refine ⟨(k : ℚ) / 10, ⟨[], unsigned k 1, (k : ℚ) / 10, by simp [Formatter.Spec.units], ?_, ?_, ?_⟩, rfl⟩
  · have := Formatter.Props.digits_read k 1
    rwa [pow_one] at this
  · rw [hf]; simp
  · simp

example : frequencyText [("tv", some 10), ("yt", some 30), ("ctv", some 30), ("dv", none)]
    [("dv", 2), ("yt", 31 / 10), ("ctv", 4)] = .ok ("yt", "3.1".toList) := by decide +kernel

end Verif.Page.Props

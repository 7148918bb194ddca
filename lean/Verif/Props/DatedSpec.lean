import Verif.Model.DatedSpec
import Verif.Spec.DatedSpec
import Verif.Props.TimeCoordinates
import Mathlib.Tactic

/-!
# C85: specs with dates
-/

namespace Verif.DatedSpec.Props

open Verif Verif.Calendar Verif.DatedSpec Verif.DatedSpec.Spec
open Verif.TimeCoordinates.Spec (Increasing Within Next days)

/-! ### Days -/

theorem nextDay_valid {a : CDate} (h : a.Valid) : (nextDay a).Valid := by
  obtain ⟨h1, h2, h3, h4, h5⟩ := h
  have hb := daysInMonth_bounds
  unfold nextDay
  split_ifs with c1 c2
  · exact ⟨h1, h2, h3, by simp, by simpa using c1⟩
  · exact ⟨h1, by simp, by simpa using c2, by simp, by have := (hb a.y (a.m + 1)).1; simp; omega⟩
  · exact ⟨by simp, by simp, by simp, by simp, by have := (hb (a.y + 1) 1).1; simp; omega⟩

theorem nextDay_ordinal {a : CDate} (h : a.Valid) : (nextDay a).ordinal = a.ordinal + 1 := by
  obtain ⟨h1, h2, h3, h4, h5⟩ := h
  unfold nextDay
  split_ifs with c1 c2
  · unfold CDate.ordinal; simp only; omega
  · unfold CDate.ordinal
    simp only
    rw [daysBeforeMonth_succ a.y a.m h2]
    omega
  · have hm : a.m = 12 := by omega
    have h13 := daysBeforeMonth_13 a.y
    rw [daysBeforeMonth_succ a.y 12 (by norm_num)] at h13
    unfold CDate.ordinal
    simp only
    rw [daysBeforeYear_succ h1, hm]
    have : daysBeforeMonth (a.y + 1) 1 = 0 := by simp [daysBeforeMonth]
    rw [hm] at c1 h5
    omega

theorem prevDay_spec {a b : CDate} (h : a.Valid) (hb : prevDay a = some b) :
    b.Valid ∧ b.ordinal + 1 = a.ordinal := by
  obtain ⟨h1, h2, h3, h4, h5⟩ := h
  have hbd := daysInMonth_bounds
  unfold prevDay at hb
  split_ifs at hb with c1 c2 c3
  · cases hb
    refine ⟨⟨h1, h2, h3, by simp; omega, by simp; omega⟩, ?_⟩
    unfold CDate.ordinal; simp only; omega
  · cases hb
    have := (hbd a.y (a.m - 1)).1
    refine ⟨⟨h1, by simp; omega, by simp; omega, by simp; omega, by simp⟩, ?_⟩
    have e := daysBeforeMonth_succ a.y (a.m - 1) (by omega)
    rw [show a.m - 1 + 1 = a.m by omega] at e
    unfold CDate.ordinal
    simp only
    omega
  · cases hb
    refine ⟨⟨by simp; omega, by simp, by simp, by simp, by simp [daysInMonth]⟩, ?_⟩
    have hm : a.m = 1 := by omega
    have h13 := daysBeforeMonth_13 (a.y - 1)
    rw [daysBeforeMonth_succ (a.y - 1) 12 (by norm_num)] at h13
    have e31 : daysInMonth (a.y - 1) 12 = 31 := by simp [daysInMonth]
    have e := daysBeforeYear_succ (y := a.y - 1) (by omega)
    rw [show a.y - 1 + 1 = a.y by omega] at e
    have e0 : daysBeforeMonth a.y 1 = 0 := by simp [daysBeforeMonth]
    unfold CDate.ordinal
    simp only
    rw [hm]
    omega

theorem prevDay_none {a : CDate} (h : a.Valid) (hb : prevDay a = none) : a.ordinal = 1 := by
  obtain ⟨h1, h2, h3, h4, h5⟩ := h
  unfold prevDay at hb
  split_ifs at hb with c1 c2 c3
  have e1 : a.y = 1 := by omega
  have e2 : a.m = 1 := by omega
  have e3 : a.d = 1 := by omega
  unfold CDate.ordinal
  rw [e1, e2, e3]
  decide

theorem plusDays_spec {a : CDate} (h : a.Valid) (n : ℕ) :
    (plusDays a n).Valid ∧ (plusDays a n).ordinal = a.ordinal + n := by
  induction n with
  | zero => exact ⟨h, rfl⟩
  | succ n ih =>
    exact ⟨nextDay_valid ih.1, by rw [plusDays, nextDay_ordinal ih.1, ih.2]; rfl⟩

theorem minusDays_spec {a : CDate} (h : a.Valid) (n : ℕ) {b : CDate} (hb : minusDays a n = some b) :
    b.Valid ∧ b.ordinal + n = a.ordinal := by
  induction n generalizing b with
  | zero => cases hb; exact ⟨h, rfl⟩
  | succ n ih =>
    rw [minusDays] at hb
    cases hc : minusDays a n with
    | none => rw [hc] at hb; cases hb
    | some c =>
      rw [hc] at hb
      obtain ⟨i1, i2⟩ := ih hc
      obtain ⟨p1, p2⟩ := prevDay_spec i1 hb
      exact ⟨p1, by omega⟩

theorem minusDays_none {a : CDate} (h : a.Valid) (n : ℕ) (hb : minusDays a n = none) : a.ordinal ≤ n := by
  induction n with
  | zero => cases hb
  | succ n ih =>
    rw [minusDays] at hb
    cases hc : minusDays a n with
    | none => have := ih hc; omega
    | some c =>
      rw [hc] at hb
      obtain ⟨i1, i2⟩ := minusDays_spec h n hc
      have := prevDay_none i1 hb
      omega

theorem plus_minus {a b : CDate} (h : a.Valid) (n : ℕ) (hb : minusDays a n = some b) : plusDays b n = a := by
  obtain ⟨h1, h2⟩ := minusDays_spec h n hb
  obtain ⟨p1, p2⟩ := plusDays_spec h1 n
  exact ordinal_inj p1 h (by omega)

/-! ### Acceptance -/

/-- **C85 (spec).** A spec is accepted unless both dates are given and the start is after the end. -/
theorem spec_accepted_iff (s : DatedSpec.Spec) (hs : ∀ a ∈ s.start, a.Valid) (he : ∀ b ∈ s.stop, b.Valid) :
    validate s = .ok () ↔ ∀ a ∈ s.start, ∀ b ∈ s.stop, a.ordinal ≤ b.ordinal := by
  obtain ⟨st, sp, tag⟩ := s
  unfold validate
  cases st with
  | none => simp
  | some a =>
    cases sp with
    | none => simp
    | some b =>
      have := lt_iff_ordinal (he b (by simp)) (hs a (by simp))
      simp only [Option.mem_def, Option.some.injEq, forall_eq']
      by_cases c : b.lt a = true
      · rw [if_pos c]; have := this.1 c; simp; omega
      · rw [if_neg c]
        have : ¬ b.ordinal < a.ordinal := fun h => c (this.2 h)
        simp; omega

example : validate ⟨some ⟨2024, 1, 1⟩, some ⟨2024, 1, 15⟩, ""⟩ = .ok () ∧
    validate ⟨some ⟨2024, 1, 15⟩, some ⟨2024, 1, 14⟩, ""⟩ = .error .startAfterEnd := by decide +kernel

/-- **C85 (optimisation spec).** An optimisation spec is accepted exactly when its dates are, both names
contain something other than white space and the confidence level is in `[0, 1]`. -/
theorem optimization_accepted_iff (s : DatedSpec.Spec) (name grid : List Char) (level : ℚ) :
    validateOptimization s name grid level = .ok () ↔ validate s = .ok () ∧
      (∃ c ∈ name, c.isWhitespace = false) ∧ (∃ c ∈ grid, c.isWhitespace = false) ∧ 0 ≤ level ∧ level ≤ 1 := by
  have hb : ∀ l : List Char, (∃ c ∈ l, c.isWhitespace = false) ↔ ¬ blank l = true := by
    intro l; simp [blank]
  rw [hb, hb]
  unfold validateOptimization
  cases validate s with
  | error e => simp
  | ok u =>
    simp only
    split_ifs with h1 h2 h3
    · simp [h1]
    · simp [h2]
    · simp only [reduceCtorEq, false_iff]; rintro ⟨-, -, -, a, b⟩; rcases h3 with h | h <;> linarith
    · push Not at h3; simp [h1, h2, h3]

example : validateOptimization ⟨none, none, ""⟩ "a b".toList "g".toList 1 = .ok () ∧
    validateOptimization ⟨none, none, ""⟩ "  ".toList "g".toList 1 = .error .blankName ∧
    validateOptimization ⟨none, none, ""⟩ "a".toList "".toList 1 = .error .blankGrid := by decide +kernel

/-! ### Resolution -/

theorem closedEnd_some {dates : List CDate} {k : ℕ} (hk : interval dates = .ok k) {b : CDate} (hb : b.Valid)
    {e} (h : closedEnd dates (some b) = .ok e) : ∃ c, e = some c ∧ minusDays b k = some c := by
  unfold closedEnd at h
  simp only [hk] at h
  cases hm : minusDays b k with
  | none => rw [hm] at h; cases h
  | some c => rw [hm] at h; cases h; exact ⟨c, rfl, rfl⟩

/-- What a successful resolution says about the closed interval. -/
theorem selected_ok {dates : List CDate} {k : ℕ} (hk : interval dates = .ok k) {s : DatedSpec.Spec}
    (he : ∀ b ∈ s.stop, b.Valid) {r} (h : selectedTimes dates s = .ok r) :
    ∃ e : Option CDate, closedEnd dates s.stop = .ok e ∧ TimeCoordinates.expandSelected dates s.start e = .ok r ∧
      (s.stop = none ↔ e = none) ∧
      ∀ c ∈ e, ∀ b ∈ s.stop, c.Valid ∧ c.ordinal + k = b.ordinal ∧ plusDays c k = b := by
  unfold selectedTimes at h
  cases hc : closedEnd dates s.stop with
  | error x => rw [hc] at h; cases h
  | ok e =>
    rw [hc] at h
    simp only at h
    cases hx : TimeCoordinates.expandSelected dates s.start e with
    | error x => rw [hx] at h; cases h
    | ok r' =>
      rw [hx] at h
      cases h
      refine ⟨e, rfl, hx, ?_, ?_⟩
      · cases hs : s.stop with
        | none => rw [hs] at hc; cases hc; simp
        | some b =>
          rw [hs] at hc
          obtain ⟨c, rfl, -⟩ := closedEnd_some hk (he b hs) hc
          simp
      · intro c hc' b hb
        rw [Option.mem_def] at hb hc'
        subst hc'
        rw [hb] at hc
        obtain ⟨c', h1, h2⟩ := closedEnd_some hk (he b hb) hc
        cases h1
        obtain ⟨v, o⟩ := minusDays_spec (he b hb) k h2
        exact ⟨v, o, plus_minus (he b hb) k h2⟩

/-- **C85 (resolution).** With a step of `k` days between the dates, a spec resolves exactly when its
start is a date of the data, its end is `k` days after a date of the data, and the end is at least `k` days
after the start. -/
theorem resolves_iff (dates : List CDate) (hne : dates ≠ []) (hv : ∀ d ∈ dates, d.Valid) (k : ℕ)
    (hk : interval dates = .ok k) (s : DatedSpec.Spec) (he : ∀ b ∈ s.stop, b.Valid) :
    (∃ r, selectedTimes dates s = .ok r) ↔
      (∀ a ∈ s.start, a ∈ dates) ∧ (∀ b ∈ s.stop, ∃ d ∈ dates, d.ordinal + k = b.ordinal) ∧
      ∀ a ∈ s.start, ∀ b ∈ s.stop, a.ordinal + k ≤ b.ordinal := by
  constructor
  · rintro ⟨r, h⟩
    obtain ⟨e, hc, hx, hn, hs⟩ := selected_ok hk he h
    obtain ⟨x1, x2, x3⟩ := (TimeCoordinates.Props.selection_accepted_iff dates hne hv s.start e).1 ⟨r, hx⟩
    refine ⟨x1, ?_, ?_⟩
    · intro b hb
      cases e with
      | none => rw [hn.2 rfl] at hb; cases hb
      | some c => exact ⟨c, x2 c rfl, (hs c rfl b hb).2.1⟩
    · intro a ha b hb
      cases e with
      | none => rw [hn.2 rfl] at hb; cases hb
      | some c => have := x3 a ha c rfl; have := (hs c rfl b hb).2.1; omega
  · rintro ⟨h1, h2, h3⟩
    unfold selectedTimes
    cases hs : s.stop with
    | none =>
      obtain ⟨r, hr⟩ := (TimeCoordinates.Props.selection_accepted_iff dates hne hv s.start none).2
        ⟨h1, by simp, by simp⟩
      exact ⟨r, by simp [closedEnd, hr]⟩
    | some b =>
      obtain ⟨d, hd, ho⟩ := h2 b hs
      have hb := he b hs
      have hpos : 0 < d.ordinal := by
        have := (hv d hd).2.2.2.1
        unfold CDate.ordinal; omega
      cases hm : minusDays b k with
      | none => have := minusDays_none hb k hm; omega
      | some c =>
        obtain ⟨cv, co⟩ := minusDays_spec hb k hm
        have hcd : c = d := ordinal_inj cv (hv d hd) (by omega)
        subst hcd
        obtain ⟨r, hr⟩ := (TimeCoordinates.Props.selection_accepted_iff dates hne hv s.start (some c)).2
          ⟨h1, by rintro x ⟨⟩; exact hd, by
            rintro a ha x ⟨⟩; have := h3 a ha b hs; omega⟩
        exact ⟨r, by simp [closedEnd, hk, hm, hr]⟩

/-- The dates of January 2024, weekly. -/
def weeks : List CDate := [⟨2024, 1, 1⟩, ⟨2024, 1, 8⟩, ⟨2024, 1, 15⟩, ⟨2024, 1, 22⟩]

example : interval weeks = .ok 7 ∧
    selectedTimes weeks ⟨some ⟨2024, 1, 8⟩, some ⟨2024, 1, 22⟩, ""⟩ =
      .ok (some [⟨2024, 1, 8⟩, ⟨2024, 1, 15⟩]) := by decide +kernel

theorem every_pairwise {k : ℕ} (hk : 0 < k) {dates : List CDate} (h : Every k dates) :
    dates.Pairwise fun a b => a.ordinal + k ≤ b.ordinal := by
  induction dates with
  | nil => exact List.Pairwise.nil
  | cons a l ih =>
    cases l with
    | nil => simp
    | cons b l =>
      have h' := List.isChain_cons_cons.1 h
      have i := ih h'.2
      refine List.pairwise_cons.2 ⟨?_, i⟩
      intro x hx
      rcases List.mem_cons.1 hx with rfl | hx
      · omega
      · have := (List.pairwise_cons.1 i).1 x hx; omega

/-- **C85 (half-open).** If consecutive dates are `k` days apart, a spec that resolves selects exactly the
dates of the data from its start (inclusive) to its end (exclusive), in order. -/
theorem selection_half_open (dates : List CDate) (hne : dates ≠ []) (hv : ∀ d ∈ dates, d.Valid) (k : ℕ)
    (hpos : 0 < k) (hev : Every k dates) (hk : interval dates = .ok k) (s : DatedSpec.Spec)
    (he : ∀ b ∈ s.stop, b.Valid) (r) (h : selectedTimes dates s = .ok r) :
    r.getD dates = dates.filter fun d => decide (InRange s.start s.stop d) := by
  obtain ⟨e, hc, hx, hn, hs⟩ := selected_ok hk he h
  rw [TimeCoordinates.Props.selection_exact dates hne hv s.start e r hx]
  apply List.filter_congr
  intro d hd
  rw [decide_eq_decide]
  unfold Within InRange
  refine and_congr_right fun _ => ?_
  cases e with
  | none => rw [hn.2 rfl]; simp
  | some c =>
    cases hst : s.stop with
    | none => exact absurd (hn.1 hst) (by simp)
    | some b =>
      have ho := (hs c rfl b hst).2.1
      have hcm : c ∈ dates :=
        ((TimeCoordinates.Props.selection_accepted_iff dates hne hv s.start (some c)).1 ⟨r, hx⟩).2.1 c rfl
      simp only [Option.mem_def, Option.some.injEq, forall_eq']
      constructor
      · intro; omega
      · intro hlt
        by_contra hcon
        have hp := every_pairwise hpos hev
        obtain ⟨n, hn'⟩ := List.getElem?_of_mem hcm
        obtain ⟨m, hm'⟩ := List.getElem?_of_mem hd
        obtain ⟨hnl, rfl⟩ := List.getElem?_eq_some_iff.1 hn'
        obtain ⟨hml, rfl⟩ := List.getElem?_eq_some_iff.1 hm'
        have hp' := List.pairwise_iff_getElem.1 hp
        rcases lt_trichotomy n m with h | h | h
        · have := hp' n m hnl hml h; omega
        · subst h; omega
        · have := hp' m n hml hnl h; omega

/-- **C85 (flags).** The flags mark, in the order of the data, exactly the dates in the half-open range. -/
theorem flags_half_open (dates : List CDate) (hne : dates ≠ []) (hv : ∀ d ∈ dates, d.Valid) (k : ℕ)
    (hpos : 0 < k) (hev : Every k dates) (hk : interval dates = .ok k) (s : DatedSpec.Spec)
    (he : ∀ b ∈ s.stop, b.Valid) (r) (h : boolTimes dates s = .ok r) :
    r.getD (dates.map fun _ => true) = dates.map fun d => decide (InRange s.start s.stop d) := by
  unfold boolTimes at h
  cases hr : selectedTimes dates s with
  | error x => rw [hr] at h; cases h
  | ok q =>
    have hq := selection_half_open dates hne hv k hpos hev hk s he q hr
    rw [hr] at h
    cases q with
    | none =>
      cases h
      simp only [Option.getD_none] at hq ⊢
      apply List.map_congr_left
      intro d hd
      rw [hq] at hd
      simpa using (List.mem_filter.1 hd).2.symm
    | some sel =>
      cases h
      simp only [Option.getD_some] at hq ⊢
      apply List.map_congr_left
      intro d hd
      rw [decide_eq_decide, hq, List.mem_filter]
      simp [hd]

example : Every 7 weeks ∧ boolTimes weeks ⟨none, some ⟨2024, 1, 15⟩, ""⟩ =
    .ok (some [true, true, false, false]) := by
  refine ⟨?_, by decide +kernel⟩
  unfold Every weeks
  decide +kernel

/-! ### Intervals -/

theorem head_filter {l : List CDate} (hinc : Increasing l) {p : CDate → Bool} {a : CDate} (ha : a ∈ l)
    (hp : p a = true) (hmin : ∀ x ∈ l, p x = true → a.ordinal ≤ x.ordinal) (z : CDate) :
    (l.filter p).headD z = a := by
  have hi : (l.filter p).Pairwise fun a b : CDate => a.ordinal < b.ordinal := hinc.sublist List.filter_sublist
  have hm : a ∈ l.filter p := List.mem_filter.2 ⟨ha, hp⟩
  cases hl : l.filter p with
  | nil => rw [hl] at hm; cases hm
  | cons b t =>
    rw [hl] at hm hi
    simp only [List.headD_cons]
    rcases List.mem_cons.1 hm with h | h
    · exact h.symm
    · have h1 := (List.pairwise_cons.1 hi).1 a h
      have hb : b ∈ l.filter p := by rw [hl]; simp
      have := hmin b (List.mem_filter.1 hb).1 (List.mem_filter.1 hb).2
      omega

theorem last_filter {l : List CDate} (hinc : Increasing l) {p : CDate → Bool} {a : CDate} (ha : a ∈ l)
    (hp : p a = true) (hmax : ∀ x ∈ l, p x = true → x.ordinal ≤ a.ordinal) (z : CDate) :
    (l.filter p).getLastD z = a := by
  have hi : (l.filter p).Pairwise fun a b : CDate => a.ordinal < b.ordinal := hinc.sublist List.filter_sublist
  have hm : a ∈ l.filter p := List.mem_filter.2 ⟨ha, hp⟩
  have hne : l.filter p ≠ [] := List.ne_nil_of_mem hm
  rw [List.getLastD_eq_getLast?, List.getLast?_eq_some_getLast hne, Option.getD_some]
  have hlast := List.getLast_mem hne
  have h1 := hmax _ (List.mem_filter.1 hlast).1 (List.mem_filter.1 hlast).2
  rw [← List.dropLast_append_getLast hne] at hm hi
  rcases List.mem_append.1 hm with h | h
  · have := (List.pairwise_append.1 hi).2.2 a h ((l.filter p).getLast hne) (by simp)
    omega
  · exact (List.mem_singleton.1 h).symm

theorem head_min {l : List CDate} (hinc : Increasing l) (hne : l ≠ []) (z : CDate) :
    l.headD z ∈ l ∧ ∀ x ∈ l, (l.headD z).ordinal ≤ x.ordinal := by
  cases l with
  | nil => exact absurd rfl hne
  | cons a t =>
    refine ⟨by simp, ?_⟩
    intro x hx
    rcases List.mem_cons.1 hx with rfl | h
    · simp
    · have := (List.pairwise_cons.1 hinc).1 x h; simp; omega

theorem last_max {l : List CDate} (hinc : Increasing l) (hne : l ≠ []) (z : CDate) :
    l.getLastD z ∈ l ∧ ∀ x ∈ l, x.ordinal ≤ (l.getLastD z).ordinal := by
  rw [List.getLastD_eq_getLast?, List.getLast?_eq_some_getLast hne, Option.getD_some]
  refine ⟨List.getLast_mem hne, ?_⟩
  intro x hx
  have hi := hinc
  unfold Increasing at hi
  rw [← List.dropLast_append_getLast hne] at hx hi
  rcases List.mem_append.1 hx with h | h
  · have := (List.pairwise_append.1 hi).2.2 x h (l.getLast hne) (by simp)
    omega
  · rw [List.mem_singleton.1 h]

/-- The ends of the selected dates. -/
theorem selected_ends {dates : List CDate} (hne : dates ≠ []) (hv : ∀ d ∈ dates, d.Valid)
    (hinc : Increasing dates) {k : ℕ} (hk : interval dates = .ok k) {s : DatedSpec.Spec}
    (he : ∀ b ∈ s.stop, b.Valid) {r} (h : selectedTimes dates s = .ok r) (z : CDate) :
    (r.getD dates).headD z = s.start.getD (dates.headD z) ∧
    plusDays ((r.getD dates).getLastD z) k = s.stop.getD (plusDays (dates.getLastD z) k) := by
  obtain ⟨e, hc, hx, hn, hs⟩ := selected_ok hk he h
  rw [TimeCoordinates.Props.selection_exact dates hne hv s.start e r hx]
  obtain ⟨x1, x2, x3⟩ := (TimeCoordinates.Props.selection_accepted_iff dates hne hv s.start e).1 ⟨r, hx⟩
  obtain ⟨m1, m2⟩ := head_min hinc hne z
  obtain ⟨l1, l2⟩ := last_max hinc hne z
  have first : s.start.getD (dates.headD z) ∈ dates := by
    cases hst : s.start with
    | none => exact m1
    | some a => exact x1 a hst
  have last : e.getD (dates.getLastD z) ∈ dates := by
    cases hst : e with
    | none => exact l1
    | some a => exact x2 a hst
  have hord : (s.start.getD (dates.headD z)).ordinal ≤ (e.getD (dates.getLastD z)).ordinal := by
    cases hst : s.start with
    | none => exact m2 _ last
    | some a =>
      cases hen : e with
      | none => exact l2 _ (x1 a hst)
      | some c => exact x3 a hst c hen
  constructor
  · apply head_filter hinc first
    · rw [decide_eq_true_iff]
      refine ⟨?_, ?_⟩
      · intro a ha; rw [Option.mem_def] at ha; simp [ha]
      · intro b hb; rw [Option.mem_def] at hb; rw [hb] at hord; exact hord
    · intro x hx hp
      rw [decide_eq_true_iff] at hp
      cases hst : s.start with
      | none => exact m2 x hx
      | some a => exact hp.1 a hst
  · have hl : (dates.filter fun d => decide (Within s.start e d)).getLastD z = e.getD (dates.getLastD z) := by
      apply last_filter hinc last
      · rw [decide_eq_true_iff]
        refine ⟨?_, ?_⟩
        · intro a ha; rw [Option.mem_def] at ha; rw [ha] at hord; exact hord
        · intro b hb; rw [Option.mem_def] at hb; simp [hb]
      · intro x hx hp
        rw [decide_eq_true_iff] at hp
        cases hst : e with
        | none => exact l2 x hx
        | some a => exact hp.2 a hst
    rw [hl]
    cases hst : s.stop with
    | none => rw [hn.1 hst]; rfl
    | some b =>
      cases e with
      | none => rw [hn.2 rfl] at hst; cases hst
      | some c => exact (hs c rfl b hst).2.2

/-- **C85 (one interval).** Whenever the spec resolves, the interval of its selected dates is the interval
written in the spec: its start and its exclusive end, with the first date and the last date plus one step
for what is missing; and it keeps the tag. -/
theorem collapse_is_spec (dates : List CDate) (hne : dates ≠ []) (hv : ∀ d ∈ dates, d.Valid)
    (hinc : Increasing dates) (s : DatedSpec.Spec) (he : ∀ b ∈ s.stop, b.Valid) (i : Interval)
    (h : collapse dates s = .ok i) :
    openEnd dates s = .ok i ∧ (∀ a ∈ s.start, i.start = a) ∧ (∀ b ∈ s.stop, i.stop = b) ∧ i.tag = s.tag := by
  unfold collapse at h
  cases hr : selectedTimes dates s with
  | error x => rw [hr] at h; cases h
  | ok r =>
    rw [hr] at h
    cases hk : interval dates with
    | error x => rw [hk] at h; cases h
    | ok k =>
      rw [hk] at h
      cases h
      obtain ⟨e1, e2⟩ := selected_ends hne hv hinc hk he hr ⟨1, 1, 1⟩
      simp only [e1, e2]
      refine ⟨?_, ?_, ?_, trivial⟩
      · unfold openEnd
        cases hst : s.stop with
        | none => simp [hk]
        | some b => simp
      · intro a ha; rw [Option.mem_def] at ha; simp [ha]
      · intro b hb; rw [Option.mem_def] at hb; simp [hb]

example : collapse weeks ⟨none, some ⟨2024, 1, 15⟩, "t"⟩ = .ok ⟨⟨2024, 1, 1⟩, ⟨2024, 1, 15⟩, "t"⟩ ∧
    collapse weeks ⟨some ⟨2024, 1, 15⟩, none, "t"⟩ = .ok ⟨⟨2024, 1, 15⟩, ⟨2024, 1, 29⟩, "t"⟩ := by
  decide +kernel

/-- **C85 (one interval per date).** If consecutive dates are `k` days apart, the intervals of a spec are
one per date in its half-open range, each starting at its date; each begins where the one before ends; the
first begins where the interval of the whole spec begins and the last ends where it ends. -/
theorem intervals_tile (dates : List CDate) (hne : dates ≠ []) (hv : ∀ d ∈ dates, d.Valid) (k : ℕ)
    (hpos : 0 < k) (hev : Every k dates) (hk : interval dates = .ok k) (s : DatedSpec.Spec)
    (he : ∀ b ∈ s.stop, b.Valid) (l : List Interval) (h : transform dates s = .ok l) :
    l.map (·.start) = dates.filter (fun d => decide (InRange s.start s.stop d)) ∧
    (∀ (i : ℕ) a b, l[i]? = some a → l[i + 1]? = some b → a.stop = b.start) ∧
    (∀ i ∈ l, i.tag = s.tag) ∧
    ∃ w a b, openEnd dates s = .ok w ∧ l.head? = some a ∧ l.getLast? = some b ∧
      a.start = w.start ∧ b.stop = w.stop := by
  have hinc : Increasing dates := (every_pairwise hpos hev).imp fun h => by omega
  unfold transform at h
  cases hr : selectedTimes dates s with
  | error x => rw [hr] at h; cases h
  | ok r =>
    rw [hr, hk] at h
    cases h
    have hsel := selection_half_open dates hne hv k hpos hev hk s he r hr
    obtain ⟨e1, e2⟩ := selected_ends hne hv hinc hk he hr ⟨1, 1, 1⟩
    have hcol : ∃ i, collapse dates s = .ok i := by unfold collapse; rw [hr, hk]; simp
    refine ⟨?_, ?_, ?_, ?_⟩
    · rw [List.map_map, ← hsel]; exact List.map_id _
    · intro i a b ha hb
      rw [List.getElem?_map, Option.map_eq_some_iff] at ha hb
      obtain ⟨x, hx, rfl⟩ := ha
      obtain ⟨y, hy, rfl⟩ := hb
      simp only
      have hx' := List.mem_of_getElem? hx
      have hy' := List.mem_of_getElem? hy
      have hsub : ∀ d ∈ r.getD dates, d ∈ dates := by
        intro d hd; rw [hsel] at hd; exact (List.mem_filter.1 hd).1
      have hxv := hv x (hsub x hx')
      have hyv := hv y (hsub y hy')
      obtain ⟨p1, p2⟩ := plusDays_spec hxv k
      refine ordinal_inj p1 hyv ?_
      rw [p2]
      -- `x` and `y` are consecutive among the selected dates
      have hge : x.ordinal + k ≤ y.ordinal := by
        have hpw : (r.getD dates).Pairwise fun a b : CDate => a.ordinal + k ≤ b.ordinal := by
          rw [hsel]; exact (every_pairwise hpos hev).sublist List.filter_sublist
        obtain ⟨hi, rfl⟩ := List.getElem?_eq_some_iff.1 hx
        obtain ⟨hj, rfl⟩ := List.getElem?_eq_some_iff.1 hy
        exact List.pairwise_iff_getElem.1 hpw i (i + 1) hi hj (by omega)
      -- the date after `x` in the data
      obtain ⟨n, hn⟩ := List.getElem?_of_mem (hsub x hx')
      obtain ⟨m, hm⟩ := List.getElem?_of_mem (hsub y hy')
      have hnl := (List.getElem?_eq_some_iff.1 hn).1
      have hml := (List.getElem?_eq_some_iff.1 hm).1
      have hinc' := List.pairwise_iff_getElem.1 (show dates.Pairwise _ from hinc)
      have hnm : n < m := by
        rcases lt_trichotomy n m with h | h | h
        · exact h
        · subst h; rw [hn] at hm; cases hm; omega
        · have := hinc' m n hml hnl h
          rw [(List.getElem?_eq_some_iff.1 hn).2, (List.getElem?_eq_some_iff.1 hm).2] at this
          omega
      have hstep := List.isChain_iff_getElem.1 hev n (by omega)
      rw [(List.getElem?_eq_some_iff.1 hn).2] at hstep
      rcases Nat.lt_or_ge (n + 1) m with hlt | hge'
      · -- a date strictly between: it would be selected between `x` and `y`
        exfalso
        have hzy := hinc' (n + 1) m (by omega) hml hlt
        rw [(List.getElem?_eq_some_iff.1 hm).2] at hzy
        have hxr : InRange s.start s.stop x := by
          rw [hsel] at hx'; simpa using (List.mem_filter.1 hx').2
        have hyr : InRange s.start s.stop y := by
          rw [hsel] at hy'; simpa using (List.mem_filter.1 hy').2
        have hzr : InRange s.start s.stop (dates[n + 1]'(by omega)) := by
          refine ⟨fun a ha => ?_, fun b hb => ?_⟩
          · have := hxr.1 a ha; omega
          · have := hyr.2 b hb; omega
        have hz : dates[n + 1]'(by omega) ∈ r.getD dates := by
          rw [hsel]; exact List.mem_filter.2 ⟨List.getElem_mem _, by simpa using hzr⟩
        obtain ⟨j, hj⟩ := List.getElem?_of_mem hz
        have hpw : (r.getD dates).Pairwise fun a b : CDate => a.ordinal < b.ordinal := by
          rw [hsel]; exact hinc.sublist List.filter_sublist
        have hpw' := List.pairwise_iff_getElem.1 hpw
        obtain ⟨hil, hie⟩ := List.getElem?_eq_some_iff.1 hx
        obtain ⟨hil2, hie2⟩ := List.getElem?_eq_some_iff.1 hy
        obtain ⟨hjl, hje⟩ := List.getElem?_eq_some_iff.1 hj
        rcases Nat.lt_or_ge i j with h | h
        · rcases Nat.lt_or_ge (i + 1) j with h' | h'
          · have := hpw' (i + 1) j hil2 hjl h'
            rw [hie2, hje] at this; omega
          · have : j = i + 1 := by omega
            subst this
            rw [hie2] at hje; rw [hje] at hzy; omega
        · rcases Nat.lt_or_ge j i with h' | h'
          · have := hpw' j i hjl hil h'
            rw [hie, hje] at this; omega
          · have : j = i := by omega
            subst this
            rw [hie] at hje; rw [← hje] at hstep; omega
      · have : m = n + 1 := by omega
        subst this
        rw [(List.getElem?_eq_some_iff.1 hm).2] at hstep
        omega
    · intro i hi
      obtain ⟨d, -, rfl⟩ := List.mem_map.1 hi
      rfl
    · obtain ⟨w, hw⟩ := hcol
      have ho := (collapse_is_spec dates hne hv hinc s he w hw).1
      unfold collapse at hw
      rw [hr, hk] at hw
      cases hw
      have hne' : r.getD dates ≠ [] := by
        intro hemp
        obtain ⟨e, hc, hx, hn, hs⟩ := selected_ok hk he hr
        have hex := TimeCoordinates.Props.selection_exact dates hne hv s.start e r hx
        obtain ⟨x1, x2, x3⟩ := (TimeCoordinates.Props.selection_accepted_iff dates hne hv s.start e).1 ⟨r, hx⟩
        rw [hemp] at hex
        have hno : ∀ d ∈ dates, ¬ Within s.start e d := by
          intro d hd hw
          have : d ∈ dates.filter (fun d => decide (Within s.start e d)) :=
            List.mem_filter.2 ⟨hd, by simpa using hw⟩
          rw [← hex] at this; cases this
        cases hst : s.start with
        | some a =>
          refine hno a (x1 a hst) ⟨fun a' ha' => ?_, fun c hc => x3 a hst c hc⟩
          rw [hst] at ha'; cases ha'; exact le_refl _
        | none =>
          obtain ⟨m1, m2⟩ := head_min hinc hne ⟨1, 1, 1⟩
          exact hno _ m1 ⟨by simp [hst], fun c hc => m2 c (x2 c hc)⟩
      cases hl : r.getD dates with
      | nil => exact absurd hl hne'
      | cons d t =>
        refine ⟨_, ⟨d, plusDays d k, s.tag⟩,
          ⟨(d :: t).getLastD ⟨1, 1, 1⟩, plusDays ((d :: t).getLastD ⟨1, 1, 1⟩) k, s.tag⟩, ho, rfl, ?_, ?_, ?_⟩
        · rw [List.getLast?_map, List.getLastD_eq_getLast?, List.getLast?_eq_some_getLast (by simp)]
          simp
        · simp [hl]
        · simp [hl]

example : transform weeks ⟨some ⟨2024, 1, 8⟩, some ⟨2024, 1, 22⟩, ""⟩ =
    .ok [⟨⟨2024, 1, 8⟩, ⟨2024, 1, 15⟩, ""⟩, ⟨⟨2024, 1, 15⟩, ⟨2024, 1, 22⟩, ""⟩] := by decide +kernel

/-! ### Findings -/

/-- **C85, finding.** A spec whose start equals its end is accepted (the message says the start must be
before the end), but it resolves for no data. -/
theorem empty_range_never_resolves (dates : List CDate) (hne : dates ≠ []) (hv : ∀ d ∈ dates, d.Valid)
    (k : ℕ) (hpos : 0 < k) (hk : interval dates = .ok k) (a : CDate) (ha : a.Valid) (tag : String) :
    validate ⟨some a, some a, tag⟩ = .ok () ∧ ∀ r, selectedTimes dates ⟨some a, some a, tag⟩ ≠ .ok r := by
  refine ⟨(spec_accepted_iff _ (by simpa using ha) (by simpa using ha)).2 (by simp), ?_⟩
  intro r h
  have := ((resolves_iff dates hne hv k hk ⟨some a, some a, tag⟩ (by simpa using ha)).1 ⟨r, h⟩).2.2 a rfl a rfl
  omega

/-- The first days of the months January to June 2021. -/
def months : List CDate := [⟨2021, 1, 1⟩, ⟨2021, 2, 1⟩, ⟨2021, 3, 1⟩, ⟨2021, 4, 1⟩, ⟨2021, 5, 1⟩, ⟨2021, 6, 1⟩]

/-- **C85, finding.** For monthly data the end is moved back by the *mean* step.  The quarter up to (not
including) 1 April, a date of the data, is refused as if it were unknown; to select it the end must be
given as 31 March. -/
theorem month_end_refused :
    interval months = .ok 30 ∧ (⟨2021, 4, 1⟩ : CDate) ∈ months ∧
    selectedTimes months ⟨some ⟨2021, 1, 1⟩, some ⟨2021, 4, 1⟩, ""⟩ = .error (.time .endUnknown) ∧
    selectedTimes months ⟨some ⟨2021, 1, 1⟩, some ⟨2021, 3, 31⟩, ""⟩ =
      .ok (some [⟨2021, 1, 1⟩, ⟨2021, 2, 1⟩, ⟨2021, 3, 1⟩]) := by decide +kernel

/-- **C85, finding.** For monthly data the intervals of the dates all have the mean length: that of January
ends on the 31st (exclusive, so the day is in no interval) and that of February overlaps March by two
days. -/
theorem month_intervals_do_not_tile :
    ∃ l, transform months ⟨none, none, ""⟩ = .ok l ∧
      l[0]? = some ⟨⟨2021, 1, 1⟩, ⟨2021, 1, 31⟩, ""⟩ ∧ l[1]? = some ⟨⟨2021, 2, 1⟩, ⟨2021, 3, 3⟩, ""⟩ ∧
      l[2]? = some ⟨⟨2021, 3, 1⟩, ⟨2021, 3, 31⟩, ""⟩ :=
  ⟨[⟨⟨2021, 1, 1⟩, ⟨2021, 1, 31⟩, ""⟩, ⟨⟨2021, 2, 1⟩, ⟨2021, 3, 3⟩, ""⟩, ⟨⟨2021, 3, 1⟩, ⟨2021, 3, 31⟩, ""⟩,
    ⟨⟨2021, 4, 1⟩, ⟨2021, 5, 1⟩, ""⟩, ⟨⟨2021, 5, 1⟩, ⟨2021, 5, 31⟩, ""⟩, ⟨⟨2021, 6, 1⟩, ⟨2021, 7, 1⟩, ""⟩],
    by decide +kernel, rfl, rfl, rfl⟩

end Verif.DatedSpec.Props

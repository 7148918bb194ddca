import Verif.Lemmas.TimeCoordinates

/-!
# Time coordinates: properties C23, C24, C25
-/

namespace Verif.TimeCoordinates.Props

open Verif Verif.Calendar Verif.TimeCoordinates Spec

/-! ### C25 -/

/-- **C25 (which axes are accepted).** A time axis is accepted exactly when it has at least two
dates in non-decreasing order. -/
theorem time_axis_accepted_iff (dates : List CDate) (hv : ∀ d ∈ dates, d.Valid) :
    (∃ t, create dates = .ok t) ↔ 2 ≤ dates.length ∧ NonDecreasing dates := by
  unfold create
  rw [← nonDecreasing_iff hv]
  constructor
  · rintro ⟨t, h⟩
    split_ifs at h with h1 h2
    exact ⟨by omega, by simpa using h2⟩
  · rintro ⟨h1, h2⟩
    exact ⟨dates, by rw [if_neg (by omega), if_neg (by simpa using h2)]⟩

/-- **C25 (negation).** The documented requirement "strictly monotonically increasing" is not
enforced: a repeated date is accepted. -/
theorem repeated_date_accepted : ∃ dates : List CDate, (∀ d ∈ dates, d.Valid) ∧
    create dates = .ok dates ∧ ¬ Increasing dates := by
  refine ⟨[⟨2024, 1, 1⟩, ⟨2024, 1, 8⟩, ⟨2024, 1, 8⟩], by decide, by decide, ?_⟩
  unfold Increasing
  decide

/-- **C25 (regular cadence).** An axis counts as regular exactly when all gaps between neighbouring
dates are equal, or all are 28-31 days, or all 90-92, or all 365-366. -/
theorem regular_iff (dates : List CDate) : isRegular dates = true ↔
    (∃ k, ∀ a b, Next dates a b → days a b = k) ∨
    (∀ a b, Next dates a b → 28 ≤ days a b ∧ days a b ≤ 31) ∨
    (∀ a b, Next dates a b → 90 ≤ days a b ∧ days a b ≤ 92) ∨
    (∀ a b, Next dates a b → 365 ≤ days a b ∧ days a b ≤ 366) := by
  rw [isRegular_iff, allIn_iff, allIn_iff, allIn_iff]
  have e1 : (∃ k, ∀ g ∈ intervalDays dates, g = k) ↔ ∃ k, ∀ a b, Next dates a b → days a b = k := by
    constructor
    · rintro ⟨k, h⟩; exact ⟨k, fun a b hn => h _ (mem_intervalDays.2 ⟨a, b, hn, rfl⟩)⟩
    · rintro ⟨k, h⟩
      refine ⟨k, fun g hg => ?_⟩
      obtain ⟨a, b, hn, rfl⟩ := mem_intervalDays.1 hg
      exact h a b hn
  have m1 : ∀ g : ℤ, g ∈ monthly ↔ 28 ≤ g ∧ g ≤ 31 := by
    intro g; simp only [monthly, List.mem_cons, List.not_mem_nil, or_false]; omega
  have m2 : ∀ g : ℤ, g ∈ quarterly ↔ 90 ≤ g ∧ g ≤ 92 := by
    intro g; simp only [quarterly, List.mem_cons, List.not_mem_nil, or_false]; omega
  have m3 : ∀ g : ℤ, g ∈ yearly ↔ 365 ≤ g ∧ g ≤ 366 := by
    intro g; simp only [yearly, List.mem_cons, List.not_mem_nil, or_false]; omega
  simp only [e1, m1, m2, m3]

/-- **C25 (reported interval).** The interval is reported exactly for regular axes and lies between
the shortest and the longest gap, hence is the common gap of an equally spaced axis. -/
theorem interval_days_correct (dates : List CDate) (h2 : 2 ≤ dates.length) :
    ((∃ k, meanInterval dates = .ok k) ↔ isRegular dates = true) ∧
    ∀ k lo hi, meanInterval dates = .ok k →
      (∀ a b, Next dates a b → lo ≤ days a b ∧ days a b ≤ hi) → lo ≤ k ∧ k ≤ hi := by
  constructor
  · unfold meanInterval
    constructor
    · rintro ⟨k, h⟩; split_ifs at h with hr; exact hr
    · intro h; rw [if_pos h]; exact ⟨_, rfl⟩
  · intro k lo hi hk h
    refine meanInterval_bounds ?_ ?_ hk
    · intro hc
      have : (intervalDays dates).length = dates.length - 1 := by
        unfold intervalDays; rw [List.length_map, length_pairs]
      rw [hc] at this; simp at this; omega
    · intro g hg
      obtain ⟨a, b, hn, rfl⟩ := mem_intervalDays.1 hg
      exact h a b hn

example : meanInterval [⟨2024, 2, 26⟩, ⟨2024, 3, 4⟩, ⟨2024, 3, 11⟩] = .ok 7 := by decide +kernel

example : meanInterval [⟨2024, 1, 1⟩, ⟨2024, 2, 1⟩, ⟨2024, 3, 1⟩] = .ok 30 := by decide +kernel

/-! ### C23 -/

/-- **C23 (which requests are accepted).** A start or end date must be a coordinate, and the start
must not be after the end. -/
theorem selection_accepted_iff (dates : List CDate) (hne : dates ≠ []) (hv : ∀ d ∈ dates, d.Valid)
    (s e : Option CDate) : (∃ r, expandSelected dates s e = .ok r) ↔
      (∀ a ∈ s, a ∈ dates) ∧ (∀ b ∈ e, b ∈ dates) ∧ ∀ a ∈ s, ∀ b ∈ e, a.ordinal ≤ b.ordinal :=
  (expandSelected_spec hne hv s e).1

/-- **C23 (exact selection).** The selection is precisely the coordinates between the two limits,
inclusive, in their order; a missing limit does not restrict; the answer "no restriction" (`None`)
is given only if all coordinates are selected. -/
theorem selection_exact (dates : List CDate) (hne : dates ≠ []) (hv : ∀ d ∈ dates, d.Valid)
    (s e : Option CDate) (r) (h : expandSelected dates s e = .ok r) :
    r.getD dates = dates.filter (fun d => decide (Within s e d)) :=
  (expandSelected_spec hne hv s e).2 r h

/-- **C23 (intervals).** `get_selected_dates` with two dates returns exactly the coordinates between
them, and without an interval returns all of them. -/
theorem selected_dates_exact (dates : List CDate) (hne : dates ≠ []) (hv : ∀ d ∈ dates, d.Valid) :
    getSelectedDates dates none = .ok dates ∧
    ∀ s e sel, getSelectedDates dates (some (some s, some e)) = .ok sel →
      sel = dates.filter fun d => decide (s.ordinal ≤ d.ordinal ∧ d.ordinal ≤ e.ordinal) := by
  refine ⟨rfl, ?_⟩
  intro s e sel h
  unfold getSelectedDates at h
  simp only at h
  cases hx : expandSelected dates (some s) (some e) with
  | error _ => rw [hx] at h; cases h
  | ok r =>
    rw [hx] at h; cases h
    show r.getD dates = _
    rw [selection_exact dates hne hv _ _ r hx]
    apply List.filter_congr
    intro d _
    simp [Within]

/-- **C23 (limit).** An interval with an open end, although admitted by the type, is always
rejected by `get_selected_dates`. -/
theorem open_interval_rejected (dates : List CDate) (x : Option CDate) :
    getSelectedDates dates (some (none, x)) = .error .unsupportedDate ∧
    getSelectedDates dates (some (x, none)) = .error .unsupportedDate := by
  refine ⟨rfl, ?_⟩
  cases x <;> rfl

example : expandSelected [⟨2024, 1, 1⟩, ⟨2024, 1, 8⟩, ⟨2024, 1, 15⟩, ⟨2024, 1, 22⟩]
    (some ⟨2024, 1, 8⟩) (some ⟨2024, 1, 15⟩) = .ok (some [⟨2024, 1, 8⟩, ⟨2024, 1, 15⟩]) := by
  decide +kernel

/-! ### C24 -/

/-- **C24 (acceptance).** Period bounds are returned exactly when the axis is regular and the
selection is accepted and has at least two dates. -/
theorem period_bounds_accepted_iff (dates : List CDate) (iv) :
    (∃ bs, getPeriodBounds dates iv = .ok bs) ↔
      isRegular dates = true ∧ ∃ sel, getSelectedDates dates iv = .ok sel ∧ 2 ≤ sel.length := by
  constructor
  · rintro ⟨bs, h⟩
    obtain ⟨hr, sel, hs, hl, -⟩ := getPeriodBounds_ok h
    exact ⟨hr, sel, hs, hl⟩
  · rintro ⟨hr, sel, hs, hl⟩
    obtain ⟨bs, hbs⟩ := boundsLoop_ok (sel := sel) hr
    refine ⟨bs, ?_⟩
    unfold getPeriodBounds
    rw [if_neg (by simpa using hr), hs]
    simp only
    rw [if_neg (by omega), hbs]

theorem finalEnd_lt {dates : List CDate} (hv : ∀ d ∈ dates, d.Valid) (hinc : Increasing dates)
    (hr : isRegular dates = true) (h2 : 2 ≤ dates.length) {a : CDate} (ha : a ∈ dates) {z : ℤ}
    (h : finalEnd dates a = .ok z) : (a.ordinal : ℤ) < z := by
  unfold finalEnd at h
  simp only at h
  have hm : ∀ k, 1 ≤ k → (a.ordinal : ℤ) < ((a.addMonths k).ordinal : ℤ) := by
    intro k hk
    exact_mod_cast ordinal_lt_of_lt (hv a ha) (addMonths_valid (hv a ha) k) (addMonths_lt (hv a ha) hk)
  split_ifs at h
  · cases h; exact hm 1 (by norm_num)
  · cases h; exact hm 3 (by norm_num)
  · cases h; exact hm 12 (by norm_num)
  · cases hk : meanInterval dates with
    | error _ => rw [hk] at h; cases h
    | ok k =>
      rw [hk] at h; cases h
      have hgap : ∀ g ∈ intervalDays dates, 1 ≤ g := by
        intro g hg
        obtain ⟨x, y, hn, rfl⟩ := mem_intervalDays.1 hg
        have := next_lt hinc hn
        unfold days; omega
      have hne : intervalDays dates ≠ [] := by
        intro hc
        have : (intervalDays dates).length = dates.length - 1 := by
          unfold intervalDays; rw [List.length_map, length_pairs]
        rw [hc] at this; simp at this; omega
      have := (isRegular_iff dates).1 hr
      rcases this with ⟨c, hc⟩ | h' | h' | h'
      · have e := meanInterval_const hne hc
        rw [hk] at e; cases e
        obtain ⟨g, hg⟩ := List.exists_mem_of_ne_nil _ hne
        have h1 := hgap g hg
        rw [hc g hg] at h1
        show (a.ordinal : ℤ) < a.ordinal + k
        omega
      all_goals exact absurd h' (by assumption)

/-- **C24 (contiguous periods).** The periods start exactly at the selected coordinates, each one
ends where the next one starts, and (for distinct dates) none is empty. -/
theorem periods_contiguous (dates : List CDate) (iv) (bs) (h : getPeriodBounds dates iv = .ok bs) :
    getSelectedDates dates iv = .ok (bs.map Prod.fst) ∧
    (∀ (i : ℕ) p q, bs[i]? = some p → bs[i + 1]? = some q → p.2 = (q.1.ordinal : ℤ)) ∧
    (dates ≠ [] → (∀ d ∈ dates, d.Valid) → Increasing dates → ∀ p ∈ bs, (p.1.ordinal : ℤ) < p.2) := by
  obtain ⟨hr, sel, hs, hl, hb⟩ := getPeriodBounds_ok h
  obtain ⟨b1, b2⟩ := boundsLoop_spec hb
  refine ⟨by rw [hs, b1], fun i p q hp hq => boundsLoop_contiguous hb i p q hp hq, ?_⟩
  rintro hne hv hinc ⟨a, z⟩ hp
  obtain ⟨s, e, hsel⟩ := getSelectedDates_spec hne hv hs
  have hsub : sel.length ≤ dates.length := by rw [hsel]; exact List.length_filter_le _ _
  rcases b2 a z hp with ⟨b, hn, rfl⟩ | ⟨hlast, hf⟩
  · have : Increasing sel := by rw [hsel]; exact hinc.sublist List.filter_sublist
    have := next_lt this hn
    show (a.ordinal : ℤ) < b.ordinal
    exact_mod_cast this
  · have : a ∈ dates := by
      have := List.mem_of_getLast? hlast
      rw [hsel] at this
      exact (List.mem_filter.1 this).1
    exact finalEnd_lt hv hinc hr (by omega) this hf

/-- **C24 (fixed cadences).** With equally spaced dates whose spacing is not a calendar length
(28-31, 90-92, 365-366 days), every period of every selection ends where the next coordinate of the
dataset begins, and the last one is as long as the others. -/
theorem fixed_cadence_tiles (dates : List CDate) (hne : dates ≠ []) (hv : ∀ d ∈ dates, d.Valid)
    (hinc : Increasing dates) (k : ℤ) (hk : ∀ a b, Next dates a b → days a b = k)
    (h1 : k < 28 ∨ 31 < k) (h2 : k < 90 ∨ 92 < k) (h3 : k < 365 ∨ 366 < k)
    (iv) (bs) (h : getPeriodBounds dates iv = .ok bs) :
    Tiles dates bs ∧ ∀ p ∈ bs, p.2 = p.1.ordinal + k := by
  obtain ⟨hr, sel, hs, hl, hb⟩ := getPeriodBounds_ok h
  obtain ⟨s, e, hsel⟩ := getSelectedDates_spec hne hv hs
  have hlen : sel.length ≤ dates.length := by rw [hsel]; exact List.length_filter_le _ _
  obtain ⟨x, y, hxy⟩ : ∃ x y, Next dates x y :=
    ⟨dates[0], dates[1], 0, by simp, by simp⟩
  have hfin : ∀ a z, finalEnd dates a = .ok z → z = a.ordinal + k := by
    intro a z hf
    unfold finalEnd at hf
    simp only at hf
    have n1 : ¬ allIn (intervalDays dates) monthly = true := by
      rw [allIn_iff]; intro hc
      have := hc x y hxy
      rw [hk x y hxy] at this
      simp only [monthly, List.mem_cons, List.not_mem_nil, or_false] at this; omega
    have n2 : ¬ allIn (intervalDays dates) quarterly = true := by
      rw [allIn_iff]; intro hc
      have := hc x y hxy
      rw [hk x y hxy] at this
      simp only [quarterly, List.mem_cons, List.not_mem_nil, or_false] at this; omega
    have n3 : ¬ allIn (intervalDays dates) yearly = true := by
      rw [allIn_iff]; intro hc
      have := hc x y hxy
      rw [hk x y hxy] at this
      simp only [yearly, List.mem_cons, List.not_mem_nil, or_false] at this; omega
    rw [if_neg n1, if_neg n2, if_neg n3, meanInterval_const (k := k) ?_ ?_] at hf
    · cases hf; rfl
    · intro hc
      have := mem_intervalDays.2 ⟨x, y, hxy, rfl⟩
      rw [hc] at this; cases this
    · intro g hg
      obtain ⟨a', b', hn, rfl⟩ := mem_intervalDays.1 hg
      exact hk a' b' hn
  have ht : Tiles dates bs := by
    refine tiles_of_finalEnd hinc s e hsel hb ?_
    intro a b z hn hf
    rw [hfin a z hf, ← hk a b hn]
    unfold days; omega
  refine ⟨ht, ?_⟩
  rintro ⟨a, z⟩ hp
  rcases (boundsLoop_spec hb).2 a z hp with ⟨b, hn, rfl⟩ | ⟨-, hf⟩
  · -- the next selected date is the next coordinate
    obtain ⟨ha', -⟩ := next_mem hn
    have ha : a ∈ dates := by rw [hsel] at ha'; exact (List.mem_filter.1 ha').1
    obtain ⟨i, hi⟩ := List.mem_iff_getElem?.1 ha
    have hlt : a.ordinal < b.ordinal :=
      next_lt (by rw [hsel]; exact hinc.sublist List.filter_sublist) hn
    have hbd : b ∈ dates := by
      have := (next_mem hn).2; rw [hsel] at this; exact (List.mem_filter.1 this).1
    have : ∃ c, dates[i + 1]? = some c := by
      rcases Nat.lt_or_ge (i + 1) dates.length with h' | h'
      · exact ⟨_, List.getElem?_eq_getElem h'⟩
      · exfalso
        obtain ⟨j, hj⟩ := List.mem_iff_getElem?.1 hbd
        have hj' := (List.getElem?_eq_some_iff.1 hj).1
        rcases Nat.lt_trichotomy j i with q | q | q
        · have := increasing_getElem hinc hj hi q; omega
        · subst q; rw [hi] at hj; cases hj; omega
        · omega
    obtain ⟨c, hc⟩ := this
    have e1 := ht a c _ ⟨i, hi, hc⟩ hp
    have e2 := hk a c ⟨i, hi, hc⟩
    simp only at e1 ⊢
    rw [e1, ← e2]; unfold days; omega
  · exact hfin a z hf

/-- The dates of a calendar cadence: every `k` months from `a`. -/
def calendarDates (a : CDate) (k n : ℕ) : List CDate := (List.range n).map fun i => a.addMonths (k * i)

/-- **C24 (calendar cadences).** With dates on the same day (up to the 28th) of every month, of
every third month (not starting in February, May, August or November), or of every twelfth month,
every period of every selection ends where the next coordinate of the dataset begins; the last one
ends on the same day of the following month, quarter or year. -/
theorem calendar_cadence_tiles (a : CDate) (ha : a.Valid) (hd : a.d ≤ 28) (k n : ℕ)
    (hk : k = 1 ∨ (k = 3 ∧ a.m % 3 ≠ 2) ∨ k = 12) (iv) (bs)
    (h : getPeriodBounds (calendarDates a k n) iv = .ok bs) :
    Tiles (calendarDates a k n) bs ∧
    ∀ p ∈ bs, p.2 = ((p.1.addMonths k).ordinal : ℤ) := by
  have hk1 : 1 ≤ k := by omega
  have hval : ∀ d ∈ calendarDates a k n, d.Valid := by
    intro d hd'
    obtain ⟨i, -, rfl⟩ := List.mem_map.1 hd'
    exact addMonths_valid ha _
  have hstep : ∀ i j, i < j → (a.addMonths (k * i)).ordinal < (a.addMonths (k * j)).ordinal := by
    intro i j hij
    have e : a.addMonths (k * j) = (a.addMonths (k * i)).addMonths (k * (j - i)) := by
      rw [addMonths_add ha hd, ← Nat.mul_add]; congr 2; omega
    rw [e]
    have hv := addMonths_valid ha (k * i)
    exact ordinal_lt_of_lt hv (addMonths_valid hv _)
      (addMonths_lt hv (Nat.mul_pos (by omega) (by omega)))
  have hinc : Increasing (calendarDates a k n) := by
    unfold Increasing calendarDates
    rw [List.pairwise_map]
    exact List.pairwise_lt_range.imp fun {i j} hij => hstep i j hij
  obtain ⟨hr, sel, hs, hl, hb⟩ := getPeriodBounds_ok h
  have hne : calendarDates a k n ≠ [] := by
    rintro hc
    cases iv with
    | none => simp [getSelectedDates] at hs; subst hs; rw [hc] at hl; simp at hl
    | some iv =>
      obtain ⟨s, e⟩ := iv
      cases s <;> cases e <;>
        simp [getSelectedDates, hc, expandSelected, minDate, Except.map] at hs
      subst hs; simp at hl
  obtain ⟨s, e, hsel⟩ := getSelectedDates_spec hne hval hs
  have hnext : ∀ x y, Next (calendarDates a k n) x y → y = x.addMonths k ∧
      ∃ i, x = a.addMonths (k * i) := by
    rintro x y ⟨i, h1, h2⟩
    unfold calendarDates at h1 h2
    rw [List.getElem?_map] at h1 h2
    obtain ⟨i', hi', rfl⟩ := Option.map_eq_some_iff.1 h1
    obtain ⟨j', hj', rfl⟩ := Option.map_eq_some_iff.1 h2
    have e1 : i' = i := by
      obtain ⟨_, q⟩ := List.getElem?_eq_some_iff.1 hi'
      rw [List.getElem_range] at q; omega
    have e2 : j' = i + 1 := by
      obtain ⟨_, q⟩ := List.getElem?_eq_some_iff.1 hj'
      rw [List.getElem_range] at q; omega
    subst e1 e2
    refine ⟨?_, i', rfl⟩
    rw [addMonths_add ha hd]; congr 1
  have hxy : ∃ x y, Next (calendarDates a k n) x y := by
    have : 2 ≤ (calendarDates a k n).length := by
      have : sel.length ≤ (calendarDates a k n).length := by
        rw [hsel]; exact List.length_filter_le _ _
      omega
    exact ⟨(calendarDates a k n)[0], (calendarDates a k n)[1], 0, by simp, by simp⟩
  have hgap : ∀ x y, Next (calendarDates a k n) x y →
      days x y ∈ (if k = 1 then monthly else if k = 3 then quarterly else yearly) := by
    intro x y hn
    obtain ⟨rfl, i, rfl⟩ := hnext x y hn
    have hv := addMonths_valid ha (k * i)
    have hd' : (a.addMonths (k * i)).d ≤ 28 := by rw [addMonths_d ha hd]; exact hd
    rcases hk with rfl | ⟨rfl, hm⟩ | rfl
    · simp only [if_true]; exact gap_month hv hd'
    · simp only [if_true, show ¬ (3 = 1) by norm_num, if_false]
      refine gap_quarter hv hd' ?_
      unfold CDate.addMonths
      simp only
      have := ha.2.1
      omega
    · simp only [show ¬ (12 = 1) by norm_num, show ¬ (12 = 3) by norm_num, if_false]
      exact gap_year hv hd'
  obtain ⟨x, y, hxy⟩ := hxy
  have hfin : ∀ b z, finalEnd (calendarDates a k n) b = .ok z →
      z = ((b.addMonths k).ordinal : ℤ) := by
    intro b z hf
    unfold finalEnd at hf
    simp only at hf
    rcases hk with rfl | ⟨rfl, hm⟩ | rfl
    · rw [if_pos (allIn_iff.2 (by simpa using hgap))] at hf
      cases hf; rfl
    · have g := hgap x y hxy
      simp only [show ¬ (3 = 1) by norm_num, if_true, if_false] at g hgap
      rw [if_neg, if_pos (allIn_iff.2 hgap)] at hf
      · cases hf; rfl
      · rw [allIn_iff]; intro hc
        have := hc x y hxy
        simp only [monthly, quarterly, List.mem_cons, List.not_mem_nil, or_false] at g this
        omega
    · have g := hgap x y hxy
      simp only [show ¬ (12 = 1) by norm_num, show ¬ (12 = 3) by norm_num, if_false] at g hgap
      rw [if_neg, if_neg, if_pos (allIn_iff.2 hgap)] at hf
      · cases hf; rfl
      · rw [allIn_iff]; intro hc
        have := hc x y hxy
        simp only [quarterly, yearly, List.mem_cons, List.not_mem_nil, or_false] at g this
        omega
      · rw [allIn_iff]; intro hc
        have := hc x y hxy
        simp only [monthly, yearly, List.mem_cons, List.not_mem_nil, or_false] at g this
        omega
  have ht : Tiles (calendarDates a k n) bs := by
    refine tiles_of_finalEnd hinc s e hsel hb ?_
    intro b c z hn hf
    rw [hfin b z hf, (hnext b c hn).1]
  refine ⟨ht, ?_⟩
  rintro ⟨b, z⟩ hp
  rcases (boundsLoop_spec hb).2 b z hp with ⟨c, hn, rfl⟩ | ⟨-, hf⟩
  · obtain ⟨hb', hc'⟩ := next_mem hn
    rw [hsel, List.mem_filter] at hb' hc'
    have hlt : b.ordinal < c.ordinal :=
      next_lt (by rw [hsel]; exact hinc.sublist List.filter_sublist) hn
    obtain ⟨i, hi⟩ := List.mem_iff_getElem?.1 hb'.1
    obtain ⟨j, hj⟩ := List.mem_iff_getElem?.1 hc'.1
    have hij : i < j := by
      rcases Nat.lt_trichotomy j i with q | q | q
      · have := increasing_getElem hinc hj hi q; omega
      · subst q; rw [hi] at hj; cases hj; omega
      · exact q
    have hj' := (List.getElem?_eq_some_iff.1 hj).1
    have hn' : Next (calendarDates a k n) b (calendarDates a k n)[i + 1] :=
      ⟨i, hi, List.getElem?_eq_getElem (by omega)⟩
    have e1 := ht b _ _ hn' hp
    rw [(hnext _ _ hn').1] at e1
    exact e1
  · exact hfin b z hf

/-- Weekly dates across a leap day, with a selection in the middle. -/
example : getPeriodBounds [⟨2024, 2, 19⟩, ⟨2024, 2, 26⟩, ⟨2024, 3, 4⟩, ⟨2024, 3, 11⟩]
    (some (some ⟨2024, 2, 19⟩, some ⟨2024, 2, 26⟩)) =
    .ok [(⟨2024, 2, 19⟩, (CDate.ordinal ⟨2024, 2, 26⟩ : ℕ)),
         (⟨2024, 2, 26⟩, (CDate.ordinal ⟨2024, 3, 4⟩ : ℕ))] := by decide +kernel

/-- First-of-month dates over a year end. -/
example : getPeriodBounds (calendarDates ⟨2023, 11, 1⟩ 1 4) none =
    .ok [(⟨2023, 11, 1⟩, (CDate.ordinal ⟨2023, 12, 1⟩ : ℕ)),
         (⟨2023, 12, 1⟩, (CDate.ordinal ⟨2024, 1, 1⟩ : ℕ)),
         (⟨2024, 1, 1⟩, (CDate.ordinal ⟨2024, 2, 1⟩ : ℕ)),
         (⟨2024, 2, 1⟩, (CDate.ordinal ⟨2024, 3, 1⟩ : ℕ))] := by decide +kernel

/-- **C24 (negation, month ends).** With month-end dates a selection that stops before the last
coordinate gets a final period that ends before the next coordinate: three days are in no period. -/
theorem month_end_gap : ∃ (dates : List CDate) (iv : _) (bs : _) (a b : CDate) (e : ℤ),
    (∀ d ∈ dates, d.Valid) ∧ Increasing dates ∧ getPeriodBounds dates iv = .ok bs ∧
    Next dates a b ∧ (a, e) ∈ bs ∧ e + 3 = b.ordinal := by
  refine ⟨[⟨2023, 1, 31⟩, ⟨2023, 2, 28⟩, ⟨2023, 3, 31⟩],
    some (some ⟨2023, 1, 31⟩, some ⟨2023, 2, 28⟩),
    [(⟨2023, 1, 31⟩, (CDate.ordinal ⟨2023, 2, 28⟩ : ℕ)),
     (⟨2023, 2, 28⟩, (CDate.ordinal ⟨2023, 3, 28⟩ : ℕ))],
    ⟨2023, 2, 28⟩, ⟨2023, 3, 31⟩, (CDate.ordinal ⟨2023, 3, 28⟩ : ℕ), by decide, ?_, by decide +kernel,
    ⟨1, rfl, rfl⟩, by simp, by decide +kernel⟩
  unfold Increasing
  decide +kernel

/-- **C24 (negation, four-week periods).** With dates every 28 days the cadence is taken for
monthly, and the final period is a calendar month rather than four weeks: it overlaps the period of
the next coordinate. -/
theorem four_week_overlap : ∃ (dates : List CDate) (iv : _) (bs : _) (a b : CDate) (e : ℤ),
    (∀ d ∈ dates, d.Valid) ∧ Increasing dates ∧ (∀ x y, Next dates x y → days x y = 28) ∧
    getPeriodBounds dates iv = .ok bs ∧ Next dates a b ∧ (a, e) ∈ bs ∧ e = b.ordinal + 3 := by
  refine ⟨[⟨2023, 1, 1⟩, ⟨2023, 1, 29⟩, ⟨2023, 2, 26⟩, ⟨2023, 3, 26⟩, ⟨2023, 4, 23⟩],
    some (some ⟨2023, 2, 26⟩, some ⟨2023, 3, 26⟩),
    [(⟨2023, 2, 26⟩, (CDate.ordinal ⟨2023, 3, 26⟩ : ℕ)),
     (⟨2023, 3, 26⟩, (CDate.ordinal ⟨2023, 4, 26⟩ : ℕ))],
    ⟨2023, 3, 26⟩, ⟨2023, 4, 23⟩, (CDate.ordinal ⟨2023, 4, 26⟩ : ℕ), by decide, ?_, ?_,
    by decide +kernel, ⟨3, rfl, rfl⟩, by simp, by decide +kernel⟩
  · unfold Increasing
    decide +kernel
  · intro x y hn
    have h := mem_intervalDays.2 ⟨x, y, hn, rfl⟩
    have e : intervalDays [⟨2023, 1, 1⟩, ⟨2023, 1, 29⟩, ⟨2023, 2, 26⟩, ⟨2023, 3, 26⟩, ⟨2023, 4, 23⟩]
        = [28, 28, 28, 28] := by decide +kernel
    rw [e] at h
    simpa using h

/-- **C24 (negation, fiscal quarters).** Quarters starting on the first of February, May, August and
November are rejected as irregular, because February to April has 89 days. -/
theorem fiscal_quarters_rejected :
    getPeriodBounds (calendarDates ⟨2022, 2, 1⟩ 3 4) none = .error .irregular := by decide +kernel

end Verif.TimeCoordinates.Props

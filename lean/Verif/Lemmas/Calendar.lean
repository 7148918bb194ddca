import Verif.Model.Calendar
import Mathlib.Tactic.IntervalCases
import Mathlib.Tactic.Linarith

namespace Verif.Calendar

theorem isLeap_iff (y : ℕ) : isLeap y = true ↔ y % 4 = 0 ∧ (y % 100 ≠ 0 ∨ y % 400 = 0) := by
  simp [isLeap]

/-- Length of year `y`. -/
def yearLen (y : ℕ) : ℕ := if isLeap y then 366 else 365

theorem daysInMonth_bounds (y m : ℕ) : 28 ≤ daysInMonth y m ∧ daysInMonth y m ≤ 31 := by
  unfold daysInMonth; split_ifs <;> omega

theorem daysBeforeYear_succ {y : ℕ} (hy : 1 ≤ y) :
    daysBeforeYear (y + 1) = daysBeforeYear y + yearLen y := by
  unfold daysBeforeYear yearLen
  obtain ⟨k, rfl⟩ : ∃ k, y = k + 1 := ⟨y - 1, by omega⟩
  have hl := isLeap_iff (k + 1)
  simp only [Nat.add_sub_cancel]
  rw [Nat.succ_div, Nat.succ_div, Nat.succ_div]
  have h0 : k / 100 ≤ k / 4 := Nat.div_le_div_left (by norm_num) (by norm_num)
  simp only [← Nat.dvd_iff_mod_eq_zero, ne_eq] at hl
  have d1 : 100 ∣ k + 1 → 4 ∣ k + 1 := fun h => Dvd.dvd.trans (by norm_num) h
  have d2 : 400 ∣ k + 1 → 100 ∣ k + 1 := fun h => Dvd.dvd.trans (by norm_num) h
  generalize k / 4 = a at *
  generalize k / 100 = b at *
  generalize k / 400 = c at *
  by_cases h4 : 4 ∣ k + 1 <;> by_cases h100 : 100 ∣ k + 1 <;> by_cases h400 : 400 ∣ k + 1 <;>
    simp only [h4, h100, h400, not_true, not_false_iff, true_or, false_or, true_and, false_and,
      or_true, or_false, and_true, and_false, iff_true, iff_false, Bool.not_eq_true, if_true,
      if_false, true_implies, false_implies, imp_false] at hl d1 d2 ⊢ <;>
    first
      | (rw [hl]; simp only [if_true, Bool.false_eq_true, if_false]; omega)
      | exact absurd trivial d1
      | exact absurd trivial d2

theorem daysBeforeYear_mono {y y' : ℕ} (hy : 1 ≤ y) (h : y < y') :
    daysBeforeYear y + yearLen y ≤ daysBeforeYear y' := by
  induction y', h using Nat.le_induction with
  | base => rw [daysBeforeYear_succ hy]
  | succ n hn ih =>
    rw [daysBeforeYear_succ (by omega)]
    omega

theorem daysBeforeMonth_succ (y m : ℕ) (hm : 1 ≤ m) :
    daysBeforeMonth y (m + 1) = daysBeforeMonth y m + daysInMonth y m := by
  unfold daysBeforeMonth
  obtain ⟨k, rfl⟩ : ∃ k, m = k + 1 := ⟨m - 1, by omega⟩
  simp [List.range_succ]

theorem daysBeforeMonth_mono (y : ℕ) {m m' : ℕ} (hm : 1 ≤ m) (h : m < m') :
    daysBeforeMonth y m + daysInMonth y m ≤ daysBeforeMonth y m' := by
  induction m', h using Nat.le_induction with
  | base => rw [daysBeforeMonth_succ y m hm]
  | succ n hn ih =>
    rw [daysBeforeMonth_succ y n (by omega)]
    omega

theorem daysBeforeMonth_13 (y : ℕ) : daysBeforeMonth y 13 = yearLen y := by
  unfold daysBeforeMonth yearLen daysInMonth
  cases h : isLeap y <;> simp [List.range_succ]

/-- A valid date lies in its year and its month. -/
theorem ordinal_bounds {a : CDate} (h : a.Valid) :
    daysBeforeYear a.y < a.ordinal ∧ a.ordinal ≤ daysBeforeYear a.y + yearLen a.y := by
  obtain ⟨h1, h2, h3, h4, h5⟩ := h
  unfold CDate.ordinal
  have := daysBeforeMonth_mono a.y h2 (show a.m < 13 by omega)
  rw [daysBeforeMonth_13] at this
  omega

theorem lt_iff (a b : CDate) : a.lt b = true ↔
    a.y < b.y ∨ (a.y = b.y ∧ (a.m < b.m ∨ (a.m = b.m ∧ a.d < b.d))) := by
  simp [CDate.lt]

theorem ordinal_lt_of_lt {a b : CDate} (ha : a.Valid) (hb : b.Valid) (h : a.lt b = true) :
    a.ordinal < b.ordinal := by
  rcases (lt_iff a b).1 h with h | ⟨hy, h | ⟨hm, hd⟩⟩
  · have := daysBeforeYear_mono ha.1 h
    have := (ordinal_bounds ha).2
    have := (ordinal_bounds hb).1
    omega
  · have := daysBeforeMonth_mono a.y ha.2.1 h
    obtain ⟨-, -, -, -, h5⟩ := ha
    obtain ⟨-, -, -, h4, -⟩ := hb
    unfold CDate.ordinal
    rw [← hy]
    omega
  · unfold CDate.ordinal
    rw [← hy, ← hm]
    omega

theorem lt_trichotomy (a b : CDate) : a.lt b = true ∨ a = b ∨ b.lt a = true := by
  rw [lt_iff, lt_iff]
  obtain ⟨y, m, d⟩ := a
  obtain ⟨y', m', d'⟩ := b
  simp only [CDate.mk.injEq]
  omega

/-- The order of dates is the order of their day numbers. -/
theorem lt_iff_ordinal {a b : CDate} (ha : a.Valid) (hb : b.Valid) :
    a.lt b = true ↔ a.ordinal < b.ordinal := by
  refine ⟨ordinal_lt_of_lt ha hb, fun h => ?_⟩
  rcases lt_trichotomy a b with h' | h' | h'
  · exact h'
  · subst h'; omega
  · have := ordinal_lt_of_lt hb ha h'; omega

theorem ordinal_inj {a b : CDate} (ha : a.Valid) (hb : b.Valid) (h : a.ordinal = b.ordinal) :
    a = b := by
  rcases lt_trichotomy a b with h' | h' | h'
  · have := ordinal_lt_of_lt ha hb h'; omega
  · exact h'
  · have := ordinal_lt_of_lt hb ha h'; omega

theorem le_iff_ordinal {a b : CDate} (ha : a.Valid) (hb : b.Valid) :
    a.le b = true ↔ a.ordinal ≤ b.ordinal := by
  unfold CDate.le
  simp only [Bool.or_eq_true, decide_eq_true_eq, lt_iff_ordinal ha hb]
  constructor
  · rintro (h | rfl) <;> omega
  · intro h
    rcases Nat.lt_or_eq_of_le h with h | h
    · exact .inl h
    · exact .inr (ordinal_inj ha hb h)

theorem addMonths_valid {a : CDate} (h : a.Valid) (k : ℕ) : (a.addMonths k).Valid := by
  obtain ⟨h1, h2, h3, h4, h5⟩ := h
  unfold CDate.addMonths CDate.Valid
  have := daysInMonth_bounds ((a.y * 12 + (a.m - 1) + k) / 12) ((a.y * 12 + (a.m - 1) + k) % 12 + 1)
  simp only
  omega

/-- Stepping forward by months really moves forward. -/
theorem addMonths_lt {a : CDate} (h : a.Valid) {k : ℕ} (hk : 1 ≤ k) : a.lt (a.addMonths k) = true := by
  rw [lt_iff]
  obtain ⟨h1, h2, h3, h4, h5⟩ := h
  unfold CDate.addMonths
  simp only
  omega

/-- Days up to the 28th exist in every month, so month steps compose. -/
theorem addMonths_add {a : CDate} (h : a.Valid) (hd : a.d ≤ 28) (j k : ℕ) :
    (a.addMonths j).addMonths k = a.addMonths (j + k) := by
  obtain ⟨h1, h2, h3, h4, h5⟩ := h
  unfold CDate.addMonths
  simp only [CDate.mk.injEq]
  have b1 := daysInMonth_bounds ((a.y * 12 + (a.m - 1) + j) / 12) ((a.y * 12 + (a.m - 1) + j) % 12 + 1)
  have e : (a.y * 12 + (a.m - 1) + j) / 12 * 12 + ((a.y * 12 + (a.m - 1) + j) % 12 + 1 - 1) + k
      = a.y * 12 + (a.m - 1) + (j + k) := by omega
  rw [e]
  refine ⟨rfl, rfl, ?_⟩
  rw [Nat.min_eq_left (show a.d ≤ _ by omega)]

end Verif.Calendar

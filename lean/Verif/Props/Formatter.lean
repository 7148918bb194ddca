import Mathlib.Tactic
import Verif.Model.Formatter
import Verif.Spec.Formatter
import Verif.Lemmas.Num

/-!
# C78: numbers in the reports
-/

namespace Verif.Formatter.Props

open Verif Verif.Formatter Verif.Formatter.Spec

/-! ### Digits -/

theorem digit_facts : ∀ d < 10, (Nat.digitChar d).toNat = 48 + d := by decide

theorem isDigit_digitChar {d : ℕ} (h : d < 10) : IsDigit (Nat.digitChar d) := by
  unfold IsDigit
  rw [digit_facts d h]
  omega

theorem natValue_snoc (l : List Char) (c : Char) :
    natValue (l ++ [c]) = 10 * natValue l + (c.toNat - 48) := by
  unfold natValue
  rw [List.foldl_append]
  rfl

theorem natValue_digit {d : ℕ} (h : d < 10) : natValue [Nat.digitChar d] = d := by
  unfold natValue
  simp [digit_facts d h]

theorem intDigits_value (fuel n : ℕ) (h : n ≤ fuel) : natValue (intDigits fuel n) = n := by
  induction fuel generalizing n with
  | zero => simp only [intDigits]; exact natValue_digit (by omega)
  | succ fuel ih =>
    simp only [intDigits]
    split_ifs with h1
    · exact natValue_digit h1
    · rw [natValue_snoc, ih _ (by omega), digit_facts _ (by omega)]
      omega

theorem intDigits_digits (fuel n : ℕ) (h : n ≤ fuel) : ∀ c ∈ intDigits fuel n, IsDigit c := by
  induction fuel generalizing n with
  | zero =>
    intro c hc
    simp only [intDigits, List.mem_singleton] at hc
    rw [hc]; exact isDigit_digitChar (by omega)
  | succ fuel ih =>
    intro c hc
    simp only [intDigits] at hc
    split_ifs at hc with h1
    · rw [List.mem_singleton.1 hc]; exact isDigit_digitChar h1
    · rcases List.mem_append.1 hc with hc | hc
      · exact ih _ (by omega) c hc
      · rw [List.mem_singleton.1 hc]; exact isDigit_digitChar (by omega)

theorem intDigits_ne (fuel n : ℕ) : intDigits fuel n ≠ [] := by
  cases fuel with
  | zero => simp [intDigits]
  | succ fuel =>
    simp only [intDigits]
    split_ifs <;> simp

theorem digitChar_zero : ∀ d < 10, Nat.digitChar d = '0' → d = 0 := by decide

theorem intDigits_head (fuel n : ℕ) (h : n ≤ fuel) (h0 : (intDigits fuel n).head? = some '0') :
    intDigits fuel n = ['0'] ∧ n = 0 := by
  induction fuel generalizing n with
  | zero =>
    have : n = 0 := by omega
    subst this
    exact ⟨rfl, rfl⟩
  | succ fuel ih =>
    simp only [intDigits] at h0 ⊢
    split_ifs at h0 ⊢ with h1
    · simp only [List.head?_cons, Option.some.injEq] at h0
      have := digitChar_zero n h1 h0
      subst this
      exact ⟨rfl, rfl⟩
    · rw [List.head?_append_of_ne_nil _ (intDigits_ne _ _)] at h0
      have := (ih _ (by omega) h0).2
      omega

theorem lastDigits_value (k n : ℕ) : natValue (lastDigits k n) = n % 10 ^ k := by
  induction k generalizing n with
  | zero => simp [lastDigits, natValue, Nat.mod_one]
  | succ k ih =>
    simp only [lastDigits]
    rw [natValue_snoc, ih, digit_facts _ (by omega), pow_succ', Nat.mod_mul]
    omega

theorem lastDigits_digits (k n : ℕ) : (∀ c ∈ lastDigits k n, IsDigit c) ∧ (lastDigits k n).length = k := by
  induction k generalizing n with
  | zero => simp [lastDigits]
  | succ k ih =>
    obtain ⟨h1, h2⟩ := ih (n / 10)
    simp only [lastDigits]
    refine ⟨fun c hc => ?_, by simp [h2]⟩
    rcases List.mem_append.1 hc with hc | hc
    · exact h1 c hc
    · rw [List.mem_singleton.1 hc]; exact isDigit_digitChar (by omega)

/-- **C78 (digits).** The digits of a rounded number are read as the rounded number. -/
theorem digits_read (m p : ℕ) : Plain (unsigned m p) p ((m : ℚ) / 10 ^ p) := by
  obtain ⟨h1, h2⟩ := lastDigits_digits p m
  refine ⟨intDigits (m / 10 ^ p) (m / 10 ^ p), lastDigits p m, rfl, intDigits_ne _ _,
    intDigits_digits _ _ le_rfl, h1, h2, fun h => (intDigits_head _ _ le_rfl h).1, ?_⟩
  rw [intDigits_value _ _ le_rfl, lastDigits_value]
  have e : m = 10 ^ p * (m / 10 ^ p) + m % 10 ^ p := (Nat.div_add_mod _ _).symm
  have hp : (10 : ℚ) ^ p ≠ 0 := by positivity
  rw [div_eq_iff hp, add_mul, div_mul_cancel₀ _ hp]
  have e' : (m : ℚ) = ((10 ^ p * (m / 10 ^ p) + m % 10 ^ p : ℕ) : ℚ) := by rw [← e]
  rw [e']
  push_cast
  ring

/-! ### Compact numbers -/

theorem millIdx_le (n : ℚ) : millIdx n ≤ 4 := by
  unfold millIdx
  omega

theorem pow_mill (i : ℕ) : (10 : ℚ) ^ (3 * i) = 1000 ^ i := by
  rw [pow_mul]; norm_num

theorem unit_mem {i : ℕ} (h : i ≤ 4) : (millNames.getD i [], (1000 : ℚ) ^ i) ∈ units := by
  interval_cases i <;> simp [millNames, units] <;> norm_num

theorem millIdx_bounds (n : ℚ) :
    ((1000 : ℚ) ^ millIdx n ≤ |n| ∨ millIdx n = 0) ∧ (|n| < 1000 * 1000 ^ millIdx n ∨ millIdx n = 4) := by
  by_cases h0 : n = 0
  · subst h0
    have : millIdx 0 = 0 := by simp [millIdx]
    rw [this]
    exact ⟨Or.inr rfl, Or.inl (by norm_num)⟩
  · have hpos : 0 < |n| := abs_pos.2 h0
    have l1 := Int.zpow_log_le_self (b := 1000) (by norm_num) hpos
    have l2 := Int.lt_zpow_succ_log_self (b := 1000) (by norm_num) |n|
    have e : millIdx n = (max 0 (min 4 (Int.log 1000 |n|))).toNat := by
      unfold millIdx; rw [if_neg h0]
    push_cast at l1 l2
    set k := Int.log 1000 |n| with hk
    constructor
    · by_cases hk0 : k ≤ 0
      · right; omega
      · left
        have h1 : (millIdx n : ℤ) ≤ k := by omega
        refine le_trans ?_ l1
        rw [← zpow_natCast]
        exact zpow_le_zpow_right₀ (by norm_num) h1
    · by_cases hk4 : 4 ≤ k
      · right; omega
      · left
        have h1 : k + 1 ≤ (millIdx n : ℤ) + 1 := by omega
        refine lt_of_lt_of_le l2 ?_
        refine (zpow_le_zpow_right₀ (by norm_num) h1).trans ?_
        rw [zpow_add₀ (by norm_num), zpow_one, zpow_natCast, mul_comm]

theorem rint_nonneg {x : ℚ} (h : 0 ≤ x) : 0 ≤ rint x := by
  have := rint_mono h
  rwa [rint_zero] at this

theorem toNat_rint {x : ℚ} (h : 0 ≤ x) : ((rint x).toNat : ℚ) = rint x := by
  have := Int.toNat_of_nonneg (rint_nonneg h)
  exact_mod_cast this

theorem compact_text (n : ℚ) (p : ℕ) (currency : Text) :
    compact n p currency = (if n < 0 then ['-'] else []) ++ currency
      ++ unsigned (rint (|n / 10 ^ (3 * millIdx n)| * 10 ^ p)).toNat p ++ millNames.getD (millIdx n) [] := by
  have hp : (0 : ℚ) < 10 ^ (3 * millIdx n) := by positivity
  have hs : n / 10 ^ (3 * millIdx n) < 0 ↔ n < 0 := by
    rw [div_lt_iff₀ hp, zero_mul]
  unfold compact fixed
  simp only [hs]
  by_cases h : n < 0
  · simp only [if_pos h]
    simp
  · simp only [if_neg h]
    simp

/-- **C78 (compact numbers).** A compact number is read as the number, rounded to the shown decimals of the
shown unit; a minus sign stands before the currency exactly if the number is negative.  The unit is the
largest one that does not exceed the number. -/
theorem compact_read (n : ℚ) (p : ℕ) (currency : Text) :
    ∃ unit v, Shows (decide (n < 0)) currency (compact n p currency) p unit v ∧
      |v - n| ≤ unit / 10 ^ p / 2 ∧ (unit ≤ |n| ∨ unit = 1) ∧
      (|n| < 1000 * unit ∨ unit = 1000000000000) := by
  obtain ⟨b1, b2⟩ := millIdx_bounds n
  have hu : (0 : ℚ) < 1000 ^ millIdx n := by positivity
  have hp : (0 : ℚ) < 10 ^ p := by positivity
  set u : ℚ := 1000 ^ millIdx n with hudef
  set m := (rint (|n / 10 ^ (3 * millIdx n)| * 10 ^ p)).toNat with hm
  have hround : |(m : ℚ) - |n| / u * 10 ^ p| ≤ 1 / 2 := by
    have h0 : 0 ≤ |n / 10 ^ (3 * millIdx n)| * 10 ^ p := by positivity
    rw [hm, toNat_rint h0]
    have := abs_rint_sub (|n / 10 ^ (3 * millIdx n)| * 10 ^ p)
    rw [abs_div, abs_of_pos (show (0 : ℚ) < 10 ^ (3 * millIdx n) by positivity), pow_mill] at this ⊢
    exact this
  have herr : |(m : ℚ) / 10 ^ p * u - (|n|)| ≤ u / 10 ^ p / 2 := by
    have e : (m : ℚ) / 10 ^ p * u - (|n|) = ((m : ℚ) - |n| / u * 10 ^ p) * (u / 10 ^ p) := by
      field_simp
    rw [e, abs_mul, abs_of_pos (show (0 : ℚ) < u / 10 ^ p by positivity)]
    have : (0 : ℚ) < u / 10 ^ p := by positivity
    nlinarith
  refine ⟨u, (if decide (n < 0) = true then -1 else 1) * ((m : ℚ) / 10 ^ p) * u, ?_, ?_, ?_, ?_⟩
  · refine ⟨millNames.getD (millIdx n) [], unsigned m p, (m : ℚ) / 10 ^ p, unit_mem (millIdx_le n),
      digits_read m p, ?_, rfl⟩
    rw [compact_text]
    simp only [decide_eq_true_eq]
    rfl
  · by_cases h : n < 0
    · simp only [decide_eq_true_eq, if_pos h]
      rw [abs_of_neg h] at herr
      have e : -1 * ((m : ℚ) / 10 ^ p) * u - n = -((m : ℚ) / 10 ^ p * u - -n) := by ring
      rw [e, abs_neg]
      exact herr
    · simp only [decide_eq_true_eq, if_neg h]
      rw [abs_of_nonneg (not_lt.1 h)] at herr
      rw [one_mul]
      exact herr
  · rcases b1 with h | h
    · exact Or.inl h
    · right; rw [hudef, h, pow_zero]
  · rcases b2 with h | h
    · exact Or.inl h
    · right; rw [hudef, h]; norm_num

/-! ### Amounts of money -/

theorem intLog10_large {x : ℚ} (h1 : 1 ≤ x) :
    (10 : ℚ) ^ intLog10 x ≤ x ∧ x < 10 * (10 : ℚ) ^ intLog10 x := by
  unfold intLog10
  rw [if_pos h1]
  have h0 : 0 < x := by linarith
  constructor
  · have := Int.zpow_log_le_self (b := 10) (by norm_num) h0
    simpa using this
  · have := Int.lt_zpow_succ_log_self (b := 10) (by norm_num) x
    rw [zpow_add₀ (by norm_num), zpow_one] at this
    push_cast at this
    linarith

/-- **C78 (amounts).** The shown amount of at least one unit of currency differs from the amount by at most
five percent, a smaller one by at most half a unit; the sign is right. -/
theorem amount_read (n : ℚ) (currency : Text) :
    ∃ p unit v, p ≤ 1 ∧ Shows (decide (n < 0)) currency (monetary n currency) p unit v ∧
      (1 ≤ |n| → |v - n| ≤ |n| / 20) ∧ (|n| < 1 → |v - n| ≤ 1 / 2) := by
  set p : ℕ := if n ≠ 0 ∧ intLog10 |n| % 3 = 0 then 1 else 0 with hpdef
  obtain ⟨unit, v, h1, h2, h3, h4⟩ := compact_read n p currency
  have hp1 : p ≤ 1 := by rw [hpdef]; split_ifs <;> omega
  have hunit : ∃ i : ℕ, unit = 1000 ^ i := by
    obtain ⟨l, -, -, hmem, -⟩ := h1
    simp only [units, List.mem_cons, Prod.mk.injEq, List.not_mem_nil, or_false] at hmem
    rcases hmem with ⟨-, h⟩ | ⟨-, h⟩ | ⟨-, h⟩ | ⟨-, h⟩ | ⟨-, h⟩
    · exact ⟨0, by rw [h]; norm_num⟩
    · exact ⟨1, by rw [h]; norm_num⟩
    · exact ⟨2, by rw [h]; norm_num⟩
    · exact ⟨3, by rw [h]; norm_num⟩
    · exact ⟨4, by rw [h]; norm_num⟩
  refine ⟨p, unit, v, hp1, h1, ?_, ?_⟩
  · intro hn
    have hn0 : n ≠ 0 := by
      rintro rfl
      norm_num at hn
    have hule : unit ≤ |n| := by
      rcases h3 with h | h
      · exact h
      · rw [h]; exact hn
    obtain ⟨g1, g2⟩ := intLog10_large hn
    by_cases hk : intLog10 |n| % 3 = 0
    · have : p = 1 := by rw [hpdef, if_pos ⟨hn0, hk⟩]
      rw [this] at h2
      norm_num at h2
      linarith
    · have : p = 0 := by rw [hpdef, if_neg (fun h => hk h.2)]
      rw [this] at h2
      norm_num at h2
      -- the number is at least ten units
      have h10 : 10 * unit ≤ |n| := by
        obtain ⟨i, hi⟩ := hunit
        by_contra hlt
        push Not at hlt
        apply hk
        have hu : unit = (10 : ℚ) ^ (3 * (i : ℤ)) := by
          rw [hi, zpow_mul]; norm_num
        have a1 : (10 : ℚ) ^ (3 * (i : ℤ)) < 10 ^ (intLog10 |n| + 1) := by
          rw [zpow_add₀ (by norm_num), zpow_one, ← hu]; linarith
        have a2 : (10 : ℚ) ^ intLog10 |n| < 10 ^ (3 * (i : ℤ) + 1) := by
          rw [zpow_add₀ (by norm_num), zpow_one, ← hu]; linarith
        have c1 := (zpow_lt_zpow_iff_right₀ (by norm_num : (1 : ℚ) < 10)).1 a1
        have c2 := (zpow_lt_zpow_iff_right₀ (by norm_num : (1 : ℚ) < 10)).1 a2
        omega
      linarith
  · intro hn
    have hu1 : unit = 1 := by
      rcases h3 with h | h
      · obtain ⟨i, hi⟩ := hunit
        have : (1 : ℚ) ≤ unit := by rw [hi]; exact one_le_pow₀ (by norm_num)
        linarith
      · exact h
    rw [hu1] at h2
    have hp : (1 : ℚ) ≤ 10 ^ p := one_le_pow₀ (by norm_num)
    have : (1 : ℚ) / 10 ^ p ≤ 1 := by rw [div_le_one (by linarith)]; exact hp
    linarith

/-! ### Percentages -/

theorem oneDigit_spec {x : ℚ} (h : 0 < x) :
    1 ≤ (oneDigit x).1 ∧ (oneDigit x).1 < 10 ∧
    |((oneDigit x).1 : ℚ) * 10 ^ (oneDigit x).2 - x| ≤ x / 3 ∧
    (oneDigit x).1 * (10 : ℚ) ^ (oneDigit x).2 ≤ x * (4 / 3) ∧
    (Int.log 10 x ≤ (oneDigit x).2 ∧ (oneDigit x).2 ≤ Int.log 10 x + 1) := by
  have l1 := Int.zpow_log_le_self (b := 10) (by norm_num) h
  have l2 := Int.lt_zpow_succ_log_self (b := 10) (by norm_num) x
  push_cast at l1 l2
  set e := Int.log 10 x with he
  have hpos : (0 : ℚ) < 10 ^ e := by positivity
  rw [zpow_add₀ (by norm_num), zpow_one] at l2
  set y := x / 10 ^ e with hy
  have hx : x = y * 10 ^ e := by rw [hy]; field_simp
  have hy1 : 1 ≤ y := by rw [hy, le_div_iff₀ hpos]; linarith
  have hy2 : y < 10 := by rw [hy, div_lt_iff₀ hpos]; linarith
  have hr1 : 1 ≤ rint y := by
    have := rint_mono hy1
    have h1 : rint 1 = 1 := by simpa using rint_intCast 1
    rwa [h1] at this
  have hr2 : rint y ≤ 10 := by
    have := rint_mono hy2.le
    have h1 : rint 10 = 10 := by simpa using rint_intCast 10
    rwa [h1] at this
  have hab := abs_le.1 (abs_rint_sub y)
  have hthird : |(rint y : ℚ) - y| ≤ y / 3 := by
    rw [abs_le]
    by_cases h15 : 3 / 2 ≤ y
    · constructor <;> linarith [hab.1, hab.2]
    · push Not at h15
      have hle : rint y ≤ 1 := by
        have hlt : (rint y : ℚ) < 2 := by linarith [hab.2]
        have : rint y < 2 := by exact_mod_cast hlt
        omega
      have e1 : rint y = 1 := by omega
      rw [e1]
      push_cast
      constructor <;> linarith
  have hm : ((rint y).toNat : ℚ) = rint y := toNat_rint (by linarith)
  have herr : |(rint y : ℚ) * 10 ^ e - x| ≤ x / 3 := by
    have e1 : (rint y : ℚ) * 10 ^ e - x = ((rint y : ℚ) - y) * 10 ^ e := by rw [hx]; ring
    rw [e1, abs_mul, abs_of_pos hpos, hx]
    nlinarith
  have hkey : ∀ d : ℕ, ∀ e' : ℤ, (d : ℚ) * 10 ^ e' = (rint y : ℚ) * 10 ^ e →
      |(d : ℚ) * 10 ^ e' - x| ≤ x / 3 ∧ (d : ℚ) * 10 ^ e' ≤ x * (4 / 3) := by
    intro d e' hd
    rw [hd]
    refine ⟨herr, ?_⟩
    linarith [(abs_le.1 herr).2]
  unfold oneDigit
  simp only [← he, ← hy]
  by_cases h10 : (rint y).toNat = 10
  · rw [if_pos h10]
    have hr : rint y = 10 := by omega
    obtain ⟨k1, k2⟩ := hkey 1 (e + 1) (by
      rw [hr, zpow_add₀ (by norm_num), zpow_one]; push_cast; ring)
    exact ⟨le_rfl, by norm_num, k1, k2, by simp only; omega, by simp only; omega⟩
  · rw [if_neg h10]
    obtain ⟨k1, k2⟩ := hkey (rint y).toNat e (by rw [hm])
    refine ⟨by simp only; omega, by simp only; omega, k1, k2, le_rfl, by simp only; omega⟩

theorem replicate_value (k : ℕ) : natValue (List.replicate k '0') = 0 := by
  induction k with
  | zero => rfl
  | succ k ih => rw [List.replicate_succ', natValue_snoc, ih]; rfl

/-- **C78 (percentages).** A percentage of at least one is shown as a whole number of percents, rounded; a
smaller positive one with one significant digit, at most a third off, and never as zero. -/
theorem percent_read (x : ℚ) :
    (1 / 100 ≤ x → ∃ body v, percent x = body ++ ['%'] ∧ Plain body 0 v ∧ |v - 100 * x| ≤ 1 / 2) ∧
    (0 < x → x < 1 / 100 → ∃ body v, percent x = body ++ ['%'] ∧
      (Scientific body v ∨ ∃ p, Plain body p v) ∧ |v - 100 * x| ≤ 100 * x / 3 ∧ 0 < v) ∧
    percent 0 = ['0', '%'] := by
  refine ⟨?_, ?_, by simp [percent, general1]⟩
  · intro h
    have hx : 0 ≤ x := by linarith
    unfold percent
    rw [if_pos h]
    refine ⟨_, ((rint (|x * 100| * 10 ^ 0)).toNat : ℚ) / 10 ^ 0, rfl, ?_, ?_⟩
    · unfold fixed
      rw [if_neg (by linarith), List.nil_append]
      exact digits_read _ 0
    · have h1 : |x * 100| = 100 * x := by rw [abs_of_nonneg (by linarith)]; ring
      rw [pow_zero, div_one, mul_one, h1, toNat_rint (by linarith)]
      exact abs_rint_sub _
  · intro h0 h
    have hx : 0 < x * 100 := by linarith
    obtain ⟨d1, d2, d3, d4, d5, d6⟩ := oneDigit_spec hx
    unfold percent
    rw [if_neg (by linarith)]
    set d := (oneDigit (x * 100)).1 with hd
    set e := (oneDigit (x * 100)).2 with he
    have hepos : (0 : ℚ) < 10 ^ e := by positivity
    have hv0 : (0 : ℚ) < d * 10 ^ e := by
      have : (0 : ℚ) < d := by exact_mod_cast d1
      positivity
    refine ⟨_, (d : ℚ) * 10 ^ e, rfl, ?_, by rw [mul_comm 100 x]; exact d3, hv0⟩
    unfold general1
    simp only [if_neg hx.ne', abs_of_pos hx, ← hd, ← he, if_neg (not_lt.2 hx.le), List.nil_append]
    have hdig := isDigit_digitChar d2
    by_cases he0 : e = 0
    · right
      refine ⟨0, ?_⟩
      rw [if_pos he0, he0]
      refine ⟨[Nat.digitChar d], [], by simp, by simp, by simpa using hdig, by simp, rfl, ?_, ?_⟩
      · intro hz
        simp only [List.head?_cons, Option.some.injEq] at hz
        rw [hz]
      · rw [natValue_digit d2]; simp [natValue]
    · rw [if_neg he0]
      by_cases h4 : -4 ≤ e ∧ e < 0
      · right
        rw [if_pos h4]
        refine ⟨e.natAbs, ['0'], List.replicate (e.natAbs - 1) '0' ++ [Nat.digitChar d], ?_, by simp, ?_,
          ?_, ?_, by simp, ?_⟩
        · rw [if_neg (by omega)]; rfl
        · intro c hc
          rw [List.mem_singleton.1 hc]
          exact isDigit_digitChar (d := 0) (by norm_num)
        · intro c hc
          rcases List.mem_append.1 hc with hc | hc
          · rw [(List.mem_replicate.1 hc).2]
            exact isDigit_digitChar (d := 0) (by norm_num)
          · rw [List.mem_singleton.1 hc]; exact hdig
        · simp only [List.length_append, List.length_replicate, List.length_singleton]; omega
        · rw [natValue_snoc, replicate_value, digit_facts d d2]
          have hz : natValue ['0'] = 0 := rfl
          rw [hz]
          have hexp : (10 : ℚ) ^ e = 1 / 10 ^ e.natAbs := by
            have : e = -(e.natAbs : ℤ) := by omega
            rw [this, zpow_neg, zpow_natCast, Int.natAbs_neg, Int.natAbs_natCast, one_div]
          rw [hexp]
          simp
          ring
      · left
        rw [if_neg h4]
        refine ⟨Nat.digitChar d, decide (e < 0), if e.natAbs < 10 then ['0', Nat.digitChar e.natAbs]
          else intDigits e.natAbs e.natAbs, hdig, ?_, ?_, ?_, ?_⟩
        · intro c hc
          split_ifs at hc with h10
          · rcases List.mem_cons.1 hc with rfl | hc
            · exact isDigit_digitChar (d := 0) (by norm_num)
            · rw [List.mem_singleton.1 hc]; exact isDigit_digitChar h10
          · exact intDigits_digits _ _ le_rfl c hc
        · split_ifs with h10
          · simp
          · by_contra hlen
            have hne := intDigits_ne e.natAbs e.natAbs
            have h1 : (intDigits e.natAbs e.natAbs).length = 1 := by
              have := List.length_pos_iff.2 hne
              omega
            obtain ⟨c, hc⟩ := List.length_eq_one_iff.1 h1
            have hv := intDigits_value e.natAbs e.natAbs le_rfl
            have hcd := intDigits_digits e.natAbs e.natAbs le_rfl c (by rw [hc]; simp)
            rw [hc] at hv
            unfold IsDigit at hcd
            simp only [natValue, List.foldl_cons, List.foldl_nil] at hv
            omega
        · simp only [decide_eq_true_eq]
        · have hval : natValue (if e.natAbs < 10 then ['0', Nat.digitChar e.natAbs]
              else intDigits e.natAbs e.natAbs) = e.natAbs := by
            split_ifs with h10
            · have : (['0', Nat.digitChar e.natAbs] : List Char) = ['0'] ++ [Nat.digitChar e.natAbs] := rfl
              rw [this, natValue_snoc, digit_facts _ h10]
              have hz : natValue ['0'] = 0 := rfl
              rw [hz]; omega
            · exact intDigits_value _ _ le_rfl
          rw [natValue_digit d2, hval]
          congr 2
          simp only [decide_eq_true_eq]
          split_ifs <;> omega

/-- **C78 (share and value).** The text for a share of an outcome shows the share in percent with one
decimal and then the compact value. -/
theorem share_read (share value : ℚ) : ∃ body v unit w,
    numberText share value = (if share < 0 then ['-'] else []) ++ body ++ ['%', ' ', '(']
      ++ compact value 0 [] ++ [')'] ∧
    Plain body 1 v ∧ |v - 100 * (|share|)| ≤ 1 / 20 ∧
    Shows (decide (value < 0)) [] (compact value 0 []) 0 unit w ∧ |w - value| ≤ unit / 2 := by
  obtain ⟨unit, w, h1, h2, -, -⟩ := compact_read value 0 []
  refine ⟨_, ((rint (|share * 100| * 10 ^ 1)).toNat : ℚ) / 10 ^ 1, unit, w, ?_, digits_read _ 1, ?_, h1,
    by simpa using h2⟩
  · unfold numberText fixed
    have : share * 100 < 0 ↔ share < 0 := by constructor <;> intro h <;> linarith
    simp only [this]
  · have h0 : 0 ≤ |share * 100| * 10 ^ 1 := by positivity
    rw [toNat_rint h0]
    have := abs_rint_sub (|share * 100| * 10 ^ 1)
    rw [abs_mul] at this ⊢
    have e100 : |(100 : ℚ)| = 100 := by norm_num
    rw [e100] at this ⊢
    rw [abs_le] at this ⊢
    constructor <;> linarith [this.1, this.2]

/-- **C78 (fixed decimals).** A number with fixed decimals is read as the number, rounded to these. -/
theorem fixed_read (x : ℚ) (p : ℕ) : ∃ v, Shows (decide (x < 0)) [] (fixed x p) p 1 v ∧
    |v - x| ≤ 1 / 10 ^ p / 2 := by
  have hp : (0 : ℚ) < 10 ^ p := by positivity
  set m := (rint (|x| * 10 ^ p)).toNat with hm
  have hround := abs_rint_sub (|x| * 10 ^ p)
  rw [← toNat_rint (by positivity), ← hm] at hround
  have herr : |(m : ℚ) / 10 ^ p - (|x|)| ≤ 1 / 10 ^ p / 2 := by
    have e : (m : ℚ) / 10 ^ p - (|x|) = ((m : ℚ) - |x| * 10 ^ p) * (1 / 10 ^ p) := by field_simp
    rw [e, abs_mul, abs_of_pos (show (0 : ℚ) < 1 / 10 ^ p by positivity)]
    have : (0 : ℚ) < 1 / 10 ^ p := by positivity
    nlinarith
  refine ⟨(if decide (x < 0) = true then -1 else 1) * ((m : ℚ) / 10 ^ p) * 1,
    ⟨[], unsigned m p, (m : ℚ) / 10 ^ p, by simp [units], digits_read m p, ?_, rfl⟩, ?_⟩
  · simp only [decide_eq_true_eq, List.append_nil]
    rfl
  · by_cases h : x < 0
    · simp only [decide_eq_true_eq, if_pos h]
      rw [abs_of_neg h] at herr
      have e : -1 * ((m : ℚ) / 10 ^ p) * 1 - x = -((m : ℚ) / 10 ^ p - -x) := by ring
      rw [e, abs_neg]
      exact herr
    · simp only [decide_eq_true_eq, if_neg h]
      rw [abs_of_nonneg (not_lt.1 h)] at herr
      rw [one_mul, mul_one]
      exact herr

/-! ### The figures of a budget optimization -/

theorem npRound_close (x : ℚ) : |npRound x 1 - x| ≤ 1 / 20 := by
  unfold npRound
  have := abs_rint_sub (x * 10 ^ (1 : ℤ))
  rw [zpow_one] at this ⊢
  rw [abs_le] at this ⊢
  constructor <;> linarith [this.1, this.2]

theorem fixed_npRound (x : ℚ) : ∃ b v, Shows b [] (fixed (npRound x 1) 1) 1 1 v ∧ |v - x| ≤ 1 / 20 := by
  -- the rounded number has one decimal, so it is shown exactly
  have hp : |npRound x 1| * 10 ^ 1 = ((rint (x * 10)).natAbs : ℤ) := by
    unfold npRound
    rw [zpow_one, abs_div, abs_of_pos (show (0 : ℚ) < 10 by norm_num), pow_one,
      div_mul_cancel₀ _ (by norm_num)]
    rw [Int.natCast_natAbs]
    push_cast
    rfl
  refine ⟨decide (npRound x 1 < 0), npRound x 1, ?_, npRound_close x⟩
  refine ⟨[], unsigned (rint (x * 10)).natAbs 1, ((rint (x * 10)).natAbs : ℚ) / 10 ^ 1, by simp [units],
    digits_read _ 1, ?_, ?_⟩
  · unfold fixed
    rw [hp, rint_intCast, Int.toNat_natCast]
    simp
  · have hab : ((rint (x * 10)).natAbs : ℚ) / 10 ^ 1 = |npRound x 1| := by
      rw [div_eq_iff (by norm_num), hp]
      exact (Int.cast_natCast _).symm
    rw [hab, mul_one]
    by_cases h : npRound x 1 < 0
    · simp only [decide_eq_true_eq, if_pos h, abs_of_neg h]; ring
    · simp only [decide_eq_true_eq, if_neg h, abs_of_nonneg (not_lt.1 h)]; ring

/-- **C78 (performance).** The shown ROIs and their shown change are right up to 0.05, the shown costs per
incremental KPI up to half a cent; the change of the ROI has a plus sign exactly if it is shown positive. -/
theorem performance_read (non opt : ℚ) (currency : Text) :
    (∃ b v, Shows b [] (roiStats non opt).1 1 1 v ∧ |v - non| ≤ 1 / 20) ∧
    (∃ b v, Shows b [] (roiStats non opt).2.stat 1 1 v ∧ |v - opt| ≤ 1 / 20) ∧
    (∃ b v t, Shows b [] t 1 1 v ∧ |v - (opt - non)| ≤ 1 / 20 ∧
      (roiStats non opt).2.delta = (if 0 < npRound (opt - non) 1 then ['+'] else []) ++ t) ∧
    (∃ v t, Shows (decide (non < 0)) [] t 2 1 v ∧ |v - non| ≤ 1 / 200 ∧
      (cpikStats non opt currency).1 = currency ++ t) ∧
    (∃ v t, Shows (decide (opt < 0)) [] t 2 1 v ∧ |v - opt| ≤ 1 / 200 ∧
      (cpikStats non opt currency).2.stat = currency ++ t) ∧
    (cpikStats non opt currency).2.delta = compact (opt - non) 2 currency := by
  refine ⟨fixed_npRound non, fixed_npRound opt, ?_, ?_, ?_, rfl⟩
  · obtain ⟨b, v, h1, h2⟩ := fixed_npRound (opt - non)
    exact ⟨b, v, _, h1, h2, rfl⟩
  · obtain ⟨v, h1, h2⟩ := fixed_read non 2
    exact ⟨v, _, h1, by norm_num at h2 ⊢; exact h2, rfl⟩
  · obtain ⟨v, h1, h2⟩ := fixed_read opt 2
    exact ⟨v, _, h1, by norm_num at h2 ⊢; exact h2, rfl⟩

/-- **C78 (figures).** The changes of budget and outcome have a plus sign exactly if the optimized value is
larger and a minus sign exactly if it is smaller. -/
theorem change_signs (non opt : ℚ) (currency : Text) :
    (non < opt → ∃ unit v p, Shows false currency (monetary (opt - non) currency) p unit v ∧
      (budgetStats non opt currency).2.delta = '+' :: monetary (opt - non) currency) ∧
    (opt ≤ non → (budgetStats non opt currency).2.delta = monetary (opt - non) currency) ∧
    (opt < non → ∃ rest, (budgetStats non opt currency).2.delta = '-' :: currency ++ rest) ∧
    (non < opt → (outcomeStats non opt currency).2.delta = '+' :: compact (opt - non) 0 currency) ∧
    (opt < non → ∃ rest, (outcomeStats non opt currency).2.delta = '-' :: currency ++ rest) := by
  refine ⟨fun h => ?_, fun h => ?_, fun h => ?_, fun h => ?_, fun h => ?_⟩
  · obtain ⟨p, unit, v, -, h1, -⟩ := amount_read (opt - non) currency
    have hf : decide (opt - non < 0) = false := by
      rw [decide_eq_false_iff_not]; linarith
    rw [hf] at h1
    exact ⟨unit, v, p, h1, by simp only [budgetStats, plus, if_pos (sub_pos.2 h)]; rfl⟩
  · have h0 : ¬ 0 < opt - non := by linarith
    simp only [budgetStats, plus, if_neg h0, List.nil_append]
  · have h0 : ¬ 0 < opt - non := by linarith
    have h1 : opt - non < 0 := by linarith
    simp only [budgetStats, plus, if_neg h0, List.nil_append, monetary]
    rw [compact_text, if_pos h1]
    exact ⟨_, by simp only [List.append_assoc]; rfl⟩
  · simp only [outcomeStats, plus, if_pos (sub_pos.2 h)]; rfl
  · have h0 : ¬ 0 < opt - non := by linarith
    have h1 : opt - non < 0 := by linarith
    simp only [outcomeStats, plus, if_neg h0, List.nil_append]
    rw [compact_text, if_pos h1]
    exact ⟨_, by simp only [List.append_assoc]; rfl⟩

/-- **C78 (figures).** The shown budgets and the shown incremental outcomes are those before and after the
optimization: budgets are right up to a twentieth, outcomes up to half a unit of their letter. -/
theorem amounts_shown (non opt : ℚ) (currency : Text) :
    (∃ p unit v, Shows (decide (non < 0)) currency (budgetStats non opt currency).1 p unit v ∧
      (1 ≤ |non| → |v - non| ≤ |non| / 20)) ∧
    (∃ p unit v, Shows (decide (opt < 0)) currency (budgetStats non opt currency).2.stat p unit v ∧
      (1 ≤ |opt| → |v - opt| ≤ |opt| / 20)) ∧
    (∃ unit v, Shows (decide (non < 0)) currency (outcomeStats non opt currency).1 0 unit v ∧
      |v - non| ≤ unit / 2) ∧
    (∃ unit v, Shows (decide (opt < 0)) currency (outcomeStats non opt currency).2.stat 0 unit v ∧
      |v - opt| ≤ unit / 2) := by
  refine ⟨?_, ?_, ?_, ?_⟩
  · obtain ⟨p, unit, v, -, h1, h2, -⟩ := amount_read non currency
    exact ⟨p, unit, v, h1, h2⟩
  · obtain ⟨p, unit, v, -, h1, h2, -⟩ := amount_read opt currency
    exact ⟨p, unit, v, h1, h2⟩
  · obtain ⟨unit, v, h1, h2, -, -⟩ := compact_read non 0 currency
    exact ⟨unit, v, h1, by norm_num at h2 ⊢; exact h2⟩
  · obtain ⟨unit, v, h1, h2, -, -⟩ := compact_read opt 0 currency
    exact ⟨unit, v, h1, by norm_num at h2 ⊢; exact h2⟩

example : (outcomeStats 1200 3400 ['$']).1 = "$1k".toList ∧
    (outcomeStats 1200 3400 ['$']).2.stat = "$3k".toList := by decide +kernel

/-! ### Examples and surprises -/

example : compact 1234567 1 ['$'] = "$1.2M".toList := by decide +kernel
example : compact (-45678) 0 ['$'] = "-$46k".toList := by decide +kernel
example : monetary 15000000 ['$'] = "$15M".toList ∧ monetary 1234 ['$'] = "$1.2k".toList := by
  decide +kernel
example : percent (2 / 5) = "40%".toList ∧ percent (3 / 1000) = "0.3%".toList ∧
    percent (1 / 5000000) = "2e-05%".toList := by decide +kernel
example : numberText (402 / 1000) 15000000 = "40.2% (15M)".toList := by decide +kernel
example : budgetStats 1500000 2000000 ['$'] = ("$1.5M".toList, ⟨"$2.0M".toList, "+$500k".toList⟩) := by
  decide +kernel

/-- **C78 (finding).** Just below a unit the rounded number has four digits: 999 999.6 is shown as `1000k`,
not as `1M`. -/
theorem thousand_thousands : compact 9999996 0 [] = "10M".toList ∧
    compact (9999996 / 10) 0 [] = "1000k".toList ∧ compact 1000000 0 [] = "1M".toList := by
  decide +kernel

/-- **C78 (finding).** A small negative number is shown as a negative zero. -/
theorem negative_zero : compact (-3 / 10) 0 ['$'] = "-$0".toList := by decide +kernel

/-- **C78 (finding).** A negative percentage is shown with one significant digit and an exponent. -/
theorem negative_percentage : percent (-1 / 2) = "-5e+01%".toList ∧ percent (-1 / 20) = "-5%".toList := by
  decide +kernel

/-- **C78 (finding).** The shown change of the ROI need not be the difference of the shown values. -/
theorem shown_change_differs : roiStats (104 / 100) (106 / 100)
    = ("1.0".toList, ⟨"1.1".toList, "0.0".toList⟩) := by decide +kernel

/-- **C78 (finding).** An increase of the cost per incremental KPI is shown without a plus sign, unlike the
other figures. -/
theorem cpik_increase_unsigned : cpikStats 2 (5 / 2) ['$']
    = ("$2.00".toList, ⟨"$2.50".toList, "$0.50".toList⟩) := by decide +kernel

end Verif.Formatter.Props

import Verif.Model.ScenarioText
import Verif.Spec.ScenarioText
import Verif.Lemmas.Optimizer
import Verif.Lemmas.Nested
import Verif.Props.ResultCharts
import Verif.Props.Optimizer

/-!
# The scenario in the report of a budget optimization
-/

namespace Verif.ScenarioText.Props

open Verif Verif.Optimizer Verif.Optimizer.Props Verif.ScenarioText Verif.ScenarioText.Spec

/-! ## Rounding to machine numbers -/

theorem unit_pos (e : ℤ) : (0 : ℚ) < (2 : ℚ) ^ e := zpow_pos (by norm_num) _

theorem log_le {x : ℚ} (h : x ≠ 0) : (2 : ℚ) ^ Int.log 2 |x| ≤ |x| := by
  have := Int.zpow_log_le_self (b := 2) (r := |x|) (by norm_num) (abs_pos.2 h)
  exact_mod_cast this

theorem lt_log (x : ℚ) : |x| < (2 : ℚ) ^ (Int.log 2 |x| + 1) := by
  have := Int.lt_zpow_succ_log_self (b := 2) (by norm_num) |x|
  exact_mod_cast this

/-- Rounding changes a number by at most one part in `2 ^ 53`. -/
theorem rnd_err (x : ℚ) : |rnd x - x| ≤ |x| / 2 ^ 53 := by
  unfold rnd
  split_ifs with h
  · simp [h]
  · set e := Int.log 2 |x| with he
    have hu := unit_pos (e - 52)
    have h1 := abs_rint_sub (x / (2 : ℚ) ^ (e - 52))
    have e1 : (rint (x / (2 : ℚ) ^ (e - 52)) : ℚ) * (2 : ℚ) ^ (e - 52) - x =
        ((rint (x / (2 : ℚ) ^ (e - 52)) : ℚ) - x / (2 : ℚ) ^ (e - 52)) * (2 : ℚ) ^ (e - 52) := by
      field_simp
    rw [e1, abs_mul, abs_of_pos hu]
    have h2 : (2 : ℚ) ^ e ≤ |x| := log_le h
    have h3 : (2 : ℚ) ^ (e - 52) = (2 : ℚ) ^ e / 2 ^ 52 := by
      rw [zpow_sub₀ (by norm_num)]; norm_cast
    rw [h3] at h1 ⊢
    calc _ ≤ 1 / 2 * ((2 : ℚ) ^ e / 2 ^ 52) := by
          apply mul_le_mul_of_nonneg_right _ (by positivity)
          exact h1
      _ = (2 : ℚ) ^ e / 2 ^ 53 := by ring
      _ ≤ |x| / 2 ^ 53 := by gcongr

theorem rnd_zero : rnd 0 = 0 := by simp [rnd]

theorem rnd_nonneg {x : ℚ} (h : 0 ≤ x) : 0 ≤ rnd x := by
  have := rnd_err x
  rw [abs_of_nonneg h, abs_le] at this
  have h2 : x / 2 ^ 53 ≤ x := div_le_self h (by norm_num)
  linarith [this.1]

/-- Powers of two bound the rounded number as they bound the number. -/
theorem rnd_le_pow {x : ℚ} (hx : 0 < x) : rnd x ≤ (2 : ℚ) ^ (Int.log 2 |x| + 1) := by
  unfold rnd
  rw [if_neg hx.ne']
  set e := Int.log 2 |x| with he
  have hu := unit_pos (e - 52)
  have h1 : x ≤ (2 : ℚ) ^ (e + 1) := by have := lt_log x; rw [abs_of_pos hx] at this; rw [he, abs_of_pos hx]; exact this.le
  have h2 : x / (2 : ℚ) ^ (e - 52) ≤ ((2 ^ 53 : ℤ) : ℚ) := by
    rw [div_le_iff₀ hu]
    refine h1.trans (le_of_eq ?_)
    have : e + 1 = 53 + (e - 52) := by ring
    rw [this, zpow_add₀ (by norm_num)]
    norm_cast
  have h3 := rint_mono h2
  rw [rint_intCast] at h3
  have h4 : (rint (x / (2 : ℚ) ^ (e - 52)) : ℚ) ≤ 2 ^ 53 := by exact_mod_cast h3
  calc _ ≤ (2 : ℚ) ^ 53 * (2 : ℚ) ^ (e - 52) := by gcongr
    _ = (2 : ℚ) ^ (e + 1) := by
      have : e + 1 = 53 + (e - 52) := by ring
      rw [this, zpow_add₀ (by norm_num)]
      norm_cast

theorem pow_le_rnd {x : ℚ} (hx : 0 < x) : (2 : ℚ) ^ Int.log 2 |x| ≤ rnd x := by
  unfold rnd
  rw [if_neg hx.ne']
  set e := Int.log 2 |x| with he
  have hu := unit_pos (e - 52)
  have h1 : (2 : ℚ) ^ e ≤ x := by have := log_le hx.ne'; rw [abs_of_pos hx] at this; rw [he, abs_of_pos hx]; exact this
  have e0 : (2 : ℚ) ^ e = 2 ^ 52 * (2 : ℚ) ^ (e - 52) := by
    have : e = 52 + (e - 52) := by ring
    rw [this, zpow_add₀ (by norm_num)]
    norm_num
  have h2 : ((2 ^ 52 : ℤ) : ℚ) ≤ x / (2 : ℚ) ^ (e - 52) := by
    rw [le_div_iff₀ hu]
    refine le_trans (le_of_eq ?_) h1
    rw [e0]; norm_cast
  have h3 := rint_mono h2
  rw [rint_intCast] at h3
  have h4 : (2 : ℚ) ^ 52 ≤ (rint (x / (2 : ℚ) ^ (e - 52)) : ℚ) := by exact_mod_cast h3
  rw [e0]
  gcongr

theorem rnd_mono_pos {x y : ℚ} (hx : 0 < x) (h : x ≤ y) : rnd x ≤ rnd y := by
  have hy := hx.trans_le h
  have hl : Int.log 2 |x| ≤ Int.log 2 |y| :=
    Int.log_mono_right (abs_pos.2 hx.ne') (by rw [abs_of_pos hx, abs_of_pos hy]; exact h)
  rcases hl.lt_or_eq with hlt | heq
  · calc rnd x ≤ (2 : ℚ) ^ (Int.log 2 |x| + 1) := rnd_le_pow hx
      _ ≤ (2 : ℚ) ^ Int.log 2 |y| := zpow_le_zpow_right₀ (by norm_num) (by omega)
      _ ≤ rnd y := pow_le_rnd hy
  · unfold rnd
    rw [if_neg hx.ne', if_neg hy.ne', heq]
    have hu := unit_pos (Int.log 2 |y| - 52)
    gcongr
    exact rint_mono (by gcongr)

/-- Rounding keeps the order of numbers that are not negative. -/
theorem rnd_mono {x y : ℚ} (hx : 0 ≤ x) (h : x ≤ y) : rnd x ≤ rnd y := by
  rcases hx.lt_or_eq with hp | rfl
  · exact rnd_mono_pos hp h
  · rw [rnd_zero]; exact rnd_nonneg h

theorem rnd_one : rnd 1 = 1 := by decide +kernel
theorem rnd_hundred : rnd 100 = 100 := by decide +kernel

/-! ## The percentages -/

theorem lower_value {c : ℚ} (h0 : 0 ≤ c) (h1 : c ≤ 1) :
    let d := rnd (rnd (1 - lowerBound c) * 100)
    0 ≤ d ∧ d ≤ 100 ∧ |d - 100 * c| ≤ 300 / 2 ^ 53 := by
  intro d
  have a0 : 0 ≤ rnd (1 - c) := rnd_nonneg (by linarith)
  have a1 : rnd (1 - c) ≤ 1 := by have := rnd_mono (x := 1 - c) (y := 1) (by linarith) (by linarith); rwa [rnd_one] at this
  have hb : lowerBound c = rnd (1 - c) := max_eq_left a0
  have b0 : 0 ≤ rnd (1 - lowerBound c) := rnd_nonneg (by rw [hb]; linarith)
  have b1 : rnd (1 - lowerBound c) ≤ 1 := by
    have := rnd_mono (x := 1 - lowerBound c) (y := 1) (by rw [hb]; linarith) (by rw [hb]; linarith); rwa [rnd_one] at this
  have e1 := rnd_err (1 - c)
  have e2 := rnd_err (1 - lowerBound c)
  have e3 := rnd_err (rnd (1 - lowerBound c) * 100)
  rw [abs_of_nonneg (by linarith : (0 : ℚ) ≤ 1 - c), abs_le] at e1
  rw [abs_of_nonneg (by rw [hb]; linarith : (0 : ℚ) ≤ 1 - lowerBound c), abs_le] at e2
  rw [abs_of_nonneg (by linarith : (0 : ℚ) ≤ rnd (1 - lowerBound c) * 100), abs_le] at e3
  rw [← hb] at e1 a0 a1
  refine ⟨rnd_nonneg (by linarith), ?_, ?_⟩
  · have := rnd_mono (x := rnd (1 - lowerBound c) * 100) (y := 100) (by linarith) (by linarith)
    rwa [rnd_hundred] at this
  · rw [abs_le]
    constructor
    · linarith [e1.1, e1.2, e2.1, e2.2, e3.1, e3.2]
    · linarith [e1.1, e1.2, e2.1, e2.2, e3.1, e3.2]

theorem upper_value {c : ℚ} (h0 : 0 ≤ c) :
    let d := rnd (rnd (upperBound c - 1) * 100)
    0 ≤ d ∧ |d - 100 * c| ≤ (1 + c) / 2 ^ 44 := by
  intro d
  have a1 : 1 ≤ upperBound c := by
    have := rnd_mono (x := 1) (y := 1 + c) (by norm_num) (by linarith); rwa [rnd_one] at this
  have b0 : 0 ≤ rnd (upperBound c - 1) := rnd_nonneg (by linarith)
  have e1 : |upperBound c - (1 + c)| ≤ |1 + c| / 2 ^ 53 := rnd_err (1 + c)
  have e2 := rnd_err (upperBound c - 1)
  have e3 := rnd_err (rnd (upperBound c - 1) * 100)
  rw [abs_of_nonneg (by linarith : (0 : ℚ) ≤ 1 + c), abs_le] at e1
  rw [abs_of_nonneg (by linarith : (0 : ℚ) ≤ upperBound c - 1), abs_le] at e2
  rw [abs_of_nonneg (by linarith : (0 : ℚ) ≤ rnd (upperBound c - 1) * 100), abs_le] at e3
  refine ⟨rnd_nonneg (by linarith), ?_⟩
  rw [abs_le]
  constructor
  · linarith [e1.1, e1.2, e2.1, e2.2, e3.1, e3.2]
  · linarith [e1.1, e1.2, e2.1, e2.2, e3.1, e3.2]

/-- The lower limit shown is the constraint in percent with its decimals dropped, up to `2 ^ -44`, between 0 and 100;
a larger constraint never shows a smaller percentage. -/
theorem lower_shown (c : ℚ) (h0 : 0 ≤ c) (h1 : c ≤ 1) :
    DropsDecimals (1 / 2 ^ 44) c (lowerPercent (lowerBound c)) ∧
    0 ≤ lowerPercent (lowerBound c) ∧ lowerPercent (lowerBound c) ≤ 100 ∧
    ∀ c', c ≤ c' → c' ≤ 1 → lowerPercent (lowerBound c) ≤ lowerPercent (lowerBound c') := by
  obtain ⟨d0, d1, d2⟩ := lower_value h0 h1
  rw [abs_le] at d2
  have t1 := truncInt_le d0
  have t2 := lt_truncInt_add_one d0
  refine ⟨⟨?_, ?_⟩, truncInt_nonneg d0, ?_, ?_⟩
  · unfold lowerPercent; norm_num at d2 ⊢; linarith [d2.2]
  · unfold lowerPercent; norm_num at d2 ⊢; linarith [d2.1]
  · have : ((lowerPercent (lowerBound c) : ℤ) : ℚ) ≤ (100 : ℤ) := by unfold lowerPercent; push_cast; linarith
    exact_mod_cast this
  · intro c' hc h1'
    have a : rnd (1 - c') ≤ rnd (1 - c) := rnd_mono (by linarith) (by linarith)
    have b : lowerBound c' ≤ lowerBound c := max_le_max a le_rfl
    have hle : lowerBound c ≤ 1 := by
      have := rnd_mono (x := 1 - c) (y := 1) (by linarith) (by linarith)
      rw [rnd_one] at this
      exact max_le this (by norm_num)
    have g : rnd (1 - lowerBound c) ≤ rnd (1 - lowerBound c') := rnd_mono (by linarith) (by linarith)
    have g0 : 0 ≤ rnd (1 - lowerBound c) := rnd_nonneg (by linarith)
    exact GridSearch.truncInt_mono (rnd_mono (by linarith) (by linarith))

/-- The upper limit shown is the constraint in percent with its decimals dropped, up to `(1 + c) / 2 ^ 44`; a larger
constraint never shows a smaller percentage. -/
theorem upper_shown (c : ℚ) (h0 : 0 ≤ c) :
    DropsDecimals ((1 + c) / 2 ^ 44) c (upperPercent (upperBound c)) ∧ 0 ≤ upperPercent (upperBound c) ∧
    ∀ c', c ≤ c' → upperPercent (upperBound c) ≤ upperPercent (upperBound c') := by
  obtain ⟨d0, d2⟩ := upper_value h0
  rw [abs_le] at d2
  have t1 := truncInt_le d0
  have t2 := lt_truncInt_add_one d0
  refine ⟨⟨?_, ?_⟩, truncInt_nonneg d0, ?_⟩
  · unfold upperPercent; linarith [d2.2]
  · unfold upperPercent; linarith [d2.1]
  · intro c' hc
    have a : upperBound c ≤ upperBound c' := rnd_mono (by linarith) (by linarith)
    have a1 : 1 ≤ upperBound c := by
      have := rnd_mono (x := 1) (y := 1 + c) (by norm_num) (by linarith); rwa [rnd_one] at this
    have g : rnd (upperBound c - 1) ≤ rnd (upperBound c' - 1) := rnd_mono (by linarith) (by linarith)
    have g0 : 0 ≤ rnd (upperBound c - 1) := rnd_nonneg (by linarith)
    exact GridSearch.truncInt_mono (rnd_mono (by linarith) (by linarith))

/-- A constraint of a whole number of percent, as the machine stores it, is shown as that number or as one less. -/
theorem whole_percent (p : ℕ) (hp : p ≤ 100) :
    (lowerPercent (lowerBound (rnd (p / 100))) = p ∨ lowerPercent (lowerBound (rnd (p / 100))) = p - 1) ∧
    (upperPercent (upperBound (rnd (p / 100))) = p ∨ upperPercent (upperBound (rnd (p / 100))) = p - 1) := by
  have hq : (0 : ℚ) ≤ p / 100 := by positivity
  have hq1 : (p : ℚ) / 100 ≤ 1 := by rw [div_le_one (by norm_num)]; exact_mod_cast hp
  have c0 := rnd_nonneg hq
  have c1 : rnd ((p : ℚ) / 100) ≤ 1 := by have := rnd_mono hq hq1; rwa [rnd_one] at this
  have e := rnd_err ((p : ℚ) / 100)
  rw [abs_of_nonneg hq, abs_le] at e
  obtain ⟨⟨l1, l2⟩, -⟩ := lower_shown _ c0 c1
  obtain ⟨⟨u1, u2⟩, -⟩ := upper_shown _ c0
  constructor
  · have s1 : ((lowerPercent (lowerBound (rnd (p / 100))) : ℤ) : ℚ) < ((p + 1 : ℤ) : ℚ) := by
      push_cast; norm_num at e l1; linarith [e.2]
    have s2 : ((p - 2 : ℤ) : ℚ) < ((lowerPercent (lowerBound (rnd (p / 100))) : ℤ) : ℚ) := by
      push_cast; norm_num at e l2; linarith [e.1]
    have s1' : lowerPercent (lowerBound (rnd (p / 100))) < p + 1 := by exact_mod_cast s1
    have s2' : (p : ℤ) - 2 < lowerPercent (lowerBound (rnd (p / 100))) := by exact_mod_cast s2
    omega
  · have s1 : ((upperPercent (upperBound (rnd (p / 100))) : ℤ) : ℚ) < ((p + 1 : ℤ) : ℚ) := by
      push_cast; norm_num at e u1; linarith [e.2]
    have s2 : ((p - 2 : ℤ) : ℚ) < ((upperPercent (upperBound (rnd (p / 100))) : ℤ) : ℚ) := by
      push_cast; norm_num at e u2; linarith [e.1]
    have s1' : upperPercent (upperBound (rnd (p / 100))) < p + 1 := by exact_mod_cast s1
    have s2' : (p : ℤ) - 2 < upperPercent (upperBound (rnd (p / 100))) := by exact_mod_cast s2
    omega

/-- Finding: exactly these whole percentages, given as a constraint, are shown as one less; a constraint of 20 percent
is shown as "-19% to +19%", one of 10 percent as "-9% to +10%". -/
theorem understated :
    (∀ p : ℕ, p ≤ 100 → (lowerPercent (lowerBound (rnd (p / 100))) ≠ p ↔
      p ∈ [8, 9, 10, 11, 18, 19, 20, 21, 22, 41, 42, 43, 44, 45, 57, 58])) ∧
    (∀ p : ℕ, p ≤ 100 → (upperPercent (upperBound (rnd (p / 100))) ≠ p ↔
      p ∈ [13, 15, 16, 17, 18, 19, 20, 21, 22, 36, 38, 40, 41, 42, 43, 44, 45, 57, 59, 61, 63, 65, 82, 84, 86, 88, 90])) ∧
    (describe true none 1 [rnd (20 / 100)] [rnd (20 / 100)] 0 0 7).limits = some (19, 19) ∧
    (describe true none 1 [rnd (10 / 100)] [rnd (10 / 100)] 0 0 7).limits = some (9, 10) := by
  refine ⟨?_, ?_, by decide +kernel, by decide +kernel⟩
  · have h : ∀ p ∈ List.range 101, (lowerPercent (lowerBound (rnd ((p : ℕ) / 100))) ≠ p ↔
      p ∈ [8, 9, 10, 11, 18, 19, 20, 21, 22, 41, 42, 43, 44, 45, 57, 58]) := by decide +kernel
    exact fun p hp => h p (List.mem_range.2 (by omega))
  · have h : ∀ p ∈ List.range 101, (upperPercent (upperBound (rnd ((p : ℕ) / 100))) ≠ p ↔
      p ∈ [13, 15, 16, 17, 18, 19, 20, 21, 22, 36, 38, 40, 41, 42, 43, 44, 45, 57, 59, 61, 63, 65, 82, 84, 86, 88, 90]) := by
      decide +kernel
    exact fun p hp => h p (List.mem_range.2 (by omega))

/-- Without constraints in the request, the limits shown are the defaults: 30 percent for a fixed budget, 100 percent
for a flexible one. -/
theorem default_limits (fixedBudget : Bool) (budget : Option ℚ) (total : ℚ) (start stop interval : ℤ) :
    (describe fixedBudget budget total (keptConstraint fixedBudget none) (keptConstraint fixedBudget none) start stop
      interval).limits = if fixedBudget then some (30, 30) else some (100, 100) := by
  cases fixedBudget
  · have : (some (lowerPercent (lowerBound 1), upperPercent (upperBound 1)) : Option (ℤ × ℤ)) = some (100, 100) := by
      decide +kernel
    simpa [describe, keptConstraint] using this
  · have : (some (lowerPercent (lowerBound (rnd (3 / 10))), upperPercent (upperBound (rnd (3 / 10)))) : Option (ℤ × ℤ)) =
        some (30, 30) := by decide +kernel
    simpa [describe, keptConstraint] using this

/-- If the report names limits, every channel has these constraints. -/
theorem limits_hold_for_all (fixedBudget : Bool) (budget : Option ℚ) (total : ℚ) (n : ℕ) (hn : 0 < n) (lower upper : List ℚ)
    (hv : validateSpendConstraints n lower upper = .ok ()) (start stop interval : ℤ) (a b : ℤ)
    (h : (describe fixedBudget budget total lower upper start stop interval).limits = some (a, b)) :
    ∃ x y, 0 ≤ x ∧ x ≤ 1 ∧ 0 ≤ y ∧ (∀ c < n, constraintAt lower c = x ∧ constraintAt upper c = y) ∧
      DropsDecimals (1 / 2 ^ 44) x a ∧ DropsDecimals ((1 + y) / 2 ^ 44) y b := by
  unfold validateSpendConstraints at hv
  split_ifs at hv with v1 v2 v3
  simp only [describe] at h
  split_ifs at h with hl
  rw [not_or] at hl v1
  rw [not_not, not_not] at v1
  push Not at hl v3
  have one : ∀ l : List ℚ, (l.length = 1 ∨ l.length = n) → l.length ≤ 1 → ∃ x, l = [x] := by
    intro l h1 h2
    exact List.length_eq_one_iff.1 (by omega)
  obtain ⟨x, rfl⟩ := one lower v1.1 hl.1
  obtain ⟨y, rfl⟩ := one upper v1.2 hl.2
  simp only [Option.some.injEq, Prod.mk.injEq, List.headD_cons] at h
  obtain ⟨rfl, rfl⟩ := h
  have hx := v2 x (by simp)
  have hy := v3 y (by simp)
  exact ⟨x, y, hx.1, hx.2, hy, fun c _ => ⟨by simp [constraintAt], by simp [constraintAt]⟩,
    (lower_shown x hx.1 hx.2).1, (upper_shown y hy).1⟩

/-- Finding: a list with the same constraint for each of several channels is not recognized as one constraint. -/
theorem equal_list_not_named (fixedBudget : Bool) (budget : Option ℚ) (total : ℚ) (n : ℕ) (hn : 2 ≤ n) (x : ℚ) (upper : List ℚ)
    (start stop interval : ℤ) :
    (describe fixedBudget budget total (List.replicate n x) upper start stop interval).limits = none := by
  simp only [describe, List.length_replicate]
  rw [if_pos (Or.inl (by omega))]

/-! ## The historical spend -/

/-- Without shares in the request, if the report says that the non-optimized spend is the historical spend, each
channel's differs from it by at most half a rounding step and the channel's share of the tolerance for equal
budgets. -/
theorem historical_spend (n : ℕ) (hist : ℕ → ℚ) (hin : ∀ c, 0 ≤ hist c) (outcome : ℕ → ℕ → ℚ) (fixedBudget : Bool)
    (budget targetRoi targetMroi : Option ℚ) (gtol : ℚ) (lower upper : Option (List ℚ)) (xs : List (Option ℤ))
    (non : List ℤ) (h : budgetOptimize n hist outcome fixedBudget budget targetRoi targetMroi gtol none lower upper = .ok (xs, non))
    (hh : useHistorical budget (histTotal n hist) = true) :
    ∃ step : ℤ, 0 < step ∧ (step : ℚ) ≤ max 1 (10 * (budget.getD (histTotal n hist) * gtol)) ∧ non.length = n ∧ ∀ c < n,
      |((non.getD c 0 : ℤ) : ℚ) - hist c| ≤ step / 2 + hist c / histTotal n hist * (1 / 10 ^ 8 + 1 / 10 ^ 5 * histTotal n hist) := by
  unfold budgetOptimize at h
  simp only [bind_ok] at h
  obtain ⟨_, hvb, O, hO, req, hreq, hopt⟩ := h
  unfold createOptimizationGrid at hO
  simp only [bind_ok] at hO
  obtain ⟨-, -, rf, hrf, ⟨lo, hi⟩, -, ⟨rows, cells⟩, -, hO⟩ := hO
  cases hO
  unfold optimize at hopt
  simp only [bind_ok] at hopt
  obtain ⟨share, hshare, ⟨lo', hi'⟩, -, -, -, G, -, hopt⟩ := hopt
  split at hopt
  · cases hopt
  · cases hopt
    have hpos : budget.getD (histTotal n hist) = resolveBudget budget (histTotal n hist) := by
      cases budget with
      | none => rfl
      | some b =>
        simp only [resolveBudget, Option.getD_some]
        split_ifs with hb
        · subst hb
          unfold validateBudget at hvb
          cases fixedBudget <;> simp at hvb
          split_ifs at hvb
        · rfl
    have hb : resolveBudget req.budget (histTotal n hist) = resolveBudget budget (histTotal n hist) := by
      unfold chooseRequest at hreq
      cases fixedBudget
      · have : budget = none := by
          unfold validateBudget at hvb
          cases budget <;> simp at hvb ⊢
        subst this
        simp only [Bool.false_eq_true, if_false] at hreq
        cases targetRoi <;> cases targetMroi <;> simp only at hreq <;> (try split_ifs at hreq) <;> cases hreq <;> rfl
      · simp only [if_true] at hreq
        cases hreq
        rfl
    obtain ⟨hr1, -, hb0⟩ := getRoundFactor_ok hrf
    obtain ⟨-, hs1, hs2⟩ := round_factor_step _ _ _ hrf
    have hsp : 0 < stepSize rf := stepSize_pos rf
    rw [← hpos] at hs1 hs2 hb0
    refine ⟨stepSize rf, hsp, ?_, by simp, ?_⟩
    · by_cases ht : budget.getD (histTotal n hist) * gtol < 1
      · rw [hs1 ht]; simp
      · exact (hs2 (not_lt.1 ht)).2.trans (le_max_right _ _)
    · intro c hc
      unfold validatePctOfSpend at hshare
      simp only at hshare
      split_ifs at hshare with hz
      cases hshare
      have hz' : histTotal n hist ≠ 0 := hz
      have e0 : (((List.range n).map (roundedSpend (fun c => resolveBudget req.budget (histTotal n hist) *
          (hist c / ((List.range n).map hist).sum)) rf)).getD c 0) =
          roundedSpend (fun c => resolveBudget req.budget (histTotal n hist) * (hist c / ((List.range n).map hist).sum)) rf c := by
        simp [List.getD, hc]
      rw [e0, hb, ← hpos]
      set b := budget.getD (histTotal n hist) with hbdef
      have ht0 : 0 < histTotal n hist := by
        rcases (lt_or_eq_of_le (show 0 ≤ histTotal n hist from List.sum_nonneg (by
          intro x hx; obtain ⟨i, -, rfl⟩ := List.mem_map.1 hx; exact hin i))) with h | h
        · exact h
        · exact absurd h.symm hz'
      have hclose : |b - histTotal n hist| ≤ 1 / 10 ^ 8 + 1 / 10 ^ 5 * histTotal n hist := by
        cases budget with
        | none => simp only [hbdef, Option.getD_none, sub_self, abs_zero]; positivity
        | some b' =>
          simp only [useHistorical, isClose, decide_eq_true_eq] at hh
          rw [abs_of_pos ht0] at hh
          exact hh
      unfold roundedSpend
      rw [trunc_npRound hr1]
      have hq : (0 : ℚ) < stepSize rf := by exact_mod_cast hsp
      set y := b * (hist c / ((List.range n).map hist).sum) with hy
      have h1 := abs_rint_sub (y / stepSize rf)
      have h2 : |((rint (y / stepSize rf) * stepSize rf : ℤ) : ℚ) - y| ≤ stepSize rf / 2 := by
        have : ((rint (y / stepSize rf) * stepSize rf : ℤ) : ℚ) - y =
            ((rint (y / stepSize rf) : ℚ) - y / stepSize rf) * stepSize rf := by push_cast; field_simp
        rw [this, abs_mul, abs_of_pos hq]
        nlinarith
      have h3 : |y - hist c| ≤ hist c / histTotal n hist * (1 / 10 ^ 8 + 1 / 10 ^ 5 * histTotal n hist) := by
        have : y - hist c = hist c / histTotal n hist * (b - histTotal n hist) := by
          rw [hy]
          change b * (hist c / histTotal n hist) - hist c = _
          field_simp
        rw [this, abs_mul, abs_of_nonneg (div_nonneg (hin c) ht0.le)]
        exact mul_le_mul_of_nonneg_left hclose (div_nonneg (hin c) ht0.le)
      calc _ = |(((rint (y / stepSize rf) * stepSize rf : ℤ) : ℚ) - y) + (y - hist c)| := by congr 1; ring
        _ ≤ _ := abs_add_le _ _
        _ ≤ _ := add_le_add h2 h3

/-- Finding: with shares in the request and no budget the report says that the non-optimized spend of each channel is
its historical spend, although it follows the shares. -/
theorem shares_not_historical : ∃ (hist : ℕ → ℚ) (xs : List (Option ℤ)) (non : List ℤ),
    budgetOptimize 2 hist (fun r _ => r) true none none none (1 / 100) (some [1 / 2, 1 / 2]) none none = .ok (xs, non) ∧
    (describe true none (histTotal 2 hist) (keptConstraint true none) (keptConstraint true none) 0 70 7).historical = true ∧
    hist 0 = 90 ∧ hist 1 = 10 ∧ non = [50, 50] :=
  ⟨fun c => if c = 0 then 90 else 10, [some 50, some 50], [50, 50], by decide +kernel, rfl, rfl, rfl, rfl⟩

/-- A given budget is called historical only within the tolerance, and the historical total always is. -/
theorem historical_budget (b total : ℚ) :
    useHistorical none total = true ∧ useHistorical (some total) total = true ∧
    (useHistorical (some b) total = true ↔ |b - total| ≤ 1 / 10 ^ 8 + 1 / 10 ^ 5 * |total|) := by
  refine ⟨rfl, ?_, ?_⟩
  · simp only [useHistorical, isClose, decide_eq_true_eq, sub_self, abs_zero]; positivity
  · simp only [useHistorical, isClose, decide_eq_true_eq]

/-! ## The period -/

/-- Finding: the head of the page names the day after the last day as the end; the text names the first day of the
last time period, which is the last day for daily data only. -/
theorem two_ends (fixedBudget : Bool) (budget : Option ℚ) (total : ℚ) (lower upper : List ℚ) (start stop interval : ℤ)
    (hi : 0 < interval) :
    let s := describe fixedBudget budget total lower upper start stop interval
    s.header.1 = start ∧ s.period.1 = start ∧ s.header.2 = lastDay stop interval + 1 ∧
    (s.period.2 = lastDay stop interval ↔ interval = 1) ∧ s.period.2 < s.header.2 := by
  simp only [describe, lastDay]
  refine ⟨trivial, trivial, by ring, ⟨fun h => by omega, fun h => by omega⟩, by omega⟩

/-! ## The response curves -/

/-- The report draws the curves of the channels with the most optimized spend, six at most, and never fails for lack of
channels. -/
theorem report_channels (spend : List (String × ℚ)) (hne : spend ≠ []) :
    ∃ l, reportChannels spend = some l ∧ l.length = min spend.length 6 ∧ ∃ chosen others : List (String × ℚ),
      (chosen ++ others).Perm spend ∧ chosen.map (·.1) = l ∧ ∀ a ∈ chosen, ∀ b ∈ others, b.2 ≤ a.2 := by
  have hpos : 0 < spend.length := List.length_pos_iff.2 hne
  obtain ⟨h1, h2⟩ := ResultCharts.Props.top_channels spend (min spend.length 6)
  have h3 := h1.2 (min_le_left _ _)
  obtain ⟨l, hl⟩ := Option.isSome_iff_exists.1 h3
  obtain ⟨ch, ot, p1, p2, p3, -, p5⟩ := h2 l hl
  refine ⟨l, ?_, p3, ch, ot, p1, p2, p5⟩
  rw [← hl]
  unfold reportChannels ResultCharts.chosenChannels
  split
  · simp_all
  · next h =>
    have := Option.some.inj h
    omega
  · next n h =>
    rw [← Option.some.inj h]

/-! ## Cases that meet the hypotheses -/

example : lowerPercent (lowerBound (rnd (1 / 4))) = 25 ∧ upperPercent (upperBound (rnd (7 / 2))) = 350 ∧
    lowerPercent (lowerBound (rnd (2 / 3))) = 66 := by decide +kernel

example : validateSpendConstraints 3 [1 / 4] [1 / 2] = .ok () ∧
    (describe true none 1 [1 / 4] [1 / 2] 0 70 7).limits = some (25, 50) := by decide +kernel

example : (budgetOptimize 2 (fun c => if c = 0 then 90 else 10) (fun r _ => r) true (some 100) none none (1 / 1000) none
    none none).toOption.map (·.2) = some [90, 10] ∧ useHistorical (some 100) 100 = true :=
  ⟨by decide +kernel, by decide +kernel⟩

example : reportChannels [("a", 1), ("b", 9), ("c", 3), ("d", 4), ("e", 5), ("f", 6), ("g", 2)] =
    some ["b", "f", "e", "d", "c", "g"] := by decide +kernel

end Verif.ScenarioText.Props

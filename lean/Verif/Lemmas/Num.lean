import Verif.Model.Num
import Mathlib.Tactic.Linarith
import Mathlib.Tactic.FieldSimp
import Mathlib.Tactic.Positivity
import Mathlib.Tactic.NormNum
import Mathlib.Tactic.Ring
import Mathlib.Tactic.Push
import Mathlib.Algebra.Order.Field.Basic
import Mathlib.Algebra.Order.Field.Power

/-! Rounding lemmas. -/

namespace Verif

theorem rint_le (x : ℚ) : (rint x : ℚ) ≤ x + 1 / 2 := by
  have h1 := Int.floor_le x
  unfold rint
  simp only
  split_ifs <;> push_cast <;> linarith

theorem le_rint (x : ℚ) : x - 1 / 2 ≤ (rint x : ℚ) := by
  have h1 := Int.lt_floor_add_one x
  unfold rint
  simp only
  split_ifs <;> push_cast <;> linarith

theorem abs_rint_sub (x : ℚ) : |(rint x : ℚ) - x| ≤ 1 / 2 := by
  rw [abs_le]; constructor <;> linarith [rint_le x, le_rint x]

theorem rint_mono {x y : ℚ} (h : x ≤ y) : rint x ≤ rint y := by
  by_contra hc
  push Not at hc
  have h1 : (rint y : ℚ) + 1 ≤ rint x := by exact_mod_cast hc
  have hxy : x = y := by linarith [rint_le x, le_rint y]
  subst hxy
  exact lt_irrefl _ hc

@[simp] theorem rint_intCast (n : ℤ) : rint (n : ℚ) = n := by
  unfold rint
  simp

theorem rint_natCast (n : ℕ) : rint (n : ℚ) = n := by
  exact_mod_cast rint_intCast (n : ℤ)

theorem rint_zero : rint 0 = 0 := by
  exact_mod_cast rint_intCast 0

theorem npRound_mono {x y : ℚ} (d : ℤ) (h : x ≤ y) : npRound x d ≤ npRound y d := by
  unfold npRound
  have hp : (0 : ℚ) < 10 ^ d := zpow_pos (by norm_num) _
  gcongr
  exact rint_mono (by gcongr)

theorem npRound_zero (d : ℤ) : npRound 0 d = 0 := by
  simp [npRound, rint_zero]

theorem npRound_nonneg {x : ℚ} (d : ℤ) (h : 0 ≤ x) : 0 ≤ npRound x d := by
  simpa [npRound_zero] using npRound_mono d h

theorem abs_npRound_sub (x : ℚ) (d : ℤ) : |npRound x d - x| ≤ 1 / 2 / (10 : ℚ) ^ d := by
  unfold npRound
  have hp : (0 : ℚ) < 10 ^ d := zpow_pos (by norm_num) _
  have := abs_rint_sub (x * 10 ^ d)
  have e : (rint (x * 10 ^ d) : ℚ) / 10 ^ d - x = ((rint (x * 10 ^ d) : ℚ) - x * 10 ^ d) / 10 ^ d := by
    field_simp
  rw [e, abs_div, abs_of_pos hp]
  gcongr

theorem npRound_le (x : ℚ) (d : ℤ) : npRound x d ≤ x + 1 / 2 / (10 : ℚ) ^ d := by
  have := abs_npRound_sub x d; rw [abs_le] at this; linarith [this.2]

theorem le_npRound (x : ℚ) (d : ℤ) : x - 1 / 2 / (10 : ℚ) ^ d ≤ npRound x d := by
  have := abs_npRound_sub x d; rw [abs_le] at this; linarith [this.1]

@[simp] theorem truncInt_intCast (n : ℤ) : truncInt (n : ℚ) = n := by
  unfold truncInt; split_ifs <;> simp

theorem truncInt_le {x : ℚ} (h : 0 ≤ x) : (truncInt x : ℚ) ≤ x := by
  unfold truncInt; rw [if_pos h]; exact Int.floor_le x

theorem truncInt_nonneg {x : ℚ} (h : 0 ≤ x) : 0 ≤ truncInt x := by
  unfold truncInt; rw [if_pos h]; exact Int.floor_nonneg.2 h

theorem lt_truncInt_add_one {x : ℚ} (h : 0 ≤ x) : x < truncInt x + 1 := by
  unfold truncInt; rw [if_pos h]; exact Int.lt_floor_add_one x

end Verif

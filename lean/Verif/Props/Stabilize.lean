import Verif.Model.Stabilize
import Verif.Spec.Stabilize
import Mathlib.Tactic.Linarith
import Mathlib.Tactic.FieldSimp
import Mathlib.Tactic.Ring

/-!
# C46: stabilisation of the ROI of reach and frequency channels
-/

namespace Verif.Stabilize.Props

open Verif Verif.Stabilize Verif.Stabilize.Spec

variable {R C n k j : ℕ} {s : ℕ → ℚ} {spend outcome : ℕ → ℕ → Num}

theorem mem_valid (R : ℕ) (col : ℕ → Num) (v : ℚ) :
    v ∈ valid R col ↔ ∃ i < R, col i = some v := by
  simp [valid]

theorem foldl_max_spec (l : List ℚ) (x : ℚ) :
    l.foldl max x ∈ x :: l ∧ ∀ v ∈ x :: l, v ≤ l.foldl max x := by
  induction l generalizing x with
  | nil => simp
  | cons a l ih =>
    obtain ⟨h1, h2⟩ := ih (max x a)
    refine ⟨?_, ?_⟩
    · simp only [List.foldl_cons, List.mem_cons] at h1 ⊢
      rcases h1 with h | h
      · rcases max_choice x a with e | e
        · left; rw [h, e]
        · right; left; rw [h, e]
      · exact Or.inr (Or.inr h)
    · intro v hv
      have hm := h2 (max x a) (by simp)
      simp only [List.foldl_cons]
      rcases List.mem_cons.1 hv with rfl | hv
      · exact le_trans (le_max_left _ _) hm
      · rcases List.mem_cons.1 hv with rfl | hv
        · exact le_trans (le_max_right _ _) hm
        · exact h2 v (List.mem_cons_of_mem _ hv)

/-- `nanmax` is the largest value. -/
theorem nanmax_eq_some (R : ℕ) (col : ℕ → Num) (m : ℚ) :
    nanmax R col = some m ↔
      (∃ i < R, col i = some m) ∧ ∀ i < R, ∀ v, col i = some v → v ≤ m := by
  have hv := mem_valid R col
  unfold nanmax
  cases hl : valid R col with
  | nil =>
    simp only [reduceCtorEq, false_iff, not_and]
    rintro ⟨i, hi, he⟩
    have := (hv m).2 ⟨i, hi, he⟩
    rw [hl] at this
    simp at this
  | cons x l =>
    obtain ⟨h1, h2⟩ := foldl_max_spec l x
    rw [← hl] at h1 h2
    simp only [Option.some.injEq]
    constructor
    · rintro rfl
      refine ⟨(hv _).1 h1, ?_⟩
      intro i hi v he
      exact h2 v ((hv v).2 ⟨i, hi, he⟩)
    · rintro ⟨h3, h4⟩
      apply le_antisymm
      · obtain ⟨i, hi, he⟩ := (hv _).1 h1
        exact h4 i hi _ he
      · exact h2 m ((hv m).2 h3)

theorem nanmax_eq_none (R : ℕ) (col : ℕ → Num) :
    nanmax R col = none ↔ ∀ i < R, col i = none := by
  have hv := mem_valid R col
  constructor
  · intro h i hi
    by_contra hne
    obtain ⟨v, he⟩ := Option.ne_none_iff_exists'.1 hne
    have := (hv v).2 ⟨i, hi, he⟩
    unfold nanmax at h
    cases hl : valid R col with
    | nil => rw [hl] at this; simp at this
    | cons x l => rw [hl] at h; simp at h
  · intro h
    cases hm : nanmax R col with
    | none => rfl
    | some m =>
      obtain ⟨⟨i, hi, he⟩, _⟩ := (nanmax_eq_some R col m).1 hm
      rw [h i hi] at he; simp at he

theorem valid_length {col : ℕ → Num} (h : SpendColumn R k s col) : (valid R col).length = k := by
  obtain ⟨d, rfl⟩ := Nat.exists_eq_add_of_le h.le
  have h1 : ∀ m ≤ k, ((List.range m).filterMap col).length = m := by
    intro m hm
    induction m with
    | zero => simp
    | succ m ih =>
      rw [List.range_succ, List.filterMap_append, List.length_append, ih (by omega)]
      simp [h.valid m (by omega)]
  have h2 : ∀ m ≤ d, ((List.range (k + m)).filterMap col).length = k := by
    intro m hm
    induction m with
    | zero => exact h1 k le_rfl
    | succ m ih =>
      rw [← Nat.add_assoc, List.range_succ, List.filterMap_append, List.length_append,
        ih (by omega)]
      simp [h.nan (k + m) (by omega) (by omega)]
  exact h2 d le_rfl

theorem lastValid_eq {col : ℕ → Num} (h : SpendColumn R k s col) (hk : 0 < k) :
    lastValid R col = k - 1 := by
  unfold lastValid
  rw [valid_length h]
  cases k with
  | zero => omega
  | succ k => rfl

theorem nanmax_spend {col : ℕ → Num} (h : SpendColumn R k s col) (hk : 0 < k) :
    nanmax R col = some (s (k - 1)) := by
  have hR := h.le
  rw [nanmax_eq_some]
  refine ⟨⟨k - 1, by omega, h.valid _ (by omega)⟩, ?_⟩
  intro i hi v he
  by_cases hik : i < k
  · rw [h.valid i hik] at he
    obtain rfl := Option.some.inj he
    rcases Nat.lt_or_ge i (k - 1) with h1 | h1
    · exact (h.increasing i (k - 1) h1 (by omega)).le
    · rw [show i = k - 1 by omega]
  · rw [h.nan i (by omega) hi] at he; simp at he

theorem nanmax_outcome {col : ℕ → Num} {y : ℚ} (hk : 0 < k) (hR : k ≤ R)
    (h : LargestAtEnd R k col y) : nanmax R col = some y := by
  rw [nanmax_eq_some]
  exact ⟨⟨k - 1, by omega, h.1⟩, h.2⟩

theorem in_slice (hn : 0 < n) (hj1 : C - n ≤ j) (hj2 : j < C) : sliceStart C n ≤ j ∧ j < C := by
  refine ⟨?_, hj2⟩
  unfold sliceStart
  rw [if_neg (by omega)]
  exact hj1

theorem column_jax (hn : 0 < n) (hj1 : C - n ≤ j) (hj2 : j < C) (i : ℕ) :
    jaxStabilize R C n spend outcome i j
      = mul (jaxRoi R (spend · j) (outcome · j)) (spend i j) := by
  unfold jaxStabilize overwrite
  rw [if_pos (in_slice hn hj1 hj2)]

theorem column_tf (hn : 0 < n) (hj1 : C - n ≤ j) (hj2 : j < C) (i : ℕ) :
    tfStabilize R C n spend outcome i j
      = mul (tfRoi R (spend · j) (outcome · j)) (spend i j) := by
  unfold tfStabilize overwrite
  rw [if_pos (in_slice hn hj1 hj2)]

theorem constant_of_roi {roi : ℚ} (h : SpendColumn R k s (spend · j)) {col : ℕ → Num}
    (hc : ∀ i, col i = mul (some roi) (spend i j)) : ConstantRoi R k s roi col := by
  refine ⟨?_, ?_⟩
  · intro i hi
    have := h.valid i hi
    rw [hc, this]; rfl
  · intro i h1 h2
    have := h.nan i h1 h2
    rw [hc, this]; rfl

/-- C46: on JAX the ROI of an RF channel is the same in every row: the ROI of the row with the
largest spend. -/
theorem jax_constant_roi (hn : 0 < n) (hj1 : C - n ≤ j) (hj2 : j < C)
    (h : SpendColumn R k s (spend · j)) (hk : 0 < k) {y : ℚ} (hy : outcome (k - 1) j = some y)
    (h0 : s (k - 1) ≠ 0) :
    ConstantRoi R k s (y / s (k - 1)) (jaxStabilize R C n spend outcome · j) := by
  apply constant_of_roi h
  intro i
  rw [column_jax hn hj1 hj2]
  unfold jaxRoi
  have hl := h.valid (k - 1) (by omega)
  rw [lastValid_eq h hk]; simp only [hy, hl]
  simp [Num.divWhere, h0]

/-- C46: on TensorFlow the ROI is the same in every row: the largest outcome over the largest
spend. -/
theorem tf_constant_roi (hn : 0 < n) (hj1 : C - n ≤ j) (hj2 : j < C)
    (h : SpendColumn R k s (spend · j)) (hk : 0 < k) {m : ℚ} (hm : ∃ i < R, outcome i j = some m)
    (hM : ∀ i < R, ∀ v, outcome i j = some v → v ≤ m) (h0 : s (k - 1) ≠ 0) :
    ConstantRoi R k s (m / s (k - 1)) (tfStabilize R C n spend outcome · j) := by
  apply constant_of_roi h
  intro i
  rw [column_tf hn hj1 hj2]
  unfold tfRoi
  rw [nanmax_spend h hk, (nanmax_eq_some R (outcome · j) m).2 ⟨hm, hM⟩]
  simp [Num.divWhere, h0]

/-- C46: an RF channel that can only spend nothing has no outcome, on both backends. -/
theorem zero_spend_zero_outcome (hn : 0 < n) (hj1 : C - n ≤ j) (hj2 : j < C)
    (h : SpendColumn R k s (spend · j)) (hk : 0 < k) (h0 : s (k - 1) = 0) :
    ConstantRoi R k s 0 (jaxStabilize R C n spend outcome · j) ∧
      ConstantRoi R k s 0 (tfStabilize R C n spend outcome · j) := by
  constructor
  · apply constant_of_roi h
    intro i
    rw [column_jax hn hj1 hj2]
    unfold jaxRoi
    have hl := h.valid (k - 1) (by omega)
    rw [lastValid_eq h hk]; simp only [hl, h0]
    rfl
  · apply constant_of_roi h
    intro i
    rw [column_tf hn hj1 hj2]
    unfold tfRoi
    rw [nanmax_spend h hk, h0]
    rfl

/-- C46: the columns of the other channels are unchanged. -/
theorem other_channels_unchanged (hn : 0 < n) (hj : j < C - n) (i : ℕ) :
    jaxStabilize R C n spend outcome i j = outcome i j ∧
      tfStabilize R C n spend outcome i j = outcome i j := by
  have hs : ¬(sliceStart C n ≤ j ∧ j < C) := by
    unfold sliceStart
    rw [if_neg (by omega)]
    omega
  unfold jaxStabilize tfStabilize overwrite
  rw [if_neg hs, if_neg hs]
  exact ⟨rfl, rfl⟩

/-- C46: an RF channel without a valid row has no outcome, on both backends. -/
theorem no_rows_no_outcome (hn : 0 < n) (hj1 : C - n ≤ j) (hj2 : j < C)
    (h : SpendColumn R 0 s (spend · j)) {i : ℕ} (hi : i < R) :
    jaxStabilize R C n spend outcome i j = none ∧ tfStabilize R C n spend outcome i j = none := by
  have hl := h.nan i (by omega) hi
  rw [column_jax hn hj1 hj2, column_tf hn hj1 hj2, hl]
  unfold mul
  constructor <;> split <;> simp_all

/-- C46: the backends give the same column exactly if no outcome exceeds that of the row with the
largest spend. -/
theorem backends_agree_iff (hn : 0 < n) (hj1 : C - n ≤ j) (hj2 : j < C)
    (h : SpendColumn R k s (spend · j)) (hk : 0 < k) {y : ℚ} (hy : outcome (k - 1) j = some y)
    (h0 : s (k - 1) ≠ 0) :
    (∀ i < R, jaxStabilize R C n spend outcome i j = tfStabilize R C n spend outcome i j) ↔
      LargestAtEnd R k (outcome · j) y := by
  have hR := h.le
  have hJ := jax_constant_roi (outcome := outcome) hn hj1 hj2 h hk hy h0
  obtain ⟨m, hm⟩ : ∃ m, nanmax R (outcome · j) = some m := by
    cases hc : nanmax R (outcome · j) with
    | some m => exact ⟨m, rfl⟩
    | none =>
      have := (nanmax_eq_none R (outcome · j)).1 hc (k - 1) (by omega)
      rw [hy] at this; simp at this
  obtain ⟨hm1, hm2⟩ := (nanmax_eq_some R (outcome · j) m).1 hm
  have hT := tf_constant_roi (outcome := outcome) hn hj1 hj2 h hk hm1 hm2 h0
  constructor
  · intro he
    have h1 := he (k - 1) (by omega)
    have e1 := hJ.1 (k - 1) (by omega)
    have e2 := hT.1 (k - 1) (by omega)
    simp only at e1 e2
    rw [e1, e2, div_mul_cancel₀ _ h0, div_mul_cancel₀ _ h0] at h1
    obtain rfl := Option.some.inj h1
    exact ⟨hy, hm2⟩
  · intro hl
    have : m = y := by
      have := nanmax_outcome hk hR hl
      rw [hm] at this
      exact Option.some.inj this
    subst this
    intro i hi
    rcases Nat.lt_or_ge i k with h1 | h1
    · have e1 := hJ.1 i h1
      have e2 := hT.1 i h1
      simp only at e1 e2
      rw [e1, e2]
    · have e1 := hJ.2 i h1 hi
      have e2 := hT.2 i h1 hi
      simp only at e1 e2
      rw [e1, e2]

/-- C46: an outcome that already is proportional to spend, with a ROI that is not negative, is
unchanged on both backends. -/
theorem proportional_unchanged (hn : 0 < n) (hj1 : C - n ≤ j) (hj2 : j < C)
    (h : SpendColumn R k s (spend · j)) (hs : ∀ i < k, 0 ≤ s i) {roi : ℚ} (hr : 0 ≤ roi)
    (ho : ConstantRoi R k s roi (outcome · j)) {i : ℕ} (hi : i < R) :
    jaxStabilize R C n spend outcome i j = outcome i j ∧
      tfStabilize R C n spend outcome i j = outcome i j := by
  have hR := h.le
  rcases Nat.eq_zero_or_pos k with rfl | hk
  · have h1 := no_rows_no_outcome (outcome := outcome) hn hj1 hj2 h hi
    have h2 := ho.2 i (by omega) hi
    simp only at h2
    rw [h1.1, h1.2, h2]
    exact ⟨rfl, rfl⟩
  have hy : outcome (k - 1) j = some (roi * s (k - 1)) := ho.1 (k - 1) (by omega)
  have hl : LargestAtEnd R k (outcome · j) (roi * s (k - 1)) := by
    refine ⟨hy, ?_⟩
    intro i' hi' v hv
    rcases Nat.lt_or_ge i' k with h1 | h1
    · have e := ho.1 i' h1
      simp only at e hv
      rw [e] at hv
      obtain rfl := Option.some.inj hv
      apply mul_le_mul_of_nonneg_left _ hr
      rcases Nat.lt_or_ge i' (k - 1) with h2 | h2
      · exact (h.increasing i' (k - 1) h2 (by omega)).le
      · rw [show i' = k - 1 by omega]
    · have e := ho.2 i' h1 hi'
      simp only at e hv
      rw [e] at hv; simp at hv
  have key : ∀ col : ℕ → Num, (∃ r, ConstantRoi R k s r col ∧ (∀ i < k, r * s i = roi * s i)) →
      col i = outcome i j := by
    rintro col ⟨r, hc, he⟩
    rcases Nat.lt_or_ge i k with h1 | h1
    · rw [hc.1 i h1, he i h1]
      exact (ho.1 i h1).symm
    · rw [hc.2 i h1 hi]
      exact (ho.2 i h1 hi).symm
  by_cases h0 : s (k - 1) = 0
  · obtain ⟨c1, c2⟩ := zero_spend_zero_outcome (outcome := outcome) hn hj1 hj2 h hk h0
    have hz : ∀ i < k, (0 : ℚ) * s i = roi * s i := by
      intro i' hi'
      have : s i' = 0 := by
        apply le_antisymm _ (hs i' hi')
        rcases Nat.lt_or_ge i' (k - 1) with h2 | h2
        · rw [← h0]; exact (h.increasing i' (k - 1) h2 (by omega)).le
        · rw [show i' = k - 1 by omega, h0]
      rw [this]; ring
    exact ⟨key _ ⟨0, c1, hz⟩, key _ ⟨0, c2, hz⟩⟩
  · have e : roi * s (k - 1) / s (k - 1) = roi := by field_simp
    have c1 := jax_constant_roi (outcome := outcome) hn hj1 hj2 h hk hy h0
    have c2 := tf_constant_roi (outcome := outcome) hn hj1 hj2 h hk ⟨k - 1, by omega, hy⟩ hl.2 h0
    rw [e] at c1 c2
    exact ⟨key _ ⟨roi, c1, fun _ _ => rfl⟩, key _ ⟨roi, c2, fun _ _ => rfl⟩⟩

/-- C46, violated: an outcome proportional to spend with a negative ROI is unchanged on JAX, but on
TensorFlow its ROI becomes that of the smallest outcome loss over the largest spend. -/
theorem negative_roi_differs (hn : 0 < n) (hj1 : C - n ≤ j) (hj2 : j < C)
    (h : SpendColumn R k s (spend · j)) (hk : 1 < k) (hs : 0 ≤ s 0) {roi : ℚ} (hr : roi < 0)
    (ho : ConstantRoi R k s roi (outcome · j)) :
    ConstantRoi R k s roi (jaxStabilize R C n spend outcome · j) ∧
      ConstantRoi R k s (roi * (s 0 / s (k - 1))) (tfStabilize R C n spend outcome · j) ∧
      roi < roi * (s 0 / s (k - 1)) := by
  have hR := h.le
  have hy : outcome (k - 1) j = some (roi * s (k - 1)) := ho.1 (k - 1) (by omega)
  have hlt := h.increasing 0 (k - 1) (by omega) (by omega)
  have hpos : 0 < s (k - 1) := lt_of_le_of_lt hs hlt
  have h0 : s (k - 1) ≠ 0 := hpos.ne'
  have c1 := jax_constant_roi (outcome := outcome) hn hj1 hj2 h (by omega) hy h0
  have e : roi * s (k - 1) / s (k - 1) = roi := by field_simp
  rw [e] at c1
  have c2 := tf_constant_roi (outcome := outcome) (m := roi * s 0) hn hj1 hj2 h (by omega)
    ⟨0, by omega, ho.1 0 (by omega)⟩ (by
      intro i hi v hv
      rcases Nat.lt_or_ge i k with h1 | h1
      · have e := ho.1 i h1
        simp only at e hv
        rw [e] at hv
        obtain rfl := Option.some.inj hv
        apply mul_le_mul_of_nonpos_left _ hr.le
        rcases Nat.eq_zero_or_pos i with rfl | h2
        · exact le_rfl
        · exact (h.increasing 0 i h2 h1).le
      · have e := ho.2 i h1 hi
        simp only at e hv
        rw [e] at hv; simp at hv) h0
  rw [mul_div_assoc] at c2
  refine ⟨c1, c2, ?_⟩
  have : s 0 / s (k - 1) < 1 := by rw [div_lt_one hpos]; exact hlt
  nlinarith

/-- C46, violated: without RF channels the slice is the whole grid on TensorFlow, which overwrites
the media channels (the optimizer does not call it in this case). -/
theorem no_rf_overwrites_media {R C : ℕ} (spend outcome : ℕ → ℕ → Num) {j : ℕ} (hj : j < C) (i : ℕ) :
    tfStabilize R C 0 spend outcome i j
      = mul (tfRoi R (spend · j) (outcome · j)) (spend i j) := by
  unfold tfStabilize overwrite sliceStart
  simp [hj]

/-- A grid with a media channel and two RF channels: four rows, steps of ten. -/
def spendEx (i j : ℕ) : Num :=
  match j with
  | 0 => some (10 * i)
  | 1 => if i < 3 then some (10 * i + 10) else none
  | _ => if i < 2 then some (10 * i) else none

def outcomeEx (i j : ℕ) : Num :=
  match j with
  | 0 => some (i * i)
  | 1 => if i < 3 then some (20 * i + 21) else none
  | _ => if i < 2 then some (-30 * i) else none

theorem column1 : SpendColumn 4 3 (fun i => 10 * i + 10) (spendEx · 1) where
  le := by omega
  valid := by intro i hi; simp [spendEx, hi]
  nan := by intro i h1 h2; simp [spendEx, Nat.not_lt.2 h1]
  increasing := by
    intro i j hij _
    have : (i : ℚ) < j := by exact_mod_cast hij
    linarith

theorem column2 : SpendColumn 4 2 (fun i => 10 * i) (spendEx · 2) where
  le := by omega
  valid := by intro i hi; simp [spendEx, hi]
  nan := by intro i h1 h2; simp [spendEx, Nat.not_lt.2 h1]
  increasing := by
    intro i j hij _
    have : (i : ℚ) < j := by exact_mod_cast hij
    linarith

/-- The rounding of the outcome of channel 1 is removed: 21, 41, 61 at 10, 20, 30. -/
example : ConstantRoi 4 3 (fun i => 10 * i + 10) (61 / 30)
    (jaxStabilize 4 3 2 spendEx outcomeEx · 1) := by
  have := jax_constant_roi (n := 2) (C := 3) (outcome := outcomeEx) (y := 61) (by omega) (by omega)
    (by omega) column1 (by omega) (by decide +kernel) (by norm_num)
  norm_num at this
  exact this

example : LargestAtEnd 4 3 (outcomeEx · 1) 61 := by
  refine ⟨by decide +kernel, ?_⟩
  intro i hi v hv
  simp only [outcomeEx] at hv
  split_ifs at hv with h
  obtain rfl := Option.some.inj hv
  have : (i : ℚ) ≤ 2 := by exact_mod_cast (by omega : i ≤ 2)
  linarith

example : ConstantRoi 4 2 (fun i => 10 * i) (-3) (outcomeEx · 2) := by
  refine ⟨?_, ?_⟩
  · intro i hi
    simp [outcomeEx, hi]
    ring
  · intro i h1 h2; simp [outcomeEx, Nat.not_lt.2 h1]

/-- Witness: at spend 10 JAX keeps the loss of 30, TensorFlow reports no loss. -/
theorem negative_roi_witness :
    jaxStabilize 4 3 2 spendEx outcomeEx 1 2 = some (-30) ∧
      tfStabilize 4 3 2 spendEx outcomeEx 1 2 = some 0 := by decide +kernel

end Verif.Stabilize.Props

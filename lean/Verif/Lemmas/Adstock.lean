import Verif.Spec.Adstock
import Mathlib.Algebra.BigOperators.Fin
import Mathlib.Algebra.BigOperators.Intervals
import Mathlib.Algebra.BigOperators.Field
import Mathlib.Algebra.Order.BigOperators.Group.Finset
import Mathlib.Tactic.Linarith
import Mathlib.Tactic.FieldSimp
import Mathlib.Tactic.Positivity

namespace Verif.Adstock

open Finset Spec

theorem sum_map_range' {M : Type} [AddCommMonoid M] (n : ℕ) (g : ℕ → M) :
    ((List.range n).map g).sum = ∑ c ∈ range n, g c := by
  induction n with
  | zero => simp
  | succ n ih => rw [List.range_succ, Finset.sum_range_succ, ← ih]; simp

theorem reverse_range (W : ℕ) : (List.range W).reverse = (List.range W).map fun i => W - 1 - i := by
  apply List.ext_getElem
  · simp
  · intro i h1 h2; simp [List.getElem_reverse]

theorem rawWeight_eq {d : Decay} {α : ℝ} {W l : ℕ} (hl : l < W) :
    rawWeight d α W l = retained d α W l := by
  cases d with
  | geometric => rfl
  | binomial =>
    unfold rawWeight retained mapAlphaBinomial
    simp only
    have hW : (0 : ℝ) < W := by exact_mod_cast (by omega : 0 < W)
    split_ifs with h1 h2
    · subst h2; simp [powExt]
    · unfold powExt
      simp only
      rw [if_neg]
      intro h
      have : (l : ℝ) / W = 0 := by linarith
      rw [div_eq_zero_iff] at this
      rcases this with h | h
      · exact h2 (by exact_mod_cast h)
      · linarith
    · rfl

theorem decayWeights_eq (d : Decay) (α : ℝ) (W : ℕ) :
    decayWeights d α ((List.range W).reverse) W true
      = (List.range W).map fun i => weight d α W (W - 1 - i) := by
  unfold decayWeights
  simp only [if_true, List.map_reverse, List.sum_reverse]
  rw [sum_map_range', Finset.sum_congr rfl
    (fun l hl => rawWeight_eq (d := d) (α := α) (mem_range.1 hl)), ← List.map_reverse,
    ← List.map_reverse, reverse_range, List.map_map, List.map_map]
  apply List.map_congr_left
  intro i hi
  have : W - 1 - i < W := by have := List.mem_range.1 hi; omega
  simp only [Function.comp]
  rw [rawWeight_eq this]
  rfl

theorem computeDecayWeights_eq (s : Decay ⊕ List Decay) (c : ℕ) (α : ℝ) (W : ℕ) :
    computeDecayWeights s c α ((List.range W).reverse) W true
      = (List.range W).map fun i => weight (decayOf s c) α W (W - 1 - i) := by
  unfold computeDecayWeights decayOf
  cases s with
  | inl d => exact decayWeights_eq d α W
  | inr ds =>
    simp only
    split_ifs with h
    · rw [decayWeights_eq, List.getD_eq_getElem?_getD, h]; rfl
    · rw [decayWeights_eq, List.getD_eq_getElem?_getD]
      cases hc : ds[c]? with
      | none => rfl
      | some d =>
        cases d with
        | geometric => rfl
        | binomial => exact absurd hc h

theorem fitHistory_length (media : List ℝ) (r : ℕ) : (fitHistory media r).length = r := by
  unfold fitHistory
  split_ifs
  · simp; omega
  · simp; omega
  · omega

/-- Position `j` of the fitted history is the period `n - r + j` of the data. -/
theorem fitHistory_getD (media : List ℝ) (r j : ℕ) :
    (fitHistory media r).getD j 0 = mediaAt media ((media.length : ℤ) - r + j) := by
  unfold fitHistory mediaAt
  split_ifs with h1 h2 h3 h4 h5
  · simp only [List.getD_eq_getElem?_getD, List.getElem?_drop]
    congr 2; omega
  · omega
  · rw [List.getD_eq_getElem?_getD, List.getD_eq_getElem?_getD,
      List.getElem?_append_right (by simp; omega)]
    congr 2; simp; omega
  · rw [List.getD_eq_getElem?_getD, List.getElem?_append_left (by simp; omega)]
    rw [List.getElem?_replicate]
    split_ifs <;> rfl
  · congr 1; omega
  · omega

theorem slice_getD {media : List ℝ} {i n t : ℕ} (ht : t < n) :
    (slice media i (i + n)).getD t 0 = media.getD (i + t) 0 := by
  unfold slice
  simp [List.getD_eq_getElem?_getD, List.getElem?_drop, ht]

theorem tfAdstockProcess_eq {media weights : List ℝ} {n : ℕ}
    (h : weights.length = 0 ∨ n + weights.length - 1 ≤ media.length) :
    tfAdstockProcess media weights n = .ok ((List.range n).map fun t =>
      ∑ i ∈ range weights.length, weights.getD i 0 * media.getD (i + t) 0) := by
  unfold tfAdstockProcess
  simp only
  rw [if_neg]
  · congr 1
    apply List.map_congr_left
    intro t ht
    have ht := List.mem_range.1 ht
    rw [← sum_map_range']
    congr 1
    apply List.ext_getElem
    · simp
    · intro i h1 h2
      simp only [List.length_map, List.length_range] at h2
      have := slice_getD (media := media) (i := i) ht
      simp only [List.getElem_zipWith, List.getElem_map, List.getElem_range, this]
      simp [h2]
  · push Not
    intro w hw
    rw [List.mem_map] at hw
    obtain ⟨i, hi, rfl⟩ := hw
    have hi := List.mem_range.1 hi
    unfold slice
    simp
    omega

theorem adstock_eq (s : Decay ⊕ List Decay) (c : ℕ) (media : List ℝ) (α : ℝ) (maxLag nOut : ℕ)
    (h1 : 0 < nOut) (h2 : nOut ≤ media.length) :
    adstock s c media α maxLag nOut = .ok ((List.range nOut).map fun t : ℕ =>
      adstockAt (decayOf s c) α (window maxLag media) media ((media.length : ℤ) - nOut + t)) := by
  unfold adstock
  rw [if_neg (by omega), if_neg (by omega), if_neg (by omega)]
  simp only [Int.toNat_natCast]
  set W := min (maxLag + 1) media.length with hW
  have hWpos : 0 < W := by omega
  rw [computeDecayWeights_eq, tfAdstockProcess_eq]
  · simp only [List.length_map, List.length_range]
    congr 1
    apply List.map_congr_left
    intro t ht
    have ht := List.mem_range.1 ht
    unfold adstockAt window
    rw [← hW, ← Finset.sum_range_reflect]
    apply Finset.sum_congr rfl
    intro i hi
    have hi := mem_range.1 hi
    rw [fitHistory_getD]
    congr 1
    · simp only [List.getD_eq_getElem?_getD, List.getElem?_map]
      rw [List.getElem?_range (by omega)]
      simp only [Option.map_some, Option.getD_some]
      congr 1; omega
    · congr 1; omega
  · right
    rw [fitHistory_length]; simp

theorem retained_nonneg {d : Decay} {α : ℝ} {W l : ℕ} (h0 : 0 ≤ α) (hl : l < W) :
    0 ≤ retained d α W l := by
  cases d with
  | geometric => exact pow_nonneg h0 l
  | binomial =>
    unfold retained
    simp only
    split_ifs <;> try norm_num
    apply Real.rpow_nonneg
    have hW : (0 : ℝ) < W := by exact_mod_cast (by omega : 0 < W)
    have : (l : ℝ) / W ≤ 1 := by
      rw [div_le_one hW]; exact_mod_cast hl.le
    linarith

theorem retained_zero (d : Decay) (α : ℝ) (W : ℕ) : retained d α W 0 = 1 := by
  cases d with
  | geometric => simp [retained]
  | binomial => simp [retained]

theorem retained_sum_pos {d : Decay} {α : ℝ} {W : ℕ} (h0 : 0 ≤ α) (hW : 0 < W) :
    0 < ∑ j ∈ range W, retained d α W j := by
  have : retained d α W 0 ≤ ∑ j ∈ range W, retained d α W j :=
    Finset.single_le_sum (f := fun j => retained d α W j)
      (fun j hj => retained_nonneg h0 (mem_range.1 hj)) (mem_range.2 hW)
  rw [retained_zero] at this
  linarith

theorem retained_anti {d : Decay} {α : ℝ} {W l : ℕ} (h0 : 0 ≤ α) (h1 : α ≤ 1) (hl : l + 1 < W) :
    retained d α W (l + 1) ≤ retained d α W l := by
  cases d with
  | geometric => exact pow_le_pow_of_le_one h0 h1 (Nat.le_succ l)
  | binomial =>
    have hW : (0 : ℝ) < W := by exact_mod_cast (by omega : 0 < W)
    unfold retained
    simp only
    split_ifs <;> try norm_num
    · omega
    · rename_i h
      have hpos : 0 < α := lt_of_le_of_ne h0 (Ne.symm h)
      apply Real.rpow_le_rpow
      · rw [sub_nonneg, div_le_one hW]; exact_mod_cast (by omega : l + 1 ≤ W)
      · have : (l : ℝ) / W ≤ ((l : ℝ) + 1) / W := by gcongr; linarith
        linarith
      · rw [sub_nonneg]
        rw [inv_eq_one_div, le_div_iff₀ hpos]; linarith

theorem weight_nonneg {d : Decay} {α : ℝ} {W l : ℕ} (h0 : 0 ≤ α) (hl : l < W) :
    0 ≤ weight d α W l :=
  div_nonneg (retained_nonneg h0 hl) (retained_sum_pos h0 (by omega)).le

theorem weight_sum {d : Decay} {α : ℝ} {W : ℕ} (h0 : 0 ≤ α) (hW : 0 < W) :
    ∑ l ∈ range W, weight d α W l = 1 := by
  unfold weight
  rw [← Finset.sum_div]
  exact div_self (retained_sum_pos h0 hW).ne'

end Verif.Adstock

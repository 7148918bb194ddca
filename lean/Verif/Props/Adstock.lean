import Verif.Lemmas.Adstock
import Mathlib.Tactic.NormNum

/-!
# Adstock and Hill: properties C01 - C05
-/

namespace Verif.Adstock.Props

open Finset Verif.Adstock Spec

/-! ### C01 -/

/-- **C01.** For every series, retention parameter, non-negative `max_lag` and output length between
1 and the number of media periods, adstock returns one value per output period, and the value for
output period `t` (period `n - n_out + t` of the data) is the weighted sum of media over the lags
`0 .. min(max_lag + 1, n) - 1`, with media before the data counted as zero. -/
theorem adstock_is_weighted_lag_sum (decay : Decay ⊕ List Decay) (c : ℕ) (media : List ℝ) (α : ℝ)
    (maxLag nOut : ℕ) (h1 : 0 < nOut) (h2 : nOut ≤ media.length) :
    ∃ out, adstock decay c media α maxLag nOut = .ok out ∧ out.length = nOut ∧
      ∀ t : ℕ, t < nOut → out[t]? = some (∑ l ∈ range (min (maxLag + 1) media.length),
        weight (decayOf decay c) α (min (maxLag + 1) media.length) l
          * mediaAt media ((media.length : ℤ) - nOut + t - l)) := by
  refine ⟨_, adstock_eq decay c media α maxLag nOut h1 h2, by simp, ?_⟩
  intro t ht
  rw [List.getElem?_map, List.getElem?_range ht]
  rfl

/-- **C01 (rejections).** Every other request is rejected. -/
theorem adstock_rejects (decay : Decay ⊕ List Decay) (c : ℕ) (media : List ℝ) (α : ℝ)
    (maxLag nOut : ℤ) :
    (∃ out, adstock decay c media α maxLag nOut = .ok out) ↔
      0 < nOut ∧ nOut ≤ media.length ∧ 0 ≤ maxLag := by
  constructor
  · rintro ⟨out, h⟩
    unfold adstock at h
    split_ifs at h with a b d
    omega
  · rintro ⟨a, b, d⟩
    obtain ⟨n, rfl⟩ := Int.eq_ofNat_of_zero_le a.le
    obtain ⟨m, rfl⟩ := Int.eq_ofNat_of_zero_le d
    exact ⟨_, adstock_eq decay c media α m n (by omega) (by omega)⟩

/-- Two output periods, `max_lag = 1`, alpha 1/2 : weights 2/3 and 1/3. -/
example : adstock (.inl .geometric) 0 [3, 6, 9] (1 / 2) 1 2 = .ok [5, 8] := by
  have := adstock_eq (.inl .geometric) 0 [3, 6, 9] (1 / 2) 1 2 (by norm_num) (by norm_num)
  simp only [Nat.cast_one, Nat.cast_ofNat] at this
  rw [this]
  simp [List.range_succ, adstockAt, window, decayOf, weight, retained, Finset.sum_range_succ,
    mediaAt]
  norm_num

/-- The padding case: the window reaches before the first period. -/
example : adstock (.inl .geometric) 0 [3, 6] (1 / 2) 1 2 = .ok [2, 5] := by
  have := adstock_eq (.inl .geometric) 0 [3, 6] (1 / 2) 1 2 (by norm_num) (by norm_num)
  simp only [Nat.cast_one, Nat.cast_ofNat] at this
  rw [this]
  simp [List.range_succ, adstockAt, window, decayOf, weight, retained, Finset.sum_range_succ,
    mediaAt]
  norm_num

/-! ### C02 -/

/-- **C02.** For both decay functions, every `alpha` in `[0, 1]` and every window of at least one
period, the normalised weights the code computes (position `i` of the list is lag `W - 1 - i`) are
non-negative, sum to one and never increase with the lag. -/
theorem decay_weights_distribution (d : Decay) (α : ℝ) (W : ℕ) (h0 : 0 ≤ α) (h1 : α ≤ 1)
    (hW : 0 < W) :
    let w := decayWeights d α (List.range W).reverse W true
    w.length = W ∧ (∀ x ∈ w, 0 ≤ x) ∧ w.sum = 1 ∧
      ∀ i j : ℕ, i ≤ j → ∀ x y, w[i]? = some x → w[j]? = some y → x ≤ y := by
  have e := decayWeights_eq d α W
  simp only [e]
  refine ⟨by simp, ?_, ?_, ?_⟩
  · intro x hx
    obtain ⟨i, hi, rfl⟩ := List.mem_map.1 hx
    exact weight_nonneg h0 (by have := List.mem_range.1 hi; omega)
  · rw [sum_map_range', ← weight_sum (d := d) h0 hW, ← Finset.sum_range_reflect]
    apply Finset.sum_congr rfl
    intro i hi
    have := mem_range.1 hi
    congr 1; omega
  · intro i j hij
    induction j, hij using Nat.le_induction with
    | base => intro x y h1 h2; rw [h1] at h2; exact (Option.some.inj h2).le
    | succ j hij ih =>
      intro x y hx hy
      have hj : j + 1 < W := by
        have := List.getElem?_eq_some_iff.1 hy
        obtain ⟨hl, -⟩ := this
        simpa using hl
      rw [List.getElem?_map, List.getElem?_range hj] at hy
      have hy := Option.some.inj hy
      have hxj := ih x (weight d α W (W - 1 - j)) hx (by
        rw [List.getElem?_map, List.getElem?_range (by omega)]; rfl)
      refine le_trans hxj ?_
      rw [← hy]
      simp only
      unfold weight
      apply div_le_div_of_nonneg_right _ (retained_sum_pos h0 (by omega)).le
      have e : W - 1 - j = (W - 1 - (j + 1)) + 1 := by omega
      rw [e]
      exact retained_anti h0 h1 (by omega)

/-- **C02 (closed form).** The weight of lag `l` is `α^l` (geometric) or `(1 - l/W)^(1/α - 1)`
(binomial) divided by the total; at `α = 0` only the current period counts. -/
theorem decay_weight_value (d : Decay) (α : ℝ) (W l : ℕ) (hl : l < W) :
    (decayWeights d α (List.range W).reverse W true)[W - 1 - l]? = some (weight d α W l) := by
  rw [decayWeights_eq, List.getElem?_map, List.getElem?_range (by omega)]
  simp only [Option.map_some]
  congr 2; omega

theorem no_adstock_at_zero (d : Decay) (W l : ℕ) (hW : 0 < W) :
    weight d 0 W l = if l = 0 then 1 else 0 := by
  have hr : ∀ j, retained d 0 W j = if j = 0 then 1 else 0 := by
    intro j
    cases d with
    | geometric =>
      unfold retained
      by_cases h : j = 0 <;> simp [h]
    | binomial => simp [retained]
  unfold weight
  simp only [hr]
  rw [Finset.sum_ite_eq', if_pos (mem_range.2 hW)]
  simp

example : decayWeights .binomial (1 / 2) (List.range 2).reverse 2 true = [1 / 3, 2 / 3] := by
  rw [decayWeights_eq]
  simp [List.range_succ, weight, retained, Finset.sum_range_succ]
  norm_num

/-! ### C03 -/

/-- **C03 (causal, bounded memory).** If two series of equal length agree on the periods
`p - max_lag .. p`, their adstocked values at period `p` are equal, whatever they do elsewhere. -/
theorem adstock_causal (decay : Decay ⊕ List Decay) (c : ℕ) (m m' : List ℝ) (α : ℝ)
    (maxLag nOut t : ℕ) (out out' : List ℝ) (hlen : m.length = m'.length)
    (h : adstock decay c m α maxLag nOut = .ok out)
    (h' : adstock decay c m' α maxLag nOut = .ok out') (ht : t < nOut)
    (hagree : ∀ i, i ≤ m.length - nOut + t → m.length - nOut + t ≤ i + maxLag → m[i]? = m'[i]?) :
    out[t]? = out'[t]? := by
  obtain ⟨a, b, -⟩ := (adstock_rejects decay c m α maxLag nOut).1 ⟨_, h⟩
  rw [adstock_eq _ _ _ _ _ _ (by omega) (by omega)] at h
  rw [adstock_eq _ _ _ _ _ _ (by omega) (by omega)] at h'
  cases h; cases h'
  rw [List.getElem?_map, List.getElem?_map, List.getElem?_range ht]
  simp only [Option.map_some]
  congr 1
  unfold adstockAt window
  rw [← hlen]
  apply Finset.sum_congr rfl
  intro l hl
  have hl := mem_range.1 hl
  congr 1
  unfold mediaAt
  split_ifs with hp
  · rw [List.getD_eq_getElem?_getD, List.getD_eq_getElem?_getD, hagree _ (by omega) (by omega)]
  · rfl

example : ∀ i, i ≤ 4 - 2 + 0 → 4 - 2 + 0 ≤ i + 1 → [7, 1, 2, 3][i]? = [8, 1, 2, 9][i]? := by
  intro i h1 h2
  have : i = 1 ∨ i = 2 := by omega
  rcases this with rfl | rfl <;> rfl

/-- **C03 (extra history).** Once `n_out + max_lag` periods are available, prepending further
history changes nothing. -/
theorem adstock_extra_history (decay : Decay ⊕ List Decay) (c : ℕ) (pre m : List ℝ) (α : ℝ)
    (maxLag nOut : ℕ) (h1 : 0 < nOut) (h : nOut + maxLag ≤ m.length) :
    adstock decay c (pre ++ m) α maxLag nOut = adstock decay c m α maxLag nOut := by
  rw [adstock_eq _ _ _ _ _ _ h1 (by simp; omega), adstock_eq _ _ _ _ _ _ h1 (by omega)]
  congr 1
  apply List.map_congr_left
  intro t ht
  have ht := List.mem_range.1 ht
  unfold adstockAt window
  have e : min (maxLag + 1) (pre ++ m).length = min (maxLag + 1) m.length := by simp; omega
  rw [e]
  apply Finset.sum_congr rfl
  intro l hl
  have hl := mem_range.1 hl
  congr 1
  unfold mediaAt
  rw [if_pos (by simp; omega), if_pos (by omega), List.getD_eq_getElem?_getD,
    List.getD_eq_getElem?_getD, List.getElem?_append_right (by simp; omega)]
  congr 2
  simp; omega

/-- **C03 (explicit zeros).** When at least `max_lag + 1` periods are available, recording zeros
before the first period is the same as not recording anything. -/
theorem adstock_leading_zeros (decay : Decay ⊕ List Decay) (c : ℕ) (k : ℕ) (m : List ℝ) (α : ℝ)
    (maxLag nOut : ℕ) (h1 : 0 < nOut) (h2 : nOut ≤ m.length) (h : maxLag + 1 ≤ m.length) :
    adstock decay c (List.replicate k 0 ++ m) α maxLag nOut = adstock decay c m α maxLag nOut := by
  rw [adstock_eq _ _ _ _ _ _ h1 (by simp; omega), adstock_eq _ _ _ _ _ _ h1 (by omega)]
  congr 1
  apply List.map_congr_left
  intro t ht
  have ht := List.mem_range.1 ht
  unfold adstockAt window
  have e : min (maxLag + 1) (List.replicate k (0 : ℝ) ++ m).length = min (maxLag + 1) m.length := by
    simp; omega
  rw [e]
  apply Finset.sum_congr rfl
  intro l hl
  have hl := mem_range.1 hl
  congr 1
  unfold mediaAt
  simp only [List.length_append, List.length_replicate]
  split_ifs with a b b
  · rw [List.getD_eq_getElem?_getD, List.getD_eq_getElem?_getD,
      List.getElem?_append_right (by simp; omega)]
    congr 2
    simp; omega
  · rw [List.getD_eq_getElem?_getD, List.getElem?_append_left (by simp; omega),
      List.getElem?_replicate]
    split_ifs <;> rfl
  · omega
  · rfl

/-- **C03 (limit of the previous claim).** With fewer than `max_lag + 1` periods the weights are
normalised over the available periods only, so leading zeros do change the result. -/
theorem leading_zeros_matter_below_window :
    adstock (.inl .geometric) 0 ([0] ++ [1]) 1 1 1 ≠ adstock (.inl .geometric) 0 [1] 1 1 1 := by
  have h1 := adstock_eq (.inl .geometric) 0 ([0] ++ [1]) 1 1 1 (by norm_num) (by norm_num)
  have h2 := adstock_eq (.inl .geometric) 0 [1] 1 1 1 (by norm_num) (by norm_num)
  simp only [Nat.cast_one] at h1 h2
  rw [h1, h2]
  simp [List.range_succ, adstockAt, window, decayOf, weight, retained, Finset.sum_range_succ,
    mediaAt]

/-! ### C04 -/

/-- Pointwise combination of two series. -/
def combine (a b : ℝ) (m m' : List ℝ) : List ℝ := List.zipWith (fun x y => a * x + b * y) m m'

theorem mediaAt_combine (a b : ℝ) (m m' : List ℝ) (hlen : m.length = m'.length) (i : ℤ) :
    mediaAt (combine a b m m') i = a * mediaAt m i + b * mediaAt m' i := by
  unfold mediaAt combine
  split_ifs with h
  · rw [List.getD_eq_getElem?_getD, List.getD_eq_getElem?_getD, List.getD_eq_getElem?_getD,
      List.getElem?_zipWith]
    by_cases hl : i.toNat < m.length
    · rw [List.getElem?_eq_getElem hl, List.getElem?_eq_getElem (by omega)]
      simp
    · rw [List.getElem?_eq_none (by omega), List.getElem?_eq_none (by omega : m'.length ≤ _)]
      simp
  · simp

/-- **C04 (linear).** Adstock of a combination of two series of equal length is the combination of
their adstocks. -/
theorem adstock_linear (decay : Decay ⊕ List Decay) (c : ℕ) (a b : ℝ) (m m' : List ℝ) (α : ℝ)
    (maxLag nOut : ℕ) (out out' : List ℝ) (hlen : m.length = m'.length)
    (h : adstock decay c m α maxLag nOut = .ok out)
    (h' : adstock decay c m' α maxLag nOut = .ok out') :
    adstock decay c (combine a b m m') α maxLag nOut = .ok (combine a b out out') := by
  obtain ⟨e1, e2, -⟩ := (adstock_rejects decay c m α maxLag nOut).1 ⟨_, h⟩
  rw [adstock_eq _ _ _ _ _ _ (by omega) (by omega)] at h
  rw [adstock_eq _ _ _ _ _ _ (by omega) (by omega)] at h'
  cases h; cases h'
  have hl : (combine a b m m').length = m.length := by simp [combine, hlen]
  rw [adstock_eq _ _ _ _ _ _ (by omega) (by omega)]
  congr 1
  apply List.ext_getElem
  · simp [combine]
  · intro t h1 h2
    simp only [combine, List.getElem_map, List.getElem_range, List.getElem_zipWith]
    unfold adstockAt window
    rw [← hlen, Finset.mul_sum, Finset.mul_sum, ← Finset.sum_add_distrib]
    change ∑ l ∈ range (min (maxLag + 1) (combine a b m m').length), _ = _
    have := mediaAt_combine a b m m' hlen
    unfold combine at this hl
    unfold combine
    rw [hl]
    apply Finset.sum_congr rfl
    intro l hl
    rw [this]
    ring

/-- **C04 (monotone).** More media in every period never lowers an adstocked value. -/
theorem adstock_mono (decay : Decay ⊕ List Decay) (c : ℕ) (m m' : List ℝ) (α : ℝ)
    (maxLag nOut : ℕ) (out out' : List ℝ) (h0 : 0 ≤ α) (hlen : m.length = m'.length)
    (hle : ∀ (i : ℕ) x y, m[i]? = some x → m'[i]? = some y → x ≤ y)
    (h : adstock decay c m α maxLag nOut = .ok out)
    (h' : adstock decay c m' α maxLag nOut = .ok out') :
    ∀ (t : ℕ) x y, out[t]? = some x → out'[t]? = some y → x ≤ y := by
  obtain ⟨e1, e2, -⟩ := (adstock_rejects decay c m α maxLag nOut).1 ⟨_, h⟩
  rw [adstock_eq _ _ _ _ _ _ (by omega) (by omega)] at h
  rw [adstock_eq _ _ _ _ _ _ (by omega) (by omega)] at h'
  cases h; cases h'
  intro t x y hx hy
  have ht : t < nOut := by
    obtain ⟨hl, -⟩ := List.getElem?_eq_some_iff.1 hx
    simpa using hl
  rw [List.getElem?_map, List.getElem?_range ht] at hx hy
  rw [← Option.some.inj hx, ← Option.some.inj hy]
  unfold adstockAt window
  rw [← hlen]
  apply Finset.sum_le_sum
  intro l hl
  have hl := mem_range.1 hl
  apply mul_le_mul_of_nonneg_left _ (weight_nonneg h0 hl)
  unfold mediaAt
  split_ifs with hp
  · rw [List.getD_eq_getElem?_getD, List.getD_eq_getElem?_getD]
    set i := ((m.length : ℤ) - nOut + t - l).toNat with hi
    rw [show ((m.length : ℤ) - nOut + t - l) = ((m'.length : ℤ) - nOut + t - l) by rw [hlen]] at hi
    by_cases hb : i < m.length
    · have := hle i _ _ (List.getElem?_eq_getElem hb) (List.getElem?_eq_getElem (by omega))
      rw [List.getElem?_eq_getElem hb, List.getElem?_eq_getElem (by omega : i < m'.length)]
      exact this
    · rw [List.getElem?_eq_none (by omega), List.getElem?_eq_none (by omega)]
  · exact le_rfl

/-- **C04 (range).** Non-negative media of at most `M` give adstocked values in `[0, M]`. -/
theorem adstock_range (decay : Decay ⊕ List Decay) (c : ℕ) (m : List ℝ) (α M : ℝ)
    (maxLag nOut : ℕ) (out : List ℝ) (h0 : 0 ≤ α) (hm : ∀ x ∈ m, 0 ≤ x ∧ x ≤ M)
    (h : adstock decay c m α maxLag nOut = .ok out) : ∀ y ∈ out, 0 ≤ y ∧ y ≤ M := by
  obtain ⟨e1, e2, -⟩ := (adstock_rejects decay c m α maxLag nOut).1 ⟨_, h⟩
  rw [adstock_eq _ _ _ _ _ _ (by omega) (by omega)] at h
  cases h
  have hM : 0 ≤ M := by
    cases m with
    | nil => simp at e2; omega
    | cons x m => have := hm x (by simp); linarith
  have hat : ∀ i, 0 ≤ mediaAt m i ∧ mediaAt m i ≤ M := by
    intro i
    unfold mediaAt
    split_ifs
    · rw [List.getD_eq_getElem?_getD]
      by_cases hb : i.toNat < m.length
      · rw [List.getElem?_eq_getElem hb]; exact hm _ (List.getElem_mem hb)
      · rw [List.getElem?_eq_none (by omega)]; exact ⟨le_rfl, hM⟩
    · exact ⟨le_rfl, hM⟩
  intro y hy
  obtain ⟨t, -, rfl⟩ := List.mem_map.1 hy
  have hW : 0 < window maxLag m := by unfold window; omega
  constructor
  · apply Finset.sum_nonneg
    intro l hl
    exact mul_nonneg (weight_nonneg h0 (mem_range.1 hl)) (hat _).1
  · calc _ ≤ ∑ l ∈ range (window maxLag m), weight (decayOf decay c) α (window maxLag m) l * M := by
          apply Finset.sum_le_sum
          intro l hl
          exact mul_le_mul_of_nonneg_left (hat _).2 (weight_nonneg h0 (mem_range.1 hl))
      _ = M := by rw [← Finset.sum_mul, weight_sum h0 hW, one_mul]

example : (∀ x ∈ [3, 6, (9 : ℝ)], 0 ≤ x ∧ x ≤ 9) ∧
    ∃ out, adstock (.inl .geometric) 0 [3, 6, 9] (1 / 2) 1 2 = .ok out := by
  refine ⟨?_, (adstock_rejects _ _ _ _ _ _).2 (by simp)⟩
  intro x hx
  simp at hx
  rcases hx with rfl | rfl | rfl <;> norm_num

/-! ### C05 -/

/-- **C05.** With positive half-saturation point and slope, the Hill curve starts at 0, stays in
`[0, 1)`, is strictly increasing on non-negative media, and is one half at the half-saturation
point. -/
theorem hill_shape (ec slope : ℝ) (hec : 0 < ec) (hs : 0 < slope) :
    hill 0 ec slope = 0 ∧ (∀ m, 0 ≤ m → 0 ≤ hill m ec slope ∧ hill m ec slope < 1) ∧
    (∀ m m', 0 ≤ m → m < m' → hill m ec slope < hill m' ec slope) ∧
    hill ec ec slope = 1 / 2 := by
  have hp : 0 < ec ^ slope := Real.rpow_pos_of_pos hec _
  refine ⟨?_, ?_, ?_, ?_⟩
  · unfold hill; rw [Real.zero_rpow hs.ne']; simp
  · intro m hm
    have : 0 ≤ m ^ slope := Real.rpow_nonneg hm _
    unfold hill
    refine ⟨by positivity, ?_⟩
    rw [div_lt_one (by positivity)]
    linarith
  · intro m m' hm hlt
    have h1 : 0 ≤ m ^ slope := Real.rpow_nonneg hm _
    have h2 : m ^ slope < m' ^ slope := Real.rpow_lt_rpow hm hlt hs
    unfold hill
    rw [div_lt_div_iff₀ (by positivity) (by linarith)]
    nlinarith
  · unfold hill
    field_simp
    norm_num

/-- **C05 (series).** The Hill transformer acts period by period: the series keeps its length, every
value is in `[0, 1)`, zero exactly where media is zero, one half exactly where media is `ec`, and
larger media gives a larger value, also between two different series. -/
theorem hill_series_shape (ec slope : ℝ) (hec : 0 < ec) (hs : 0 < slope) (xs ys : List ℝ) :
    (hillSeries xs ec slope).length = xs.length ∧
    (∀ (t : ℕ) (m y : ℝ), xs[t]? = some m → (hillSeries xs ec slope)[t]? = some y → 0 ≤ m →
      0 ≤ y ∧ y < 1 ∧ (y = 0 ↔ m = 0) ∧ (y = 1 / 2 ↔ m = ec)) ∧
    (∀ (t u : ℕ) (m m' y y' : ℝ), xs[t]? = some m → ys[u]? = some m' →
      (hillSeries xs ec slope)[t]? = some y → (hillSeries ys ec slope)[u]? = some y' →
      0 ≤ m → m < m' → y < y') := by
  obtain ⟨h0, h1, h2, h3⟩ := hill_shape ec slope hec hs
  have hinj : ∀ a b, 0 ≤ a → 0 ≤ b → hill a ec slope = hill b ec slope → a = b := by
    intro a b ha hb hab
    rcases lt_trichotomy a b with h | h | h
    · exact absurd hab (h2 a b ha h).ne
    · exact h
    · exact absurd hab (h2 b a hb h).ne'
  have hget : ∀ (zs : List ℝ) (t : ℕ) (m y : ℝ), zs[t]? = some m →
      (hillSeries zs ec slope)[t]? = some y → y = hill m ec slope := by
    intro zs t m y hm hy
    unfold hillSeries at hy
    rw [List.getElem?_map, hm] at hy
    exact (Option.some.inj hy).symm
  refine ⟨by simp [hillSeries], ?_, ?_⟩
  · intro t m y hm hy hpos
    rw [hget _ _ _ _ hm hy]
    refine ⟨(h1 m hpos).1, (h1 m hpos).2, ⟨fun h => ?_, fun h => by rw [h, h0]⟩,
      ⟨fun h => ?_, fun h => by rw [h, h3]⟩⟩
    · exact hinj _ _ hpos le_rfl (by rw [h, h0])
    · exact hinj _ _ hpos hec.le (by rw [h, h3])
  · intro t u m m' y y' hm hm' hy hy' hpos hlt
    rw [hget _ _ _ _ hm hy, hget _ _ _ _ hm' hy']
    exact h2 m m' hpos hlt

/-- The series `0, 1, 3` with `ec = 1`, `slope = 1`. -/
example : hillSeries [0, 1, 3] 1 1 = [0, 1 / 2, 3 / 4] := by
  simp [hillSeries, hill]; norm_num

/-- **C05 (scale).** Only media relative to the half-saturation point matters. -/
theorem hill_scale (ec slope k m : ℝ) (hk : 0 < k) (hm : 0 ≤ m) (hec : 0 < ec) :
    hill (k * m) (k * ec) slope = hill m ec slope := by
  unfold hill
  rw [Real.mul_rpow hk.le hm, Real.mul_rpow hk.le hec.le, ← mul_add]
  rw [mul_div_mul_left _ _ (Real.rpow_pos_of_pos hk _).ne']

example : hill 3 1 1 = 3 / 4 := by unfold hill; norm_num

/-- **C05 (limit of the claim).** The hypothesis `slope > 0` is needed: with slope 0 (an admissible
Deterministic prior) zero media gets half the maximum effect. -/
theorem hill_slope_zero (ec : ℝ) : hill 0 ec 0 = 1 / 2 := by
  unfold hill; simp; norm_num

end Verif.Adstock.Props

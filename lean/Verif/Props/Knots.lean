import Verif.Lemmas.Knots
import Mathlib.Tactic.IntervalCases
import Mathlib.Tactic.NormNum

/-!
# Knots: properties C09 and C10
-/

namespace Verif.Knots.Props

open Finset Verif.Knots Spec

/-! ### C09 -/

/-- **C09 (which locations are accepted).** Exactly the strictly increasing lists of at least two
locations inside the time range. -/
theorem weights_accepted_iff (n : ℕ) (locs : List ℤ) :
    (∃ w, l1DistanceWeights n locs = .ok w) ↔
      StrictlyIncreasing locs ∧ 2 ≤ locs.length ∧ ∀ k ∈ locs, 0 ≤ k ∧ k < n := l1_ok_iff n locs

/-- **C09 (interpolation).** For all accepted knot locations, all knot values and every time, the
weighted combination of the knot values is the piecewise linear interpolation through the knots,
constant outside them. -/
theorem weights_interpolate (n : ℕ) (locs : List ℤ) (w) (h : l1DistanceWeights n locs = .ok w)
    (v : ℕ → ℚ) (t : ℕ) : Interpolates locs v t (curve w locs.length v t) := by
  obtain ⟨hs, h2, -⟩ := (l1_ok_iff n locs).1 ⟨w, h⟩
  have hw := l1_ok_eq h
  subst hw
  cases exists_pos (l := locs) (by omega) (t : ℤ) with
  | «at» j hj ht =>
    rw [curve_single v hj (entry_at hs hj ht)]
    refine ⟨?_, ?_, ?_⟩
    · intro a ha hle
      obtain ⟨h0, rfl⟩ := List.getElem?_eq_some_iff.1 ha
      rw [← ht] at hle
      have := (strict_get_le_iff hs hj h0).1 hle
      congr 1; omega
    · intro b hb hle
      obtain ⟨h0, rfl⟩ := List.getElem?_eq_some_iff.1 hb
      rw [← ht] at hle
      have := (strict_get_le_iff hs h0 hj).1 hle
      congr 1; omega
    · intro i a b ha hb hle1 hle2
      obtain ⟨hi, rfl⟩ := List.getElem?_eq_some_iff.1 ha
      obtain ⟨hi', rfl⟩ := List.getElem?_eq_some_iff.1 hb
      rw [← ht] at hle1 hle2
      have e1 := (strict_get_le_iff hs hi hj).1 hle1
      have e2 := (strict_get_le_iff hs hj hi').1 hle2
      have hlt := strict_get hs hi' (Nat.lt_succ_self i)
      have hne : (locs[i + 1] : ℚ) - locs[i] ≠ 0 := by
        have : (locs[i] : ℚ) < locs[i + 1] := by exact_mod_cast hlt
        linarith
      rcases (by omega : j = i ∨ j = i + 1) with rfl | rfl
      · rw [show ((t : ℤ) : ℚ) = (locs[j] : ℚ) by exact_mod_cast ht.symm]
        simp
      · rw [show ((t : ℤ) : ℚ) = (locs[i + 1] : ℚ) by exact_mod_cast ht.symm]
        rw [div_self hne]; ring
  | before h0 ht =>
    rw [curve_single v h0 (entry_before hs h0 ht)]
    refine ⟨fun _ _ _ => rfl, ?_, ?_⟩
    · intro b hb hle
      obtain ⟨h0', rfl⟩ := List.getElem?_eq_some_iff.1 hb
      have := (strict_get_lt_iff hs h0' h0).1 (by omega)
      omega
    · intro i a b ha hb hle1 hle2
      obtain ⟨hi, rfl⟩ := List.getElem?_eq_some_iff.1 ha
      have := (strict_get_lt_iff hs hi h0).1 (by omega)
      omega
  | after h0 ht =>
    rw [curve_single v h0 (entry_after hs h0 ht)]
    refine ⟨?_, fun _ _ _ => rfl, ?_⟩
    · intro a ha hle
      obtain ⟨h0', rfl⟩ := List.getElem?_eq_some_iff.1 ha
      have := (strict_get_lt_iff hs h0 h0').1 (by omega)
      omega
    · intro i a b ha hb hle1 hle2
      obtain ⟨hi, rfl⟩ := List.getElem?_eq_some_iff.1 hb
      have := (strict_get_lt_iff hs h0 hi).1 (by omega)
      omega
  | between j hj ht1 ht2 =>
    rw [curve_double v _ _ hj (entry_between hs hj ht1 ht2)]
    refine ⟨?_, ?_, ?_⟩
    · intro a ha hle
      obtain ⟨h0', rfl⟩ := List.getElem?_eq_some_iff.1 ha
      have := (strict_get_lt_iff hs (by omega) h0').1 (lt_of_lt_of_le ht1 hle)
      omega
    · intro b hb hle
      obtain ⟨h0', rfl⟩ := List.getElem?_eq_some_iff.1 hb
      have := (strict_get_lt_iff hs h0' hj).1 (lt_of_le_of_lt hle ht2)
      omega
    · intro i a b ha hb hle1 hle2
      obtain ⟨hi, rfl⟩ := List.getElem?_eq_some_iff.1 ha
      obtain ⟨hi', rfl⟩ := List.getElem?_eq_some_iff.1 hb
      have e1 := (strict_get_lt_iff hs hi hj).1 (lt_of_le_of_lt hle1 ht2)
      have e2 := (strict_get_lt_iff hs (by omega) hi').1 (lt_of_lt_of_le ht1 hle2)
      have : i = j := by omega
      subst this
      have hlt := strict_get hs hi' (Nat.lt_succ_self i)
      have hne : (locs[i + 1] : ℚ) - locs[i] ≠ 0 := by
        have : (locs[i] : ℚ) < locs[i + 1] := by exact_mod_cast hlt
        linarith
      field_simp
      push_cast
      ring

/-- **C09 (partition of unity).** Every column of the weights is non-negative and sums to one, and
only the neighbouring knots of a time have non-zero weight. -/
theorem weights_partition_of_unity (n : ℕ) (locs : List ℤ) (w)
    (h : l1DistanceWeights n locs = .ok w) (t : ℕ) :
    (∀ k, 0 ≤ w k t) ∧ ∑ k ∈ range locs.length, w k t = 1 ∧
    (∀ (k : ℕ) x, locs[k]? = some x → w k t ≠ 0 →
      (∀ (i : ℕ) y, locs[i]? = some y → x < y → (t : ℤ) < y) ∧
      (∀ (i : ℕ) y, locs[i]? = some y → y < x → y < (t : ℤ))) ∧
    (∀ k : ℕ, locs[k]? = some (t : ℤ) → w k t = 1) := by
  obtain ⟨hs, h2, -⟩ := (l1_ok_iff n locs).1 ⟨w, h⟩
  have hw := l1_ok_eq h
  subst hw
  have hcurve : ∀ c : ℚ, ∑ k ∈ range locs.length, weightEntry locs k t
      = curve (weightEntry locs) locs.length (fun _ => 1) t := by
    intro _; unfold curve; simp
  have hcurve := hcurve 0
  cases exists_pos (l := locs) (by omega) (t : ℤ) with
  | «at» j hj ht =>
    have he := entry_at hs hj ht
    refine ⟨fun k => by rw [he]; split_ifs <;> norm_num, by rw [hcurve, curve_single _ hj he], ?_, ?_⟩
    · intro k x hk hne
      rw [he] at hne
      have : k = j := by by_contra hn; simp [hn] at hne
      subst this
      obtain ⟨_, rfl⟩ := List.getElem?_eq_some_iff.1 hk
      rw [ht]
      exact ⟨fun _ _ _ h => h, fun _ _ _ h => h⟩
    · intro k hk
      obtain ⟨hk', hkt⟩ := List.getElem?_eq_some_iff.1 hk
      rw [he, if_pos]
      have a := (strict_get_le_iff hs hk' hj).1 (by rw [hkt, ht])
      have b := (strict_get_le_iff hs hj hk').1 (by rw [hkt, ht])
      omega
  | before h0 ht =>
    have he := entry_before hs h0 ht
    refine ⟨fun k => by rw [he]; split_ifs <;> norm_num, by rw [hcurve, curve_single _ h0 he], ?_, ?_⟩
    · intro k x hk hne
      rw [he] at hne
      have : k = 0 := by by_contra hn; simp [hn] at hne
      subst this
      obtain ⟨_, rfl⟩ := List.getElem?_eq_some_iff.1 hk
      refine ⟨fun i y hi hlt => by omega, fun i y hi hlt => ?_⟩
      obtain ⟨hi', rfl⟩ := List.getElem?_eq_some_iff.1 hi
      have := (strict_get_lt_iff hs hi' h0).1 hlt
      omega
    · intro k hk
      exact absurd (List.mem_of_getElem? hk) (not_mem_of_lt_head hs h0 ht)
  | after h0 ht =>
    have he := entry_after hs h0 ht
    refine ⟨fun k => by rw [he]; split_ifs <;> norm_num, by rw [hcurve, curve_single _ h0 he], ?_, ?_⟩
    · intro k x hk hne
      rw [he] at hne
      have : k = locs.length - 1 := by by_contra hn; simp [hn] at hne
      subst this
      obtain ⟨_, rfl⟩ := List.getElem?_eq_some_iff.1 hk
      refine ⟨fun i y hi hlt => ?_, fun i y hi hlt => by omega⟩
      obtain ⟨hi', rfl⟩ := List.getElem?_eq_some_iff.1 hi
      have := (strict_get_lt_iff hs h0 hi').1 hlt
      omega
    · intro k hk
      exact absurd (List.mem_of_getElem? hk) (not_mem_of_last_lt hs h0 ht)
  | between j hj ht1 ht2 =>
    have he := entry_between hs hj ht1 ht2
    have q1 : (locs[j] : ℚ) < t := by exact_mod_cast ht1
    have q2 : (t : ℚ) < locs[j + 1] := by exact_mod_cast ht2
    refine ⟨fun k => ?_, ?_, ?_, ?_⟩
    · rw [he]
      split_ifs
      · exact div_nonneg (by linarith) (by linarith)
      · exact div_nonneg (by linarith) (by linarith)
      · exact le_rfl
    · rw [hcurve, curve_double _ _ _ hj he]
      have : (locs[j + 1] : ℚ) - locs[j] ≠ 0 := by linarith
      field_simp
      ring
    · intro k x hk hne
      rw [he] at hne
      have : k = j + 1 ∨ k = j := by
        by_contra hn
        push Not at hn
        simp [hn.1, hn.2] at hne
      obtain ⟨hk', rfl⟩ := List.getElem?_eq_some_iff.1 hk
      refine ⟨fun i y hi hlt => ?_, fun i y hi hlt => ?_⟩
      · obtain ⟨hi', rfl⟩ := List.getElem?_eq_some_iff.1 hi
        have := (strict_get_lt_iff hs hk' hi').1 hlt
        have := (strict_get_le_iff hs hj hi').2 (by omega)
        omega
      · obtain ⟨hi', rfl⟩ := List.getElem?_eq_some_iff.1 hi
        have := (strict_get_lt_iff hs hi' hk').1 hlt
        have := (strict_get_le_iff hs hi' (by omega : j < locs.length)).2 (by omega)
        omega
    · intro k hk
      exact absurd (List.mem_of_getElem? hk) (not_mem_between hs hj ht1 ht2)

/-- Knots 1, 3, 6 on eight periods: period 4 is a third of the way from 3 to 6. -/
example : (l1DistanceWeights 8 [1, 3, 6]).map
    (fun w => ([w 0 0, w 0 2, w 1 2], [w 1 4, w 2 4], w 2 7)) =
    .ok ([1, 1 / 2, 1 / 2], [2 / 3, 1 / 3], 1) := by decide +kernel

/-! ### C10 -/

/-- Equally spaced locations are strictly increasing from the first to the last period. -/
theorem equallySpaced_strict {n k : ℕ} (hk : 1 ≤ k) (hkn : k ≤ n) :
    StrictlyIncreasing (equallySpaced n k) ∧ ∀ x ∈ equallySpaced n k, 0 ≤ x ∧ x < n := by
  unfold equallySpaced StrictlyIncreasing
  constructor
  · rw [List.pairwise_map]
    apply List.Pairwise.imp_of_mem _ List.pairwise_lt_range
    intro a b ha hb hab
    have hb := List.mem_range.1 hb
    have hk1 : 0 < k - 1 := by omega
    have : a * (n - 1) / (k - 1) < b * (n - 1) / (k - 1) := by
      have h1 : a * (n - 1) / (k - 1) + 1 = (a * (n - 1) + (k - 1)) / (k - 1) := by
        rw [Nat.add_div_right _ hk1]
      have h2 : a * (n - 1) + (k - 1) ≤ b * (n - 1) := by
        calc a * (n - 1) + (k - 1) ≤ a * (n - 1) + (n - 1) := by omega
          _ = (a + 1) * (n - 1) := by ring
          _ ≤ b * (n - 1) := Nat.mul_le_mul_right _ hab
      have := Nat.div_le_div_right (c := k - 1) h2
      omega
    exact_mod_cast this
  · intro x hx
    obtain ⟨i, hi, rfl⟩ := List.mem_map.1 hx
    have hi := List.mem_range.1 hi
    refine ⟨Int.natCast_nonneg _, ?_⟩
    have : i * (n - 1) / (k - 1) ≤ n - 1 := by
      rcases Nat.eq_zero_or_pos (k - 1) with h | h
      · rw [h, Nat.div_zero]; omega
      · rw [Nat.div_le_iff_le_mul_add_pred h]
        have : i * (n - 1) ≤ (k - 1) * (n - 1) := Nat.mul_le_mul_right _ (by omega)
        omega
    exact_mod_cast (by omega : i * (n - 1) / (k - 1) < n)

/-- A consistent layout: as many strictly increasing locations inside the data as knots, and a
weight array with a row per knot in which every column sums to one. -/
def Consistent (n : ℕ) (i : KnotInfo) : Prop :=
  StrictlyIncreasing i.locations ∧ (∀ x ∈ i.locations, 0 ≤ x ∧ x < n) ∧
  i.locations.length = i.nKnots ∧ i.weightRows = i.nKnots ∧ 1 ≤ i.nKnots ∧
  ∀ t < n, ∑ k ∈ range i.nKnots, i.weights k t = 1

theorem finish_consistent {n k : ℕ} {locs : List ℤ} (hk : 1 ≤ k) (hlen : locs.length = k)
    (hs : StrictlyIncreasing locs) (hr : ∀ x ∈ locs, 0 ≤ x ∧ x < n) :
    ∃ i, finish n k locs = .ok i ∧ Consistent n i ∧ i.nKnots = k ∧ i.locations = locs := by
  unfold finish
  split_ifs with h1
  · subst h1
    exact ⟨_, rfl, ⟨hs, hr, hlen, rfl, le_rfl, by intro t _; simp⟩, rfl, rfl⟩
  · obtain ⟨w, hw⟩ := (l1_ok_iff n locs).2 ⟨hs, by omega, hr⟩
    rw [hw]
    refine ⟨_, rfl, ⟨hs, hr, hlen, hlen, hk, ?_⟩, rfl, rfl⟩
    intro t _
    have := (weights_partition_of_unity n locs w hw t).2.1
    rw [hlen] at this
    exact this

/-- **C10 (integers).** An integer number of knots is accepted exactly between 1 and `n_times`
(strictly below it for a national model); the layout is consistent and has that many knots. -/
theorem knots_int (n : ℕ) (k : ℤ) (nat : Bool) :
    ((∃ i, getKnotInfo n (.int k) nat = .ok i) ↔ 1 ≤ k ∧ k ≤ n ∧ (nat = true → k < n)) ∧
    ∀ i, getKnotInfo n (.int k) nat = .ok i → Consistent n i ∧ (i.nKnots : ℤ) = k := by
  have key : 1 ≤ k → k ≤ n → (nat = true → k < n) →
      ∃ i, getKnotInfo n (.int k) nat = .ok i ∧ Consistent n i ∧ (i.nKnots : ℤ) = k := by
    intro h1 h2 h3
    unfold getKnotInfo
    simp only
    rw [if_neg (by omega), if_neg (by omega), if_neg (by
      rintro ⟨a, b⟩; have := h3 a; omega)]
    obtain ⟨hs, hr⟩ := equallySpaced_strict (n := n) (k := k.toNat) (by omega) (by omega)
    obtain ⟨i, a, b, c, -⟩ := finish_consistent (n := n) (k := k.toNat) (by omega)
      (by simp [equallySpaced]) hs hr
    exact ⟨i, a, b, by rw [c]; omega⟩
  have rej : (∃ i, getKnotInfo n (.int k) nat = .ok i) → 1 ≤ k ∧ k ≤ n ∧ (nat = true → k < n) := by
    rintro ⟨i, h⟩
    unfold getKnotInfo at h
    simp only at h
    split_ifs at h with a b c
    refine ⟨by omega, by omega, fun hn => ?_⟩
    by_contra hk
    exact c ⟨hn, by omega⟩
  refine ⟨⟨rej, fun ⟨a, b, c⟩ => ?_⟩, ?_⟩
  · obtain ⟨i, hi, -⟩ := key a b c
    exact ⟨i, hi⟩
  · intro i hi
    obtain ⟨a, b, c⟩ := rej ⟨i, hi⟩
    obtain ⟨i', hi', h⟩ := key a b c
    rw [hi] at hi'
    cases hi'
    exact h

/-- **C10 (default).** `None` (or an empty collection) means one knot per period, or a single one
for a national model. -/
theorem knots_default (n : ℕ) (nat : Bool) (hn : 1 ≤ n) :
    getKnotInfo n .none nat = getKnotInfo n (.list []) nat ∧
    ∃ i, getKnotInfo n .none nat = .ok i ∧ Consistent n i ∧
      i.nKnots = (if nat then 1 else n) ∧
      (nat = false → i.locations = (List.range n).map Int.ofNat) := by
  refine ⟨rfl, ?_⟩
  unfold getKnotInfo
  simp only
  have hk : 1 ≤ (if nat = true then 1 else n) ∧ (if nat = true then 1 else n) ≤ n := by
    split_ifs <;> omega
  obtain ⟨hs, hr⟩ := equallySpaced_strict hk.1 hk.2
  obtain ⟨i, a, b, c, d⟩ := finish_consistent hk.1 (by simp [equallySpaced]) hs hr
  refine ⟨i, a, b, c, ?_⟩
  intro hnat
  rw [d, hnat]
  unfold equallySpaced
  simp only [Bool.false_eq_true, if_false]
  apply List.map_congr_left
  intro j hj
  have hj := List.mem_range.1 hj
  rcases Nat.eq_zero_or_pos (n - 1) with h | h
  · rw [h]; simp; omega
  · rw [Nat.mul_div_cancel _ h]; rfl

/-- **C10 (explicit locations).** A non-empty list of distinct locations inside the data is accepted
in any order and yields those locations, sorted; locations outside the data are rejected. -/
theorem knots_list (n : ℕ) (ks : List ℤ) (nat : Bool) (hne : ks ≠ []) (hd : ks.Nodup) :
    ((∃ i, getKnotInfo n (.list ks) nat = .ok i) ↔ ∀ k ∈ ks, 0 ≤ k ∧ k < n) ∧
    ∀ i, getKnotInfo n (.list ks) nat = .ok i → Consistent n i ∧ i.nKnots = ks.length ∧
      ∀ x, x ∈ i.locations ↔ x ∈ ks := by
  have hpos : 0 < ks.length := List.length_pos_iff.2 hne
  have key : (∀ k ∈ ks, 0 ≤ k ∧ k < n) → ∃ i, getKnotInfo n (.list ks) nat = .ok i ∧ Consistent n i ∧
      i.nKnots = ks.length ∧ ∀ x, x ∈ i.locations ↔ x ∈ ks := by
    intro h
    unfold getKnotInfo
    simp only
    rw [if_pos hpos, if_neg (by push Not; exact fun k hk => (h k hk).1),
      if_neg (by push Not; exact fun k hk => (h k hk).2)]
    obtain ⟨i, a, b, c, d⟩ := finish_consistent (n := n) (k := ks.length) hpos
      (by rw [npUnique_length, hd.dedup]) (npUnique_strict ks)
      (fun x hx => h x (mem_npUnique.1 hx))
    exact ⟨i, a, b, c, fun x => by rw [d, mem_npUnique]⟩
  have rej : (∃ i, getKnotInfo n (.list ks) nat = .ok i) → ∀ k ∈ ks, 0 ≤ k ∧ k < n := by
    rintro ⟨i, h⟩
    unfold getKnotInfo at h
    simp only at h
    rw [if_pos hpos] at h
    split_ifs at h with a b
    push Not at a b
    exact fun k hk => ⟨a k hk, b k hk⟩
  refine ⟨⟨rej, fun h => ?_⟩, ?_⟩
  · obtain ⟨i, hi, -⟩ := key h
    exact ⟨i, hi⟩
  · intro i hi
    obtain ⟨i', hi', h⟩ := key (rej ⟨i, hi⟩)
    rw [hi] at hi'
    cases hi'
    exact h

example : (getKnotInfo 10 (.list [7, 2, 5]) false).map (fun i => (i.nKnots, i.locations)) =
    .ok (3, [2, 5, 7]) := by decide +kernel

example : (getKnotInfo 10 (.int 4) true).map (fun i => (i.nKnots, i.locations)) =
    .ok (4, [0, 3, 6, 9]) := by decide +kernel

/-- **C10 (negation for repeated locations).** A list with a repeated location is accepted but
yields an inconsistent layout: three knots are announced while there are two locations and two rows
of weights. -/
theorem repeated_knots_inconsistent : ∃ (n : ℕ) (ks : List ℤ) (i : KnotInfo),
    getKnotInfo n (.list ks) false = .ok i ∧ i.nKnots = 3 ∧ i.locations.length = 2 ∧
      i.weightRows = 2 := by
  have h : (getKnotInfo 10 (.list [0, 5, 5]) false).map
      (fun i => (i.nKnots, i.locations.length, i.weightRows)) = .ok (3, 2, 2) := by decide +kernel
  cases hi : getKnotInfo 10 (.list [0, 5, 5]) false with
  | error e => rw [hi] at h; cases h
  | ok i =>
    rw [hi] at h
    injection h with h
    simp only [Prod.mk.injEq] at h
    exact ⟨10, [0, 5, 5], i, hi, h⟩

end Verif.Knots.Props

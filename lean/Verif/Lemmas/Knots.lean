import Verif.Spec.Knots
import Mathlib.Algebra.BigOperators.Ring.Finset
import Mathlib.Algebra.Order.BigOperators.Group.Finset
import Mathlib.Tactic.Linarith
import Mathlib.Tactic.FieldSimp
import Mathlib.Tactic.Ring
import Mathlib.Tactic.Push

namespace Verif.Knots

open Finset Spec

theorem npSort_perm (l : List ℤ) : (npSort l).Perm l := List.perm_insertionSort _ l

theorem npSort_pairwise (l : List ℤ) : (npSort l).Pairwise (· ≤ ·) :=
  List.pairwise_insertionSort _ l

theorem npUnique_strict (l : List ℤ) : StrictlyIncreasing (npUnique l) := by
  unfold StrictlyIncreasing npUnique
  have h1 : ((npSort l).dedup).Pairwise (· ≤ ·) :=
    (npSort_pairwise l).sublist (List.dedup_sublist _)
  have h2 := List.nodup_dedup (npSort l)
  exact (h1.and h2).imp fun ⟨a, b⟩ => lt_of_le_of_ne a b

theorem mem_npUnique {l : List ℤ} {k : ℤ} : k ∈ npUnique l ↔ k ∈ l := by
  unfold npUnique; rw [List.mem_dedup, (npSort_perm l).mem_iff]

theorem npUnique_length (l : List ℤ) : (npUnique l).length = l.dedup.length :=
  ((npSort_perm l).dedup).length_eq

theorem npSort_of_sorted {l : List ℤ} (h : l.Pairwise (· ≤ ·)) : npSort l = l := by
  unfold npSort
  exact h.insertionSort_eq

/-- What the checks of `l1_distance_weights` accept. -/
theorem l1_ok_iff (n : ℕ) (locs : List ℤ) :
    (∃ w, l1DistanceWeights n locs = .ok w) ↔
      StrictlyIncreasing locs ∧ 2 ≤ locs.length ∧ ∀ k ∈ locs, 0 ≤ k ∧ k < n := by
  constructor
  · rintro ⟨w, h⟩
    unfold l1DistanceWeights at h
    split_ifs at h with h1 h2 h3 h4 h5
    push Not at h1 h2 h3 h4 h5
    refine ⟨?_, by omega, fun k hk => ⟨h4 k hk, h5 k hk⟩⟩
    have hs : locs.Pairwise (· ≤ ·) := by rw [h1]; exact npSort_pairwise _
    rw [npUnique_length] at h3
    have hd : locs.Nodup := by
      have := List.dedup_sublist locs
      rw [← this.eq_of_length h3.symm]
      exact List.nodup_dedup locs
    exact (hs.and hd).imp fun ⟨a, b⟩ => lt_of_le_of_ne a b
  · rintro ⟨h1, h2, h3⟩
    have hs : locs.Pairwise (· ≤ ·) := h1.imp fun h => h.le
    have hd : locs.Nodup := h1.imp fun h => h.ne
    unfold l1DistanceWeights
    rw [if_neg (by rw [npSort_of_sorted hs]; simp), if_neg (by omega),
      if_neg (by rw [npUnique_length, hd.dedup]; simp),
      if_neg (by push Not; exact fun k hk => (h3 k hk).1),
      if_neg (by push Not; exact fun k hk => (h3 k hk).2)]
    exact ⟨_, rfl⟩

theorem l1_ok_eq {n : ℕ} {locs : List ℤ} {w} (h : l1DistanceWeights n locs = .ok w) :
    w = weightEntry locs := by
  unfold l1DistanceWeights at h
  split_ifs at h
  cases h; rfl

theorem strict_get {l : List ℤ} (h : StrictlyIncreasing l) {i j : ℕ} (hj : j < l.length)
    (hij : i < j) : l[i]'(by omega) < l[j] := List.pairwise_iff_getElem.1 h i j (by omega) hj hij

theorem strict_get_lt_iff {l : List ℤ} (h : StrictlyIncreasing l) {i j : ℕ} (hi : i < l.length)
    (hj : j < l.length) : l[i] < l[j] ↔ i < j := by
  constructor
  · intro hlt
    by_contra hn
    rcases Nat.lt_or_eq_of_le (not_lt.1 hn) with h' | h'
    · have := strict_get h hi h'; omega
    · subst h'; omega
  · exact fun hij => strict_get h hj hij

theorem strict_get_le_iff {l : List ℤ} (h : StrictlyIncreasing l) {i j : ℕ} (hi : i < l.length)
    (hj : j < l.length) : l[i] ≤ l[j] ↔ i ≤ j := by
  rw [← not_lt, strict_get_lt_iff h hj hi, not_lt]

/-- The position of a time among the knots. -/
inductive Pos (l : List ℤ) (t : ℤ) : Prop
  | at (j : ℕ) (hj : j < l.length) (h : l[j] = t)
  | before (h0 : 0 < l.length) (h : t < l[0])
  | after (h0 : l.length - 1 < l.length) (h : l[l.length - 1] < t)
  | between (j : ℕ) (hj : j + 1 < l.length) (h1 : l[j] < t) (h2 : t < l[j + 1])

theorem exists_pos {l : List ℤ} (h0 : 0 < l.length) (t : ℤ) : Pos l t := by
  by_cases hb : t < l[0]
  · exact .before h0 hb
  by_cases ha : l[l.length - 1] < t
  · exact .after (by omega) ha
  -- greatest index with l[j] ≤ t
  have key : ∀ m, (hm : m < l.length) → t ≤ l[m] →
      (∃ j, ∃ hj : j < l.length, l[j] = t) ∨
      ∃ j, ∃ hj : j + 1 < l.length, l[j] < t ∧ t < l[j + 1] := by
    intro m
    induction m with
    | zero =>
      intro hm hle
      exact Or.inl ⟨0, hm, by omega⟩
    | succ m ih =>
      intro hm hle
      by_cases he : l[m + 1] = t
      · exact Or.inl ⟨_, hm, he⟩
      by_cases hl : t ≤ l[m]
      · exact ih (by omega) hl
      · exact Or.inr ⟨m, hm, by omega, by omega⟩
  rcases key (l.length - 1) (by omega) (by omega) with ⟨j, hj, h⟩ | ⟨j, hj, h1, h2⟩
  · exact .at j hj h
  · exact .between j hj h1 h2

theorem headD_eq {l : List ℤ} (h0 : 0 < l.length) : l.headD 0 = l[0] := by
  cases l with
  | nil => simp at h0
  | cons a l => rfl

theorem getLastD_eq {l : List ℤ} (h0 : l.length - 1 < l.length) : l.getLastD 0 = l[l.length - 1] := by
  have : l ≠ [] := by rintro rfl; simp at h0
  rw [List.getLastD_eq_getLast?, List.getLast?_eq_getElem?, List.getElem?_eq_getElem h0]
  rfl

theorem countP_between {l : List ℤ} (h : StrictlyIncreasing l) {t : ℤ} {j : ℕ}
    (hj : j + 1 < l.length) (h1 : l[j] < t) (h2 : t < l[j + 1]) : searchsortedRight l t = j + 1 := by
  unfold searchsortedRight
  rw [← List.take_append_drop (j + 1) l, List.countP_append]
  have e1 : (l.take (j + 1)).countP (fun k => decide (k ≤ t)) = (l.take (j + 1)).length := by
    rw [List.countP_eq_length]
    intro a ha
    obtain ⟨k, hk, rfl⟩ := List.mem_iff_getElem.1 ha
    simp only [List.length_take] at hk
    simp only [List.getElem_take, decide_eq_true_eq]
    have := (strict_get_le_iff h (by omega) (by omega)).2 (by omega : k ≤ j)
    omega
  have e2 : (l.drop (j + 1)).countP (fun k => decide (k ≤ t)) = 0 := by
    rw [List.countP_eq_zero]
    intro a ha
    obtain ⟨k, hk, rfl⟩ := List.mem_iff_getElem.1 ha
    simp only [List.length_drop] at hk
    simp only [List.getElem_drop, decide_eq_true_eq, not_le]
    have := (strict_get_le_iff h hj (by omega)).2 (by omega : j + 1 ≤ j + 1 + k)
    omega
  rw [e1, e2, List.length_take]
  omega

section
variable {l : List ℤ} (h : StrictlyIncreasing l) {t : ℕ}
include h

theorem entry_at {j : ℕ} (hj : j < l.length) (ht : l[j] = t) (k : ℕ) :
    weightEntry l k t = if k = j then 1 else 0 := by
  unfold weightEntry
  simp only
  rw [if_pos (by rw [← ht]; exact List.getElem_mem hj)]
  have hd : l.Nodup := h.imp fun h => h.ne
  rw [← ht, List.Nodup.idxOf_getElem hd]

theorem not_mem_of_lt_head (h0 : 0 < l.length) {t : ℤ} (ht : t < l[0]) : t ∉ l := by
  intro hm
  obtain ⟨i, hi, rfl⟩ := List.mem_iff_getElem.1 hm
  have := (strict_get_lt_iff h hi h0).1 ht
  omega

theorem not_mem_of_last_lt (h0 : l.length - 1 < l.length) {t : ℤ} (ht : l[l.length - 1] < t) :
    t ∉ l := by
  intro hm
  obtain ⟨i, hi, rfl⟩ := List.mem_iff_getElem.1 hm
  have := (strict_get_lt_iff h h0 hi).1 ht
  omega

theorem not_mem_between {j : ℕ} (hj : j + 1 < l.length) {t : ℤ} (h1 : l[j] < t) (h2 : t < l[j + 1]) :
    t ∉ l := by
  intro hm
  obtain ⟨i, hi, rfl⟩ := List.mem_iff_getElem.1 hm
  have a := (strict_get_lt_iff h (by omega) hi).1 h1
  have b := (strict_get_lt_iff h hi hj).1 h2
  omega

theorem entry_before (h0 : 0 < l.length) (ht : (t : ℤ) < l[0]) (k : ℕ) :
    weightEntry l k t = if k = 0 then 1 else 0 := by
  unfold weightEntry
  simp only
  have hlast := (strict_get_le_iff h h0 (by omega)).2 (Nat.zero_le (l.length - 1))
  have hleft : leftKnotIndex l t = 0 := by
    unfold leftKnotIndex
    simp only
    rw [headD_eq h0, getLastD_eq (by omega), if_neg (by omega), if_pos ht]
  rw [if_neg (not_mem_of_lt_head h h0 ht), headD_eq h0, if_pos (Or.inl ht), hleft]

theorem entry_after (h0 : l.length - 1 < l.length) (ht : l[l.length - 1] < (t : ℤ)) (k : ℕ) :
    weightEntry l k t = if k = l.length - 1 then 1 else 0 := by
  unfold weightEntry
  simp only
  rw [if_neg (not_mem_of_last_lt h h0 ht), getLastD_eq h0, if_pos (Or.inr ht)]
  unfold leftKnotIndex
  simp only
  rw [getLastD_eq h0, if_pos ht.le]

theorem entry_between {j : ℕ} (hj : j + 1 < l.length) (h1 : l[j] < (t : ℤ))
    (h2 : (t : ℤ) < l[j + 1]) (k : ℕ) :
    weightEntry l k t =
      if k = j + 1 then ((t : ℚ) - l[j]) / ((l[j + 1] : ℚ) - l[j])
      else if k = j then ((l[j + 1] : ℚ) - t) / ((l[j + 1] : ℚ) - l[j]) else 0 := by
  have hlast := (strict_get_le_iff h hj (by omega)).2 (by omega : j + 1 ≤ l.length - 1)
  have hfirst := (strict_get_le_iff h (by omega) (by omega : j < l.length)).2 (Nat.zero_le j)
  unfold weightEntry
  have hleft : leftKnotIndex l t = j := by
    unfold leftKnotIndex
    simp only
    rw [headD_eq (by omega), getLastD_eq (by omega), if_neg (by omega), if_neg (by omega),
      countP_between h hj h1 h2]
    omega
  simp only [hleft]
  rw [if_neg (not_mem_between h hj h1 h2), headD_eq (by omega), getLastD_eq (by omega),
    if_neg (by omega)]
  have g1 : l.getD j 0 = l[j] := by
    rw [List.getD_eq_getElem?_getD, List.getElem?_eq_getElem (by omega)]; rfl
  have g2 : l.getD (j + 1) 0 = l[j + 1] := by
    rw [List.getD_eq_getElem?_getD, List.getElem?_eq_getElem hj]; rfl
  rw [g1, g2]
  have a1 : |l[j] - (t : ℤ)| = t - l[j] := by rw [abs_of_neg (by omega)]; ring
  have a2 : |l[j + 1] - (t : ℤ)| = l[j + 1] - t := abs_of_pos (by omega)
  rw [a1, a2]
  have e : (((t : ℤ) - l[j] + (l[j + 1] - t) : ℤ) : ℚ) = (l[j + 1] : ℚ) - l[j] := by
    push_cast; ring
  simp only [Int.cast_add, Int.cast_sub, Int.cast_natCast] at e ⊢
  rw [e]

end

theorem curve_single {w : ℕ → ℕ → ℚ} {n j t : ℕ} (v : ℕ → ℚ) (hj : j < n)
    (hw : ∀ k, w k t = if k = j then 1 else 0) : curve w n v t = v j := by
  unfold curve
  rw [Finset.sum_congr rfl (g := fun k => if k = j then v k else 0)]
  · rw [Finset.sum_ite_eq', if_pos (mem_range.2 hj)]
  · intro k _
    rw [hw]; split_ifs <;> simp

theorem curve_double {w : ℕ → ℕ → ℚ} {n j t : ℕ} (v : ℕ → ℚ) (x y : ℚ) (hj : j + 1 < n)
    (hw : ∀ k, w k t = if k = j + 1 then x else if k = j then y else 0) :
    curve w n v t = x * v (j + 1) + y * v j := by
  unfold curve
  rw [Finset.sum_congr rfl
    (g := fun k => (if k = j + 1 then x * v k else 0) + (if k = j then y * v k else 0))]
  · rw [Finset.sum_add_distrib, Finset.sum_ite_eq', Finset.sum_ite_eq', if_pos (mem_range.2 hj),
      if_pos (mem_range.2 (by omega))]
  · intro k _
    rw [hw]
    by_cases h1 : k = j + 1
    · have : k ≠ j := by omega
      simp [h1]
    · simp [h1]

end Verif.Knots

import Verif.Model.Transformers
import Mathlib.Algebra.BigOperators.Field
import Mathlib.Algebra.Order.BigOperators.Ring.Finset
import Mathlib.Tactic.FieldSimp
import Mathlib.Tactic.Linarith
import Mathlib.Tactic.Positivity

namespace Verif.Transformers

open Finset

theorem sum_map_range'' (n : ℕ) (g : ℕ → ℝ) :
    ((List.range n).map g).sum = ∑ c ∈ range n, g c := by
  induction n with
  | zero => simp
  | succ n ih => rw [List.range_succ, Finset.sum_range_succ, ← ih]; simp

theorem cells_sum (G T : ℕ) (x : Panel) :
    (cells G T x).sum = ∑ g ∈ range G, ∑ t ∈ range T, x g t := by
  unfold cells
  induction G with
  | zero => simp
  | succ n ih =>
    rw [List.range_succ, List.flatMap_append, List.sum_append, ih, Finset.sum_range_succ]
    simp [sum_map_range'']

theorem cells_length (G T : ℕ) (x : Panel) : (cells G T x).length = G * T := by
  unfold cells
  simp [List.length_flatMap]

theorem mem_cells {G T : ℕ} {x : Panel} {v : ℝ} :
    v ∈ cells G T x ↔ ∃ g < G, ∃ t < T, x g t = v := by
  unfold cells
  simp [List.mem_flatMap]

theorem mean_eq (G T : ℕ) (x : Panel) :
    mean G T x = (∑ g ∈ range G, ∑ t ∈ range T, x g t) / (G * T : ℕ) := by
  unfold mean
  rw [cells_sum, cells_length]

theorem mean_mul (G T : ℕ) (x : Panel) (h : 0 < G * T) :
    ∑ g ∈ range G, ∑ t ∈ range T, x g t = mean G T x * (G * T : ℕ) := by
  rw [mean_eq, div_mul_cancel₀]
  exact_mod_cast h.ne'

theorem sum_sub_mean (G T : ℕ) (x : Panel) (h : 0 < G * T) :
    ∑ g ∈ range G, ∑ t ∈ range T, (x g t - mean G T x) = 0 := by
  simp only [Finset.sum_sub_distrib]
  rw [mean_mul G T x h]
  simp; ring

theorem std_nonneg (G T : ℕ) (x : Panel) : 0 ≤ std G T x := Real.sqrt_nonneg _

theorem std_sq (G T : ℕ) (x : Panel) :
    std G T x ^ 2 = mean G T fun g t => (x g t - mean G T x) ^ 2 := by
  unfold std
  rw [Real.sq_sqrt]
  rw [mean_eq]
  apply div_nonneg _ (by positivity)
  apply Finset.sum_nonneg
  intro g _
  apply Finset.sum_nonneg
  intro t _
  positivity

theorem std_zero_iff (G T : ℕ) (x : Panel) (h : 0 < G * T) :
    std G T x = 0 ↔ ∀ g < G, ∀ t < T, x g t = mean G T x := by
  have hsq := std_sq G T x
  rw [mean_eq] at hsq
  have hpos : (0 : ℝ) < (G * T : ℕ) := by exact_mod_cast h
  constructor
  · intro h0
    rw [h0] at hsq
    have hs : ∑ g ∈ range G, ∑ t ∈ range T, (x g t - mean G T x) ^ 2 = 0 := by
      have := hsq.symm
      rw [show (0 : ℝ) ^ 2 = 0 by norm_num, div_eq_zero_iff] at this
      rcases this with h | h
      · exact h
      · exact absurd h hpos.ne'
    rw [Finset.sum_eq_zero_iff_of_nonneg
      (fun g _ => Finset.sum_nonneg fun t _ => by positivity)] at hs
    intro g hg t ht
    have h1 := hs g (mem_range.2 hg)
    rw [Finset.sum_eq_zero_iff_of_nonneg (fun t _ => by positivity)] at h1
    have h2 := h1 t (mem_range.2 ht)
    have := pow_eq_zero_iff (two_ne_zero) |>.1 h2
    linarith
  · intro hc
    have hs : ∑ g ∈ range G, ∑ t ∈ range T, (x g t - mean G T x) ^ 2 = 0 := by
      apply Finset.sum_eq_zero
      intro g hg
      apply Finset.sum_eq_zero
      intro t ht
      rw [hc g (mem_range.1 hg) t (mem_range.1 ht)]; ring
    rw [hs, zero_div] at hsq
    exact pow_eq_zero_iff (two_ne_zero) |>.1 hsq

/-- A panel standardised by its own mean and standard deviation. -/
theorem standardised (G T : ℕ) (x : Panel) (h : 0 < G * T) :
    (∑ g ∈ range G, ∑ t ∈ range T, divideNoNan (x g t - mean G T x) (std G T x) = 0) ∧
    (std G T x ≠ 0 → (∑ g ∈ range G, ∑ t ∈ range T,
      divideNoNan (x g t - mean G T x) (std G T x) ^ 2) / (G * T : ℕ) = 1) := by
  unfold divideNoNan
  constructor
  · by_cases hs : std G T x = 0
    · simp [hs]
    · simp only [ne_eq, hs, not_false_eq_true, if_true]
      simp only [← Finset.sum_div]
      rw [sum_sub_mean G T x h, zero_div]
  · intro hs
    simp only [ne_eq, hs, not_false_eq_true, if_true, div_pow]
    simp only [← Finset.sum_div]
    have h2 := std_sq G T x
    rw [mean_eq] at h2
    rw [div_right_comm, ← h2]
    exact div_self (pow_ne_zero 2 hs)

/-! ### median -/

theorem mem_sort {l : List ℝ} {v : ℝ} : v ∈ l.mergeSort (fun a b => decide (a ≤ b)) ↔ v ∈ l :=
  (List.mergeSort_perm l _).mem_iff

theorem pairwise_sort (l : List ℝ) :
    (l.mergeSort (fun a b => decide (a ≤ b))).Pairwise (· ≤ ·) := by
  have := List.pairwise_mergeSort (le := fun a b : ℝ => decide (a ≤ b))
    (fun a b c h1 h2 => by simp at *; linarith)
    (fun a b => by simp; exact le_total a b) l
  simpa using this

theorem sorted_getElem {s : List ℝ} (h : s.Pairwise (· ≤ ·)) {i j : ℕ} (hj : j < s.length)
    (hij : i ≤ j) : s[i]'(by omega) ≤ s[j] := by
  rcases Nat.lt_or_ge i j with hlt | hge
  · exact List.pairwise_iff_getElem.1 h i j (by omega) hj hlt
  · have : i = j := by omega
    subst this; exact le_rfl

theorem countP_prefix {s : List ℝ} (h : s.Pairwise (· ≤ ·)) {i : ℕ} (hi : i < s.length) {m : ℝ}
    (hm : s[i] ≤ m) : i + 1 ≤ s.countP (fun v => decide (v ≤ m)) := by
  have h1 : (s.take (i + 1)).countP (fun v => decide (v ≤ m)) = (s.take (i + 1)).length := by
    rw [List.countP_eq_length]
    intro a ha
    obtain ⟨k, hk, rfl⟩ := List.mem_iff_getElem.1 ha
    simp only [List.length_take] at hk
    simp only [List.getElem_take, decide_eq_true_eq]
    exact le_trans (sorted_getElem h hi (by omega)) hm
  have h2 := List.Sublist.countP_le (p := fun v => decide (v ≤ m)) (List.take_sublist (i + 1) s)
  rw [h1, List.length_take] at h2
  omega

theorem countP_suffix {s : List ℝ} (h : s.Pairwise (· ≤ ·)) {i : ℕ} (hi : i < s.length) {m : ℝ}
    (hm : m ≤ s[i]) : s.length - i ≤ s.countP (fun v => decide (m ≤ v)) := by
  have h1 : (s.drop i).countP (fun v => decide (m ≤ v)) = (s.drop i).length := by
    rw [List.countP_eq_length]
    intro a ha
    obtain ⟨k, hk, rfl⟩ := List.mem_iff_getElem.1 ha
    simp only [List.length_drop] at hk
    simp only [List.getElem_drop, decide_eq_true_eq]
    exact le_trans hm (sorted_getElem h (by omega) (by omega))
  have h2 := List.Sublist.countP_le (p := fun v => decide (m ≤ v)) (List.drop_sublist i s)
  rw [h1, List.length_drop] at h2
  omega

/-- The median of a list: `none` exactly for the empty list; otherwise at least half of the values
are on either side, and it lies between two values of the list. -/
theorem median_spec (l : List ℝ) : (median l = none ↔ l = []) ∧
    ∀ m, median l = some m →
      l.length ≤ 2 * l.countP (fun v => decide (v ≤ m)) ∧
      l.length ≤ 2 * l.countP (fun v => decide (m ≤ v)) ∧
      ∃ a ∈ l, ∃ b ∈ l, a ≤ m ∧ m ≤ b := by
  have hperm := List.mergeSort_perm l (fun a b : ℝ => decide (a ≤ b))
  have hp := pairwise_sort l
  have hmem := fun v => mem_sort (l := l) (v := v)
  unfold median
  generalize l.mergeSort (fun a b => decide (a ≤ b)) = s at *
  have hlen := hperm.length_eq
  simp only
  have hc1 := fun m : ℝ => hperm.countP_eq (fun v => decide (v ≤ m))
  have hc2 := fun m : ℝ => hperm.countP_eq (fun v => decide (m ≤ v))
  constructor
  · constructor
    · intro h
      split_ifs at h with h0
      exact List.eq_nil_of_length_eq_zero (by omega)
    · intro h
      subst h
      rw [if_pos (by simpa using hlen)]
  · intro m hm
    split_ifs at hm with h0 h1
    · have hi : s.length / 2 < s.length := by omega
      have e : s.getD (s.length / 2) 0 = s[s.length / 2] := by
        rw [List.getD_eq_getElem?_getD, List.getElem?_eq_getElem hi]; rfl
      have hm := Option.some.inj hm
      rw [e] at hm
      have a1 := countP_prefix hp hi hm.le
      have a2 := countP_suffix hp hi hm.ge
      rw [hc1] at a1
      rw [hc2] at a2
      refine ⟨by omega, by omega, _, (hmem _).1 (List.getElem_mem hi), _,
        (hmem _).1 (List.getElem_mem hi), hm.le, hm.ge⟩
    · have hi : s.length / 2 < s.length := by omega
      have hi' : s.length / 2 - 1 < s.length := by omega
      have e : s.getD (s.length / 2) 0 = s[s.length / 2] := by
        rw [List.getD_eq_getElem?_getD, List.getElem?_eq_getElem hi]; rfl
      have e' : s.getD (s.length / 2 - 1) 0 = s[s.length / 2 - 1] := by
        rw [List.getD_eq_getElem?_getD, List.getElem?_eq_getElem hi']; rfl
      have hm := Option.some.inj hm
      rw [e, e'] at hm
      have hle := sorted_getElem hp hi (Nat.sub_le (s.length / 2) 1)
      have b1 : s[s.length / 2 - 1] ≤ m := by rw [← hm]; linarith
      have b2 : m ≤ s[s.length / 2] := by rw [← hm]; linarith
      have a1 := countP_prefix hp hi' b1
      have a2 := countP_suffix hp hi b2
      rw [hc1] at a1
      rw [hc2] at a2
      refine ⟨by omega, by omega, _, (hmem _).1 (List.getElem_mem hi'), _,
        (hmem _).1 (List.getElem_mem hi), b1, b2⟩

end Verif.Transformers

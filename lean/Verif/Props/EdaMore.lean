import Verif.Model.EdaMore
import Verif.Spec.EdaMore
import Verif.Lemmas.Eda
import Mathlib.Tactic

/-!
# C73: the informative exploratory checks

The correlation with population depends on orders only; the explanatory powers of geo and time are
shares of the variation, together at most one; prior probabilities are shares and averages of draws.
-/

namespace Verif.EdaMore.Props

open Verif.Eda Verif.Eda.Spec Verif.EdaMore.Spec Finset

variable {ι κ : Type} [Fintype ι] [Fintype κ]

/-! ### Ranks -/

theorem rank_lt (x : ι → ℝ) {i j : ι} (h : x i < x j) : rank x i < rank x j := by
  classical
  unfold rank
  have hdis : Disjoint (univ.filter fun k => x k < x i) (univ.filter fun k => x k = x i) := by
    rw [Finset.disjoint_left]
    intro k h1 h2
    simp only [mem_filter, mem_univ, true_and] at h1 h2
    exact absurd h2 h1.ne
  have hsub : (univ.filter fun k => x k < x i) ∪ (univ.filter fun k => x k = x i)
      ⊆ univ.filter fun k => x k < x j := by
    intro k hk
    simp only [mem_union, mem_filter, mem_univ, true_and] at hk ⊢
    rcases hk with hk | hk
    · exact hk.trans h
    · rw [hk]; exact h
  have hcard := card_le_card hsub
  rw [card_union_of_disjoint hdis] at hcard
  have h1 : 1 ≤ (univ.filter fun k => x k = x i).card := card_pos.2 ⟨i, by simp⟩
  have h2 : 1 ≤ (univ.filter fun k => x k = x j).card := card_pos.2 ⟨j, by simp⟩
  have hcard' : ((univ.filter fun k => x k < x i).card : ℝ) + (univ.filter fun k => x k = x i).card
      ≤ (univ.filter fun k => x k < x j).card := by exact_mod_cast hcard
  have h1' : (1 : ℝ) ≤ (univ.filter fun k => x k = x i).card := by exact_mod_cast h1
  have h2' : (1 : ℝ) ≤ (univ.filter fun k => x k = x j).card := by exact_mod_cast h2
  linarith

theorem rank_eq (x : ι → ℝ) {i j : ι} (h : x i = x j) : rank x i = rank x j := by
  unfold rank
  rw [h]

theorem rank_order (x : ι → ℝ) : SameOrder (rank x) x := by
  intro i j
  constructor
  · intro h
    by_contra hn
    rcases (not_lt.1 hn).lt_or_eq with h' | h'
    · exact lt_asymm h (rank_lt x h')
    · exact absurd (rank_eq x h') (by linarith)
  · exact rank_lt x

theorem sameOrder_eq {x y : ι → ℝ} (h : SameOrder x y) (i j : ι) : x i = x j ↔ y i = y j := by
  constructor
  · intro e
    have h1 := h i j
    have h2 := h j i
    rw [e] at h1 h2
    simp only [lt_self_iff_false, false_iff, not_lt] at h1 h2
    exact le_antisymm h2 h1
  · intro e
    have h1 := h i j
    have h2 := h j i
    rw [e] at h1 h2
    simp only [lt_self_iff_false, iff_false, not_lt] at h1 h2
    exact le_antisymm h2 h1

theorem rank_congr {x y : ι → ℝ} (h : SameOrder x y) : rank x = rank y := by
  funext i
  unfold rank
  simp only [h _ i, sameOrder_eq h _ i]

theorem varies_rank (x : ι → ℝ) : Varies (rank x) ↔ Varies x := by
  unfold Varies
  simp only [ne_eq, sameOrder_eq (rank_order x)]

theorem rank_reverse {x y : ι → ℝ} (h : OppositeOrder x y) (i : ι) :
    rank y i = (Fintype.card ι + 1) + (-1) * rank x i := by
  classical
  have hE : ∀ j, y j = y i ↔ x j = x i := by
    intro j
    have : SameOrder x fun k => - y k := fun a b => by rw [h a b]; simp
    rw [sameOrder_eq this j i]
    simp
  unfold rank
  simp only [hE, ← h i]
  have hu : (univ : Finset ι) = (univ.filter fun j => x j < x i) ∪
      ((univ.filter fun j => x j = x i) ∪ univ.filter fun j => x i < x j) := by
    ext j
    simp only [mem_univ, mem_union, mem_filter, true_and, true_iff]
    exact lt_trichotomy (x j) (x i)
  have hc : Fintype.card ι = (univ.filter fun j => x j < x i).card +
      ((univ.filter fun j => x j = x i).card + (univ.filter fun j => x i < x j).card) := by
    rw [← card_univ]
    conv_lhs => rw [hu]
    rw [card_union_of_disjoint, card_union_of_disjoint]
    · rw [Finset.disjoint_left]
      intro k h1 h2
      simp only [mem_filter, mem_univ, true_and] at h1 h2
      exact absurd h1 h2.ne'
    · rw [Finset.disjoint_left]
      intro k h1 h2
      simp only [mem_union, mem_filter, mem_univ, true_and] at h1 h2
      rcases h2 with h2 | h2
      · exact absurd h2 h1.ne
      · exact lt_asymm h1 h2
  have hc' : (Fintype.card ι : ℝ) = (univ.filter fun j => x j < x i).card +
      ((univ.filter fun j => x j = x i).card + (univ.filter fun j => x i < x j).card) := by
    exact_mod_cast hc
  rw [hc']
  ring

/-! ### Correlation -/

theorem corr_eq {x y : ι → ℝ} (hx : Varies x) (hy : Varies y) :
    corr x y = some (covariation x y / Real.sqrt (variation x * variation y)) := by
  unfold corr
  have h1 : std0 x ≠ 0 := fun h => (std0_eq_zero x).1 h hx
  have h2 : std0 y ≠ 0 := fun h => (std0_eq_zero y).1 h hy
  rw [if_neg (mul_ne_zero h1 h2), ← std0_mul hx, ss_eq, div_div]

theorem corr_none {x y : ι → ℝ} : corr x y = none ↔ ¬ Varies x ∨ ¬ Varies y := by
  unfold corr
  constructor
  · intro h
    split_ifs at h with h0
    rcases mul_eq_zero.1 h0 with h0 | h0
    · exact Or.inl ((std0_eq_zero x).1 h0)
    · exact Or.inr ((std0_eq_zero y).1 h0)
  · rintro (h | h)
    · rw [(std0_eq_zero x).2 h, zero_mul, if_pos rfl]
    · rw [(std0_eq_zero y).2 h, mul_zero, if_pos rfl]

/-- **C73 (population).** The coefficient is undefined exactly if one of the two is constant. -/
theorem spearman_none_iff (x y : ι → ℝ) : spearman x y = none ↔ ¬ Varies x ∨ ¬ Varies y := by
  unfold spearman
  rw [corr_none, varies_rank, varies_rank]

/-- **C73 (population).** The coefficient is between -1 and 1. -/
theorem spearman_bounds (x y : ι → ℝ) (c : ℝ) (h : spearman x y = some c) : -1 ≤ c ∧ c ≤ 1 := by
  have hv : ¬ (¬ Varies x ∨ ¬ Varies y) := by
    rw [← spearman_none_iff, h]
    simp
  push Not at hv
  unfold spearman at h
  rw [corr_eq ((varies_rank x).2 hv.1) ((varies_rank y).2 hv.2)] at h
  rw [← abs_le]
  cases h
  have hp : 0 < Real.sqrt (variation (rank x) * variation (rank y)) :=
    Real.sqrt_pos.2 (mul_pos ((variation_pos _).2 ((varies_rank x).2 hv.1))
      ((variation_pos _).2 ((varies_rank y).2 hv.2)))
  rw [abs_div, abs_of_pos hp, div_le_one hp]
  exact abs_covariation_le _ _

/-- **C73 (population).** Only the orders matter: any increasing change of either column, such as
another unit or a logarithm, leaves the coefficient unchanged. -/
theorem spearman_order_only {x x' y y' : ι → ℝ} (h : SameOrder x x') (h' : SameOrder y y') :
    spearman x y = spearman x' y' := by
  unfold spearman
  rw [rank_congr h, rank_congr h']

theorem covariation_comm (x y : ι → ℝ) : covariation x y = covariation y x := by
  unfold covariation
  exact Finset.sum_congr rfl fun s _ => mul_comm _ _

/-- **C73 (population).** The two columns can be exchanged. -/
theorem spearman_symm (x y : ι → ℝ) : spearman x y = spearman y x := by
  by_cases h : ¬ Varies x ∨ ¬ Varies y
  · rw [(spearman_none_iff x y).2 h, (spearman_none_iff y x).2 h.symm]
  · push Not at h
    unfold spearman
    rw [corr_eq ((varies_rank x).2 h.1) ((varies_rank y).2 h.2),
      corr_eq ((varies_rank y).2 h.2) ((varies_rank x).2 h.1), covariation_comm, mul_comm]

theorem opposite_varies {x x' : ι → ℝ} (h : OppositeOrder x x') : Varies x' ↔ Varies x := by
  have : SameOrder x fun k => - x' k := fun a b => by rw [h a b]; simp
  unfold Varies
  simp only [ne_eq, sameOrder_eq this, neg_inj]

/-- **C73 (population).** Reversing the order of one column changes the sign. -/
theorem spearman_reverse {x x' : ι → ℝ} (y : ι → ℝ) (h : OppositeOrder x x') :
    spearman x' y = (spearman x y).map (- ·) := by
  by_cases hv : ¬ Varies x ∨ ¬ Varies y
  · rw [(spearman_none_iff x y).2 hv, (spearman_none_iff x' y).2 (by rwa [opposite_varies h])]
    rfl
  · push Not at hv
    unfold spearman
    rw [corr_eq ((varies_rank x').2 ((opposite_varies h).2 hv.1)) ((varies_rank y).2 hv.2),
      corr_eq ((varies_rank x).2 hv.1) ((varies_rank y).2 hv.2), Option.map_some]
    have e1 := variation_affine (rank_reverse h)
    have e2 := covariation_affine (rank_reverse h) (y := rank y) (y' := rank y) (c := 0) (d := 1)
      fun s => by ring
    rw [e1, e2]
    norm_num [neg_div]

/-- **C73 (population).** The coefficient is 1 exactly if both columns put the geos in the same order
with the same ties, and -1 exactly if in opposite orders. -/
theorem spearman_one_iff (x y : ι → ℝ) :
    spearman x y = some 1 ↔ Varies x ∧ SameOrder x y := by
  constructor
  · intro h
    have hv : ¬ (¬ Varies x ∨ ¬ Varies y) := by
      rw [← spearman_none_iff, h]
      simp
    push Not at hv
    refine ⟨hv.1, ?_⟩
    unfold spearman at h
    rw [corr_eq ((varies_rank x).2 hv.1) ((varies_rank y).2 hv.2)] at h
    have hvx := (variation_pos _).2 ((varies_rank x).2 hv.1)
    have hvy := (variation_pos _).2 ((varies_rank y).2 hv.2)
    have hp : 0 < Real.sqrt (variation (rank x) * variation (rank y)) :=
      Real.sqrt_pos.2 (mul_pos hvx hvy)
    have h1 : covariation (rank x) (rank y)
        = Real.sqrt (variation (rank x) * variation (rank y)) := by
      have := Option.some.inj h
      rwa [div_eq_one_iff_eq hp.ne'] at this
    have hcov : 0 < covariation (rank x) (rank y) := h1 ▸ hp
    have hsq : covariation (rank x) (rank y) ^ 2 = variation (rank x) * variation (rank y) := by
      rw [h1, Real.sq_sqrt (mul_pos hvx hvy).le]
    set b := covariation (rank x) (rank y) / variation (rank x) with hb
    have hbpos : 0 < b := div_pos hcov hvx
    have hz : ∑ s, ((rank y s - avg (rank y)) - b * (rank x s - avg (rank x))) ^ 2 = 0 := by
      have e : ∑ s, ((rank y s - avg (rank y)) - b * (rank x s - avg (rank x))) ^ 2
          = variation (rank y) - 2 * b * covariation (rank x) (rank y)
            + b ^ 2 * variation (rank x) := by
        unfold variation covariation
        rw [Finset.mul_sum, Finset.mul_sum, ← Finset.sum_sub_distrib, ← Finset.sum_add_distrib]
        refine Finset.sum_congr rfl fun s _ => ?_
        ring
      rw [e, hb]
      field_simp
      rw [hsq]
      ring
    have hall : ∀ s, rank y s - avg (rank y) = b * (rank x s - avg (rank x)) := by
      intro s
      have := (Finset.sum_eq_zero_iff_of_nonneg fun s _ => sq_nonneg _).1 hz s (mem_univ s)
      have := pow_eq_zero_iff (two_ne_zero) |>.1 this
      linarith
    intro i j
    rw [← rank_order x i j, ← rank_order y i j]
    have hi := hall i
    have hj := hall j
    constructor
    · intro h
      have : b * (rank x i - avg (rank x)) < b * (rank x j - avg (rank x)) :=
        mul_lt_mul_of_pos_left (by linarith) hbpos
      linarith
    · intro h
      have : b * (rank x i - avg (rank x)) < b * (rank x j - avg (rank x)) := by linarith
      have := lt_of_mul_lt_mul_left this hbpos.le
      linarith
  · rintro ⟨hv, h⟩
    unfold spearman
    rw [← rank_congr h, corr_eq ((varies_rank x).2 hv) ((varies_rank x).2 hv), covariation_self,
      Real.sqrt_mul_self (variation_nonneg _), div_self]
    exact ((variation_pos _).2 ((varies_rank x).2 hv)).ne'

theorem spearman_minus_one_iff (x y : ι → ℝ) :
    spearman x y = some (-1) ↔ Varies x ∧ OppositeOrder x y := by
  have h : OppositeOrder x fun i => - x i := fun i j => by simp
  have hr := spearman_reverse y h
  have : spearman x y = some (-1) ↔ spearman (fun i => - x i) y = some 1 := by
    rw [hr]
    cases spearman x y with
    | none => simp
    | some c =>
      simp only [Option.some.injEq, Option.map_some]
      constructor <;> intro h <;> linarith
  rw [this, spearman_one_iff, opposite_varies h]
  refine and_congr_right fun _ => ?_
  unfold SameOrder OppositeOrder
  simp only [neg_lt_neg_iff]
  exact forall_comm

/-- Without ties the ranks are the numbers from one. -/
theorem rank_sums (x : ι → ℝ) (hx : Function.Injective x) :
    ∀ f : ℝ → ℝ, ∑ i, f (rank x i) = ∑ k ∈ range (Fintype.card ι), f (k + 1) := by
  classical
  intro f
  set L : ι → ℕ := fun i => (univ.filter fun j => x j < x i).card with hL
  have hr : ∀ i, rank x i = L i + 1 := by
    intro i
    have : (univ.filter fun j => x j = x i) = {i} := by
      ext j
      simp [hx.eq_iff]
    unfold rank
    rw [this]
    simp only [card_singleton, Nat.cast_one, hL]
    norm_num
  have hinj : Function.Injective L := by
    intro i j hij
    have : rank x i = rank x j := by rw [hr, hr, hij]
    have := (sameOrder_eq (rank_order x) i j).1 this
    exact hx this
  have hlt : ∀ i, L i < Fintype.card ι := by
    intro i
    rw [← card_univ]
    apply card_lt_card
    rw [Finset.ssubset_univ_iff]
    intro h
    have : i ∈ univ.filter fun j => x j < x i := by
      rw [h]
      exact mem_univ i
    simp at this
  have himg : univ.image L = range (Fintype.card ι) := by
    apply Finset.eq_of_subset_of_card_le
    · intro k hk
      obtain ⟨i, _, rfl⟩ := mem_image.1 hk
      exact mem_range.2 (hlt i)
    · rw [card_image_of_injective _ hinj, card_range, card_univ]
  rw [← himg, Finset.sum_image fun i _ j _ h => hinj h]
  exact Finset.sum_congr rfl fun i _ => by rw [hr]

theorem sum_first (n : ℕ) : ∑ k ∈ range n, ((k : ℝ) + 1) = (n : ℝ) * (n + 1) / 2 := by
  induction n with
  | zero => simp
  | succ n ih =>
    rw [sum_range_succ, ih]
    push_cast
    ring

theorem sum_squares (n : ℕ) : ∑ k ∈ range n, ((k : ℝ) + 1) ^ 2 = (n : ℝ) * (n + 1) * (2 * n + 1) / 6 := by
  induction n with
  | zero => simp
  | succ n ih =>
    rw [sum_range_succ, ih]
    push_cast
    ring

/-- **C73 (population).** Without ties this is Spearman's formula: one minus six times the sum of the
squared differences of ranks, divided by `n (n² - 1)`. -/
theorem spearman_formula (x y : ι → ℝ) (hx : Function.Injective x) (hy : Function.Injective y)
    (hn : 2 ≤ Fintype.card ι) :
    spearman x y = some (1 - 6 * (∑ i, (rank x i - rank y i) ^ 2)
      / (Fintype.card ι * ((Fintype.card ι : ℝ) ^ 2 - 1))) := by
  set n : ℝ := (Fintype.card ι : ℝ) with hnn
  have hn' : (2 : ℝ) ≤ n := by rw [hnn]; exact_mod_cast hn
  have hv : ∀ z : ι → ℝ, Function.Injective z → Varies z := by
    intro z hz
    obtain ⟨i, j, hij⟩ := Fintype.one_lt_card_iff.1 (show 1 < Fintype.card ι by omega)
    exact ⟨i, j, fun h => hij (hz h)⟩
  have havg : ∀ z : ι → ℝ, Function.Injective z → avg (rank z) = (n + 1) / 2 := by
    intro z hz
    unfold avg
    have := rank_sums z hz id
    simp only [id] at this
    rw [this, sum_first, ← hnn]
    field_simp
  have hss : ∀ z : ι → ℝ, Function.Injective z → ∑ i, rank z i ^ 2
      = n * (n + 1) * (2 * n + 1) / 6 := by
    intro z hz
    rw [rank_sums z hz fun v => v ^ 2, sum_squares]
  have hs : ∀ z : ι → ℝ, Function.Injective z → ∑ i, rank z i = n * (n + 1) / 2 := by
    intro z hz
    have := rank_sums z hz id
    simp only [id] at this
    rw [this, sum_first]
  have hvar : ∀ z : ι → ℝ, Function.Injective z → variation (rank z) = n * (n ^ 2 - 1) / 12 := by
    intro z hz
    unfold variation
    rw [havg z hz]
    have e : ∑ i, (rank z i - (n + 1) / 2) ^ 2
        = ∑ i, rank z i ^ 2 - (n + 1) * ∑ i, rank z i + n * ((n + 1) / 2) ^ 2 := by
      rw [Finset.mul_sum, ← Finset.sum_sub_distrib]
      have : n * ((n + 1) / 2) ^ 2 = ∑ _i : ι, ((n + 1) / 2) ^ 2 := by
        rw [Finset.sum_const, card_univ, nsmul_eq_mul]
      rw [this, ← Finset.sum_add_distrib]
      exact Finset.sum_congr rfl fun i _ => by ring
    rw [e, hss z hz, hs z hz]
    ring
  have hd : ∑ i, (rank x i - rank y i) ^ 2
      = variation (rank x) + variation (rank y) - 2 * covariation (rank x) (rank y) := by
    unfold variation covariation
    rw [havg x hx, havg y hy, Finset.mul_sum, ← Finset.sum_add_distrib, ← Finset.sum_sub_distrib]
    exact Finset.sum_congr rfl fun i _ => by ring
  unfold spearman
  rw [corr_eq ((varies_rank x).2 (hv x hx)) ((varies_rank y).2 (hv y hy))]
  congr 1
  rw [hvar x hx, hvar y hy] at *
  have h1 : 0 < n ^ 2 - 1 := by nlinarith
  have hpos : 0 < n * (n ^ 2 - 1) := mul_pos (by linarith) h1
  rw [Real.sqrt_mul_self (by positivity), hd]
  have h2 : n ≠ 0 := by linarith
  have h3 : n ^ 2 - 1 ≠ 0 := h1.ne'
  field_simp
  ring

/-- Three geos whose population and media have the same order except for one exchange. -/
example : spearman (ι := Fin 3) ![1, 5, 30] ![10, 400, 20] = some (1 / 2) := by
  have hx : Function.Injective (![1, 5, 30] : Fin 3 → ℝ) := by
    intro i j
    fin_cases i <;> fin_cases j <;> norm_num
  have hy : Function.Injective (![10, 400, 20] : Fin 3 → ℝ) := by
    intro i j
    fin_cases i <;> fin_cases j <;> norm_num
  have rx : ∀ x : Fin 3 → ℝ, ∀ i, rank x i
      = (∑ j, if x j < x i then (1 : ℝ) else 0) + ((∑ j, if x j = x i then (1 : ℝ) else 0) + 1) / 2 := by
    intro x i
    unfold rank
    rw [Finset.sum_boole, Finset.sum_boole]
  rw [spearman_formula _ _ hx hy (by simp)]
  congr 1
  have e1 : (![1, 5, 30] : Fin 3 → ℝ) 2 = 30 := rfl
  have e2 : (![10, 400, 20] : Fin 3 → ℝ) 2 = 20 := rfl
  simp only [rx, Fin.sum_univ_three, Fintype.card_fin, e1, e2]
  norm_num [Matrix.cons_val_zero, Matrix.cons_val_one]

/-! ### Variation by geo and time -/

section
variable {G T : ℕ}

theorem sum_split (f : Fin T → ℝ) (h : ℝ) :
    ∑ t, (f t - h) ^ 2 = ∑ t, (f t - (∑ t, f t) / T) ^ 2 + T * ((∑ t, f t) / T - h) ^ 2 := by
  rcases Nat.eq_zero_or_pos T with rfl | hT
  · simp
  have hT' : (T : ℝ) ≠ 0 := by exact_mod_cast hT.ne'
  set m := (∑ t, f t) / T with hm
  have hs : ∑ t, f t = T * m := by rw [hm]; field_simp
  have e1 : ∀ a : ℝ, ∑ t, (f t - a) ^ 2 = ∑ t, f t ^ 2 - 2 * a * ∑ t, f t + T * a ^ 2 := by
    intro a
    have : (T : ℝ) * a ^ 2 = ∑ _t : Fin T, a ^ 2 := by simp
    rw [this, Finset.mul_sum, ← Finset.sum_sub_distrib, ← Finset.sum_add_distrib]
    exact Finset.sum_congr rfl fun t _ => by ring
  rw [e1 h, e1 m, hs]
  ring

theorem avg_cells (v : Var G T) : avg (cells v) = allAvg v := by
  unfold avg cells allAvg
  rw [Fintype.card_prod, Fintype.card_fin, Fintype.card_fin, Fintype.sum_prod_type]
  push_cast
  rfl

theorem total_eq (v : Var G T) : ss (cells v) (cells v) = total v := by
  rw [ss_self]
  unfold variation total
  rw [avg_cells, Fintype.sum_prod_type]
  rfl

theorem total_split_geo (v : Var G T) : total v = withinGeos v + betweenGeos v := by
  unfold total withinGeos betweenGeos
  rw [Finset.mul_sum, ← Finset.sum_add_distrib]
  exact Finset.sum_congr rfl fun g _ => sum_split _ _

theorem total_split_time (v : Var G T) : total v = withinTimes v + betweenTimes v := by
  unfold total withinTimes betweenTimes
  rw [Finset.sum_comm, Finset.mul_sum, ← Finset.sum_add_distrib]
  exact Finset.sum_congr rfl fun t _ => sum_split (fun g => v g t) _

theorem rss_geo (v : Var G T) : rssBy Prod.fst (cells v) = withinGeos v := by
  unfold rssBy
  apply IsLeast.csInf_eq
  constructor
  · refine ⟨geoAvg v, ?_⟩
    rw [Fintype.sum_prod_type]
    rfl
  · rintro r ⟨h, rfl⟩
    rw [Fintype.sum_prod_type]
    refine Finset.sum_le_sum fun g _ => ?_
    have := sum_split (fun t => v g t) (h g)
    simp only [cells, geoAvg]
    rw [this]
    have : 0 ≤ (T : ℝ) * ((∑ t, v g t) / T - h g) ^ 2 := by positivity
    linarith

theorem rss_time (v : Var G T) : rssBy Prod.snd (cells v) = withinTimes v := by
  unfold rssBy
  apply IsLeast.csInf_eq
  constructor
  · refine ⟨timeAvg v, ?_⟩
    rw [Fintype.sum_prod_type, Finset.sum_comm]
    rfl
  · rintro r ⟨h, rfl⟩
    rw [Fintype.sum_prod_type, Finset.sum_comm]
    refine Finset.sum_le_sum fun t _ => ?_
    have := sum_split (fun g => v g t) (h t)
    simp only [cells, timeAvg]
    rw [this]
    have : 0 ≤ (G : ℝ) * ((∑ g, v g t) / G - h t) ^ 2 := by positivity
    linarith

theorem withinGeos_nonneg (v : Var G T) : 0 ≤ withinGeos v :=
  Finset.sum_nonneg fun _ _ => Finset.sum_nonneg fun _ _ => sq_nonneg _

theorem withinTimes_nonneg (v : Var G T) : 0 ≤ withinTimes v :=
  Finset.sum_nonneg fun _ _ => Finset.sum_nonneg fun _ _ => sq_nonneg _

theorem betweenGeos_nonneg (v : Var G T) : 0 ≤ betweenGeos v :=
  mul_nonneg (Nat.cast_nonneg _) (Finset.sum_nonneg fun _ _ => sq_nonneg _)

theorem betweenTimes_nonneg (v : Var G T) : 0 ≤ betweenTimes v :=
  mul_nonneg (Nat.cast_nonneg _) (Finset.sum_nonneg fun _ _ => sq_nonneg _)

theorem total_pos (v : Var G T) : 0 < total v ↔ ∃ g t g' t', v g t ≠ v g' t' := by
  rw [← total_eq, ss_self, variation_pos]
  unfold Varies cells
  constructor
  · rintro ⟨s, s', h⟩
    exact ⟨s.1, s.2, s'.1, s'.2, h⟩
  · rintro ⟨g, t, g', t', h⟩
    exact ⟨(g, t), (g', t'), h⟩

/-- **C73 (explained).** R-squared of the geo regression is the share of the variation that is between
geos; of the time regression, the share between periods. -/
theorem rsq_shares (v : Var G T) (h : ∃ g t g' t', v g t ≠ v g' t') :
    rsq Prod.fst (cells v) = betweenGeos v / total v ∧
    rsq Prod.snd (cells v) = betweenTimes v / total v := by
  have hp := ((total_pos v).2 h).ne'
  unfold rsq
  rw [rss_geo, rss_time, total_eq]
  constructor
  · have := total_split_geo v
    field_simp
    linarith
  · have := total_split_time v
    field_simp
    linarith

/-- **C73 (explained).** Each is between zero and one. -/
theorem rsq_bounds (v : Var G T) (h : ∃ g t g' t', v g t ≠ v g' t') :
    (0 ≤ rsq Prod.fst (cells v) ∧ rsq Prod.fst (cells v) ≤ 1) ∧
    (0 ≤ rsq Prod.snd (cells v) ∧ rsq Prod.snd (cells v) ≤ 1) := by
  have hp := (total_pos v).2 h
  rw [(rsq_shares v h).1, (rsq_shares v h).2, div_le_one hp, div_le_one hp]
  refine ⟨⟨div_nonneg (betweenGeos_nonneg v) hp.le, ?_⟩,
    ⟨div_nonneg (betweenTimes_nonneg v) hp.le, ?_⟩⟩
  · linarith [total_split_geo v, withinGeos_nonneg v]
  · linarith [total_split_time v, withinTimes_nonneg v]

theorem sum_geo (v : Var G T) (g : Fin G) : ∑ t, v g t = T * geoAvg v g := by
  unfold geoAvg
  rcases Nat.eq_zero_or_pos T with rfl | hT
  · simp
  · have : (T : ℝ) ≠ 0 := by exact_mod_cast hT.ne'
    field_simp

theorem sum_time (v : Var G T) (t : Fin T) : ∑ g, v g t = G * timeAvg v t := by
  unfold timeAvg
  rcases Nat.eq_zero_or_pos G with rfl | hG
  · simp
  · have : (G : ℝ) ≠ 0 := by exact_mod_cast hG.ne'
    field_simp

theorem sum_all (v : Var G T) : ∑ g, ∑ t, v g t = G * T * allAvg v := by
  unfold allAvg
  rcases Nat.eq_zero_or_pos G with rfl | hG
  · simp
  rcases Nat.eq_zero_or_pos T with rfl | hT
  · simp
  have h1 : (G : ℝ) ≠ 0 := by exact_mod_cast hG.ne'
  have h2 : (T : ℝ) ≠ 0 := by exact_mod_cast hT.ne'
  field_simp

/-- What is left after both. -/
theorem interaction (v : Var G T) :
    ∑ g, ∑ t, (v g t - geoAvg v g - timeAvg v t + allAvg v) ^ 2
      = total v - betweenGeos v - betweenTimes v := by
  rcases Nat.eq_zero_or_pos G with rfl | hG
  · simp [total, betweenGeos, betweenTimes]
  rcases Nat.eq_zero_or_pos T with rfl | hT
  · simp [total, betweenGeos, betweenTimes]
  have h1 : (G : ℝ) ≠ 0 := by exact_mod_cast hG.ne'
  have h2 : (T : ℝ) ≠ 0 := by exact_mod_cast hT.ne'
  set m := allAvg v with hm
  set a : Fin G → ℝ := fun g => geoAvg v g - m with ha
  set b : Fin T → ℝ := fun t => timeAvg v t - m with hb
  have hsa : ∑ g, a g = 0 := by
    have : ∑ g, geoAvg v g = G * m := by
      have e := sum_all v
      simp only [sum_geo, ← Finset.mul_sum] at e
      have : (T : ℝ) * ∑ g, geoAvg v g = T * (G * m) := by rw [e, hm]; ring
      exact mul_left_cancel₀ h2 this
    rw [ha, Finset.sum_sub_distrib, this]
    simp
  have hea : ∑ g, ∑ t, (v g t - m) * a g = T * ∑ g, a g ^ 2 := by
    rw [Finset.mul_sum]
    refine Finset.sum_congr rfl fun g _ => ?_
    rw [← Finset.sum_mul, Finset.sum_sub_distrib, sum_geo]
    simp only [Finset.sum_const, card_univ, Fintype.card_fin, nsmul_eq_mul, ha]
    ring
  have heb : ∑ g, ∑ t, (v g t - m) * b t = G * ∑ t, b t ^ 2 := by
    rw [Finset.sum_comm, Finset.mul_sum]
    refine Finset.sum_congr rfl fun t _ => ?_
    rw [← Finset.sum_mul, Finset.sum_sub_distrib, sum_time]
    simp only [Finset.sum_const, card_univ, Fintype.card_fin, nsmul_eq_mul, hb]
    ring
  have hab : ∑ g, ∑ t, a g * b t = 0 := by
    simp only [← Finset.mul_sum, ← Finset.sum_mul, hsa, zero_mul]
  have haa : ∑ g, ∑ _t : Fin T, a g ^ 2 = T * ∑ g, a g ^ 2 := by
    rw [Finset.mul_sum]
    simp
  have hbb : ∑ _g : Fin G, ∑ t, b t ^ 2 = G * ∑ t, b t ^ 2 := by simp
  have e : ∑ g, ∑ t, (v g t - geoAvg v g - timeAvg v t + m) ^ 2
      = ∑ g, ∑ t, (v g t - m) ^ 2 + ∑ g, ∑ _t : Fin T, a g ^ 2 + ∑ _g : Fin G, ∑ t, b t ^ 2
        - 2 * ∑ g, ∑ t, (v g t - m) * a g - 2 * ∑ g, ∑ t, (v g t - m) * b t
        + 2 * ∑ g, ∑ t, a g * b t := by
    simp only [Finset.mul_sum, ← Finset.sum_add_distrib, ← Finset.sum_sub_distrib]
    refine Finset.sum_congr rfl fun g _ => Finset.sum_congr rfl fun t _ => ?_
    simp only [ha, hb]
    ring
  rw [e, hea, heb, hab, haa, hbb]
  unfold total betweenGeos betweenTimes
  simp only [ha, hb, ← hm]
  ring

theorem additive_residual (v : Var G T) (h : Additive v) (g : Fin G) (t : Fin T) :
    v g t - geoAvg v g - timeAvg v t + allAvg v = 0 := by
  obtain ⟨a, b, hv⟩ := h
  have hG : (G : ℝ) ≠ 0 := by
    have := g.pos
    exact_mod_cast this.ne'
  have hT : (T : ℝ) ≠ 0 := by
    have := t.pos
    exact_mod_cast this.ne'
  unfold geoAvg timeAvg allAvg
  simp only [hv, Finset.sum_add_distrib, Finset.sum_const, card_univ, Fintype.card_fin, nsmul_eq_mul,
    ← Finset.mul_sum]
  field_simp
  ring

/-- **C73 (explained).** Geo and time together never explain more than everything, and everything
exactly if the variable is a geo effect plus a time effect. -/
theorem rsq_sum (v : Var G T) (h : ∃ g t g' t', v g t ≠ v g' t') :
    rsq Prod.fst (cells v) + rsq Prod.snd (cells v) ≤ 1 ∧
    (rsq Prod.fst (cells v) + rsq Prod.snd (cells v) = 1 ↔ Additive v) := by
  have hp := (total_pos v).2 h
  rw [(rsq_shares v h).1, (rsq_shares v h).2, ← add_div, div_le_one hp, div_eq_one_iff_eq hp.ne']
  have hi := interaction v
  have hn : 0 ≤ ∑ g, ∑ t, (v g t - geoAvg v g - timeAvg v t + allAvg v) ^ 2 :=
    Finset.sum_nonneg fun _ _ => Finset.sum_nonneg fun _ _ => sq_nonneg _
  refine ⟨by linarith, ?_, ?_⟩
  · intro he
    have hz : ∑ g, ∑ t, (v g t - geoAvg v g - timeAvg v t + allAvg v) ^ 2 = 0 := by
      rw [hi]; linarith
    refine ⟨fun g => geoAvg v g, fun t => timeAvg v t - allAvg v, fun g t => ?_⟩
    have h1 := (Finset.sum_eq_zero_iff_of_nonneg fun _ _ =>
      Finset.sum_nonneg fun _ _ => sq_nonneg _).1 hz g (mem_univ g)
    have h2 := (Finset.sum_eq_zero_iff_of_nonneg fun _ _ => sq_nonneg _).1 h1 t (mem_univ t)
    have := pow_eq_zero_iff (two_ne_zero) |>.1 h2
    linarith
  · intro ha
    have : ∑ g, ∑ t, (v g t - geoAvg v g - timeAvg v t + allAvg v) ^ 2 = 0 := by
      refine Finset.sum_eq_zero fun g _ => Finset.sum_eq_zero fun t _ => ?_
      rw [additive_residual v ha, zero_pow two_ne_zero]
    linarith

theorem withinGeos_zero (v : Var G T) : withinGeos v = 0 ↔ ∀ g t t', v g t = v g t' := by
  unfold withinGeos
  constructor
  · intro hz g t t'
    have h1 := (Finset.sum_eq_zero_iff_of_nonneg fun _ _ =>
      Finset.sum_nonneg fun _ _ => sq_nonneg _).1 hz g (mem_univ g)
    have h2 := fun t => pow_eq_zero_iff (two_ne_zero) |>.1
      ((Finset.sum_eq_zero_iff_of_nonneg fun _ _ => sq_nonneg _).1 h1 t (mem_univ t))
    linarith [h2 t, h2 t']
  · intro hc
    refine Finset.sum_eq_zero fun g _ => Finset.sum_eq_zero fun t _ => ?_
    have hT : (T : ℝ) ≠ 0 := by
      have := t.pos
      exact_mod_cast this.ne'
    have : geoAvg v g = v g t := by
      unfold geoAvg
      rw [Finset.sum_congr rfl fun t' _ => hc g t' t]
      simp only [Finset.sum_const, card_univ, Fintype.card_fin, nsmul_eq_mul]
      field_simp
    rw [this]
    ring

theorem withinTimes_zero (v : Var G T) : withinTimes v = 0 ↔ ∀ t g g', v g t = v g' t := by
  have := withinGeos_zero (G := T) (T := G) fun t g => v g t
  exact this

/-! ### The reported entries -/

theorem std1_small (v : Var G T) (hG : 2 ≤ G) (hT : 2 ≤ T) :
    (∃ s, std1 (cells v) = some s ∧ s < 1 / 10000) ↔ total v / (G * T - 1) < 1 / 100000000 := by
  have hc : Fintype.card (Fin G × Fin T) = G * T := by simp
  have h4 : 4 ≤ G * T := by nlinarith
  unfold std1
  rw [if_neg (by rw [hc]; omega), total_eq, hc]
  push_cast
  have hn : 0 ≤ total v := by
    rw [← total_eq, ss_self]
    exact variation_nonneg _
  have h4' : (4 : ℝ) ≤ G * T := by exact_mod_cast h4
  have hq : 0 ≤ total v / (G * T - 1) := div_nonneg hn (by linarith)
  have key : Real.sqrt (total v / (G * T - 1)) < 1 / 10000 ↔ total v / (G * T - 1) < 1 / 100000000 := by
    rw [Real.sqrt_lt hq (by norm_num)]
    norm_num
  rw [← key]
  constructor
  · rintro ⟨s, hs, hlt⟩
    cases hs
    exact hlt
  · intro h
    exact ⟨_, rfl, h⟩

open Classical in
/-- **C73 (explained).** With several geos and periods the report has one entry for each variable in
their order: the adjusted shares explained by geo and by time, or no number for a variable whose
standard deviation is below 0.0001. -/
theorem collinearity_entries (ds : List (String × Var G T)) (hG : 2 ≤ G) (hT : 2 ≤ T) :
    collinearity ds = .ok (ds.map fun v => (v.1,
      (if total v.2 / (G * T - 1) < 1 / 100000000 then none else some (adjustedGeo v.2)),
      (if total v.2 / (G * T - 1) < 1 / 100000000 then none else some (adjustedTime v.2)))) := by
  have hc : Fintype.card (Fin G × Fin T) = G * T := by simp
  have hG' : (2 : ℝ) ≤ G := by exact_mod_cast hG
  have hT' : (2 : ℝ) ≤ T := by exact_mod_cast hT
  unfold collinearity
  rw [if_neg (by omega)]
  congr 1
  refine List.map_congr_left fun v _ => ?_
  unfold adjRsq
  simp only [std1_small v.2 hG hT, hc, Fintype.card_fin]
  have n1 : ¬ G * T = G := by nlinarith
  have n2 : ¬ G * T = T := by nlinarith
  by_cases h : total v.2 / (G * T - 1) < 1 / 100000000
  · simp only [h, if_true]
  · simp only [h, if_false, n1, n2]
    unfold adjustedGeo adjustedTime rsq
    rw [rss_geo, rss_time, total_eq]
    have e0 : total v.2 ≠ 0 := by
      intro e
      rw [e, zero_div] at h
      exact h (by norm_num)
    have e1 : ((G : ℝ) * T - 1) ≠ 0 := by nlinarith
    have e2 : ((T : ℝ) - 1) ≠ 0 := by linarith
    have e3 : ((G : ℝ) - 1) ≠ 0 := by linarith
    have e4 : (G : ℝ) ≠ 0 := by linarith
    have e5 : (T : ℝ) ≠ 0 := by linarith
    have e6 : ((G : ℝ) * T - G) = G * (T - 1) := by ring
    have e7 : ((G : ℝ) * T - T) = T * (G - 1) := by ring
    push_cast
    rw [e6, e7]
    refine Prod.ext rfl (Prod.ext ?_ ?_)
    · congr 1
      field_simp
      ring
    · congr 1
      field_simp
      ring

/-- **C73 (explained).** Neither check is available for a single geo. -/
theorem single_geo_refused (ds : List (String × Var 1 T)) (pop : Fin 1 → ℝ) :
    collinearity ds = .error () ∧ populationCorr pop ds = .error () := ⟨rfl, rfl⟩

/-- **C73 (explained).** The adjusted shares are at most the shares themselves; they are one exactly
if the variable is constant over time in every geo, or over geos in every period, and positive exactly
if the means differ by more than the variation within would suggest. -/
theorem adjusted_meaning (v : Var G T) (hG : 2 ≤ G) (hT : 2 ≤ T)
    (h : ∃ g t g' t', v g t ≠ v g' t') :
    (adjustedGeo v ≤ betweenGeos v / total v ∧ adjustedTime v ≤ betweenTimes v / total v) ∧
    (adjustedGeo v = 1 ↔ ∀ g t t', v g t = v g t') ∧
    (adjustedTime v = 1 ↔ ∀ t g g', v g t = v g' t) ∧
    (0 < adjustedGeo v ↔ withinGeos v / (G * (T - 1)) < betweenGeos v / (G - 1)) ∧
    (0 < adjustedTime v ↔ withinTimes v / (T * (G - 1)) < betweenTimes v / (T - 1)) := by
  have hp := (total_pos v).2 h
  have hG' : (2 : ℝ) ≤ G := by exact_mod_cast hG
  have hT' : (2 : ℝ) ≤ T := by exact_mod_cast hT
  have p1 : 0 < (G : ℝ) * T - 1 := by nlinarith
  have p2 : 0 < (T : ℝ) - 1 := by linarith
  have p3 : 0 < (G : ℝ) - 1 := by linarith
  have p4 : 0 < (G : ℝ) := by linarith
  have p5 : 0 < (T : ℝ) := by linarith
  have q1 : 0 < (G : ℝ) * (T - 1) := mul_pos p4 p2
  have q2 : 0 < (T : ℝ) * (G - 1) := mul_pos p5 p3
  have s1 := total_split_geo v
  have s2 := total_split_time v
  have w1 := withinGeos_nonneg v
  have w2 := withinTimes_nonneg v
  have eg : adjustedGeo v = 1 - withinGeos v * (G * T - 1) / (G * (T - 1) * total v) := by
    unfold adjustedGeo
    field_simp
  have et : adjustedTime v = 1 - withinTimes v * (G * T - 1) / (T * (G - 1) * total v) := by
    unfold adjustedTime
    field_simp
  have fg : betweenGeos v / total v = 1 - withinGeos v / total v := by
    field_simp
    linarith
  have ft : betweenTimes v / total v = 1 - withinTimes v / total v := by
    field_simp
    linarith
  refine ⟨⟨?_, ?_⟩, ?_, ?_, ?_, ?_⟩
  · rw [eg, fg]
    have : withinGeos v / total v ≤ withinGeos v * (G * T - 1) / (G * (T - 1) * total v) := by
      rw [div_le_div_iff₀ hp (mul_pos q1 hp)]
      have : withinGeos v * total v * (G * (T - 1)) ≤ withinGeos v * total v * (G * T - 1) :=
        mul_le_mul_of_nonneg_left (by nlinarith) (mul_nonneg w1 hp.le)
      nlinarith
    linarith
  · rw [et, ft]
    have : withinTimes v / total v ≤ withinTimes v * (G * T - 1) / (T * (G - 1) * total v) := by
      rw [div_le_div_iff₀ hp (mul_pos q2 hp)]
      have : withinTimes v * total v * (T * (G - 1)) ≤ withinTimes v * total v * (G * T - 1) :=
        mul_le_mul_of_nonneg_left (by nlinarith) (mul_nonneg w2 hp.le)
      nlinarith
    linarith
  · rw [← withinGeos_zero, eg, sub_eq_self, div_eq_zero_iff, mul_eq_zero]
    constructor
    · rintro ((h | h) | h)
      · exact h
      · exact absurd h p1.ne'
      · exact absurd h (mul_pos q1 hp).ne'
    · exact fun h => Or.inl (Or.inl h)
  · rw [← withinTimes_zero, et, sub_eq_self, div_eq_zero_iff, mul_eq_zero]
    constructor
    · rintro ((h | h) | h)
      · exact h
      · exact absurd h p1.ne'
      · exact absurd h (mul_pos q2 hp).ne'
    · exact fun h => Or.inl (Or.inl h)
  · rw [eg, sub_pos, div_lt_one (mul_pos q1 hp), div_lt_div_iff₀ q1 p3, s1]
    constructor <;> intro h <;> nlinarith
  · rw [et, sub_pos, div_lt_one (mul_pos q2 hp), div_lt_div_iff₀ q2 p2, s2]
    constructor <;> intro h <;> nlinarith

/-- A variable in other units. -/
theorem shares_scale (v w : Var G T) (a b : ℝ) (hb : b ≠ 0) (hw : ∀ g t, w g t = a + b * v g t) :
    total w = b ^ 2 * total v ∧ withinGeos w = b ^ 2 * withinGeos v ∧
      withinTimes w = b ^ 2 * withinTimes v := by
  rcases Nat.eq_zero_or_pos G with rfl | hG
  · simp [total, withinGeos, withinTimes]
  rcases Nat.eq_zero_or_pos T with rfl | hT
  · simp [total, withinGeos, withinTimes]
  have h1 : (G : ℝ) ≠ 0 := by exact_mod_cast hG.ne'
  have h2 : (T : ℝ) ≠ 0 := by exact_mod_cast hT.ne'
  have eg : ∀ g, geoAvg w g = a + b * geoAvg v g := by
    intro g
    unfold geoAvg
    simp only [hw, Finset.sum_add_distrib, ← Finset.mul_sum, Finset.sum_const, card_univ,
      Fintype.card_fin, nsmul_eq_mul]
    field_simp
  have et : ∀ t, timeAvg w t = a + b * timeAvg v t := by
    intro t
    unfold timeAvg
    simp only [hw, Finset.sum_add_distrib, ← Finset.mul_sum, Finset.sum_const, card_univ,
      Fintype.card_fin, nsmul_eq_mul]
    field_simp
  have ea : allAvg w = a + b * allAvg v := by
    unfold allAvg
    simp only [hw, Finset.sum_add_distrib, ← Finset.mul_sum, Finset.sum_const, card_univ,
      Fintype.card_fin, nsmul_eq_mul]
    field_simp
  unfold total withinGeos withinTimes
  simp only [Finset.mul_sum, hw, eg, et, ea]
  refine ⟨?_, ?_, ?_⟩ <;>
    exact Finset.sum_congr rfl fun _ _ => Finset.sum_congr rfl fun _ _ => by ring

/-- **C73 (explained).** The shares do not depend on the unit of the variable. -/
theorem adjusted_unit_free (v w : Var G T) (a b : ℝ) (hb : b ≠ 0)
    (hw : ∀ g t, w g t = a + b * v g t) :
    adjustedGeo w = adjustedGeo v ∧ adjustedTime w = adjustedTime v := by
  obtain ⟨h1, h2, h3⟩ := shares_scale v w a b hb hw
  have hb2 : b ^ 2 ≠ 0 := pow_ne_zero 2 hb
  unfold adjustedGeo adjustedTime
  rw [h1, h2, h3]
  simp only [mul_div_assoc, mul_div_mul_left _ _ hb2, and_self]

/-- **C73 (explained).** But whether they are reported does: the threshold for a constant variable is
absolute. -/
theorem collinearity_unit_matters :
    ∃ (v w : Var 2 2), (∀ g t, w g t = 1000000 * v g t) ∧
      collinearity [("x", v)] = .ok [("x", none, none)] ∧
      collinearity [("x", w)] = .ok [("x", some 1, some (-1 / 2))] := by
  have tv : ∀ c : ℝ, total (G := 2) (T := 2) (fun g _ => if g = 0 then 0 else c) = c ^ 2 := by
    intro c
    unfold total allAvg
    simp [Fin.sum_univ_two]
    ring
  refine ⟨fun g _ => if g = 0 then 0 else 1 / 100000, fun g _ => if g = 0 then 0 else 10, ?_, ?_, ?_⟩
  · intro g t
    show (if g = 0 then (0 : ℝ) else 10) = 1000000 * (if g = 0 then (0 : ℝ) else 1 / 100000)
    split_ifs <;> norm_num
  · rw [collinearity_entries _ le_rfl le_rfl]
    simp only [List.map_cons, List.map_nil, tv]
    norm_num
  · rw [collinearity_entries _ le_rfl le_rfl]
    simp only [List.map_cons, List.map_nil, tv]
    have e1 : adjustedGeo (G := 2) (T := 2) (fun g _ => if g = 0 then 0 else 10) = 1 := by
      unfold adjustedGeo
      rw [tv]
      unfold withinGeos geoAvg
      simp [Fin.sum_univ_two]
    have e2 : adjustedTime (G := 2) (T := 2) (fun g _ => if g = 0 then 0 else 10) = -1 / 2 := by
      unfold adjustedTime
      rw [tv]
      unfold withinTimes timeAvg
      simp [Fin.sum_univ_two]
      norm_num
    rw [e1, e2]
    norm_num

/-- **C73, what does not hold.** For a variable that is constant over time in every geo, but not over
geos, the share explained by time is announced to be NaN; it is a negative number that depends on the
numbers of geos and periods only. -/
theorem constant_over_time_not_nan (n : String) (v : Var G T) (hG : 2 ≤ G) (hT : 2 ≤ T)
    (hc : ∀ g t t', v g t = v g t') (hbig : 1 / 100000000 ≤ total v / (G * T - 1)) :
    ∃ r : ℝ, r = - ((T - 1) / (T * (G - 1))) ∧ r < 0 ∧
      collinearity [(n, v)] = .ok [(n, some 1, some r)] := by
  have hG' : (2 : ℝ) ≤ G := by exact_mod_cast hG
  have hT' : (2 : ℝ) ≤ T := by exact_mod_cast hT
  have p1 : 0 < (G : ℝ) * T - 1 := by nlinarith
  have p2 : 0 < (T : ℝ) - 1 := by linarith
  have p3 : 0 < (G : ℝ) - 1 := by linarith
  have p5 : 0 < (T : ℝ) := by linarith
  have hp : total v ≠ 0 := by
    intro e
    rw [e, zero_div] at hbig
    norm_num at hbig
  refine ⟨_, rfl, neg_lt_zero.2 (div_pos p2 (mul_pos p5 p3)), ?_⟩
  rw [collinearity_entries _ hG hT]
  simp only [List.map_cons, List.map_nil, not_lt.2 hbig, if_false]
  have h1 : adjustedGeo v = 1 := by
    unfold adjustedGeo
    rw [(withinGeos_zero v).2 hc]
    simp
  have hb : betweenTimes v = 0 := by
    have e : ∀ t t', timeAvg v t = timeAvg v t' := by
      intro t t'
      unfold timeAvg
      rw [Finset.sum_congr rfl fun g _ => hc g t t']
    have hall : ∀ t, timeAvg v t = allAvg v := by
      intro t
      have h2 := sum_all v
      rw [Finset.sum_comm] at h2
      simp only [sum_time, fun s => e s t, Finset.sum_const, card_univ, Fintype.card_fin,
        nsmul_eq_mul] at h2
      have h3 : (G : ℝ) * T ≠ 0 := by nlinarith
      apply mul_left_cancel₀ h3
      rw [← h2]
      ring
    unfold betweenTimes
    simp [hall]
  have hw : withinTimes v = total v := by linarith [total_split_time v]
  have h2 : adjustedTime v = - (((T : ℝ) - 1) / (T * (G - 1))) := by
    unfold adjustedTime
    rw [hw]
    field_simp
    ring
  rw [h1, h2]

/-! ### Data and parameters -/

/-- **C73 (data).** The ratio is below one exactly if there are more parameters than data points, and
infinite exactly if there are no parameters: one geo and neither knots, controls nor treatments. -/
theorem ratio_meaning (r : Ratio) (h : 1 ≤ r.geos) :
    (r.ratio < 1 ↔ (r.geos * r.times : ℤ) < r.parameters) ∧
    (r.ratio = ⊤ ↔ r.geos = 1 ∧ r.knots = 0 ∧ r.controls = 0 ∧ r.treatments = 0) ∧
    r.parameters = (r.geos - 1 + r.knots + r.controls + r.treatments : ℕ) := by
  have hp : r.parameters = (r.geos - 1 + r.knots + r.controls + r.treatments : ℕ) := by
    unfold Ratio.parameters
    push_cast [Nat.cast_sub h]
    ring
  refine ⟨?_, ?_, hp⟩
  · unfold Ratio.ratio
    by_cases h0 : 0 < r.parameters
    · rw [if_pos h0]
      have h0' : (0 : ℝ) < r.parameters := by exact_mod_cast h0
      rw [← WithTop.coe_one, WithTop.coe_lt_coe, div_lt_one h0']
      unfold Ratio.dataPoints
      constructor
      · intro h
        exact_mod_cast h
      · intro h
        exact_mod_cast h
    · rw [if_neg h0]
      simp only [not_top_lt, false_iff, not_lt]
      have : (0 : ℤ) ≤ r.geos * r.times := by positivity
      omega
  · unfold Ratio.ratio
    by_cases h0 : 0 < r.parameters
    · rw [if_pos h0]
      simp only [WithTop.coe_ne_top, false_iff]
      omega
    · rw [if_neg h0]
      simp only [true_iff]
      omega

/-- Two geos, ten weeks, three knots, one control, four treatments: two data points per parameter. -/
example : (⟨2, 10, 3, 1, 4⟩ : Ratio).ratio = ((20 / 9 : ℝ) : WithTop ℝ) := by
  unfold Ratio.ratio Ratio.parameters Ratio.dataPoints
  norm_num

/-! ### Prior probabilities -/

/-- **C73 (prior).** The probability of a negative baseline is the share of the draws with a negative
baseline. -/
theorem negative_baseline_bounds (p : Prior) (h : p.baseline ≠ []) :
    0 ≤ p.negativeBaseline ∧ p.negativeBaseline ≤ 1 ∧
    (p.negativeBaseline = 0 ↔ ∀ b ∈ p.baseline, 0 ≤ b) ∧
    (p.negativeBaseline = 1 ↔ ∀ b ∈ p.baseline, b < 0) := by
  have hl : 0 < p.baseline.length := List.length_pos_iff.2 h
  have hl' : (0 : ℝ) < p.baseline.length := by exact_mod_cast hl
  have hle := List.length_filter_le (fun b : ℝ => decide (b < 0)) p.baseline
  have hle' : ((p.baseline.filter fun b => decide (b < 0)).length : ℝ) ≤ p.baseline.length := by
    exact_mod_cast hle
  unfold Prior.negativeBaseline
  refine ⟨by positivity, (div_le_one hl').2 hle', ?_, ?_⟩
  · rw [div_eq_zero_iff]
    constructor
    · rintro (h | h)
      · have : (p.baseline.filter fun b => decide (b < 0)).length = 0 := by exact_mod_cast h
        rw [List.length_eq_zero_iff, List.filter_eq_nil_iff] at this
        intro b hb
        have := this b hb
        simpa using this
      · exact absurd h hl'.ne'
    · intro h
      left
      have : (p.baseline.filter fun b => decide (b < 0)) = [] := by
        rw [List.filter_eq_nil_iff]
        intro b hb
        simpa using h b hb
      rw [this]
      simp
  · rw [div_eq_one_iff_eq hl'.ne']
    rw [Nat.cast_inj, List.length_filter_eq_length_iff]
    simp

/-- **C73 (prior).** Every channel has an entry in its place: the average over the draws of its
incremental outcome, as a share of the observed outcome, and infinite if nothing was observed. -/
theorem contributions_meaning (p : Prior) :
    p.contributions.map Prod.fst = p.channels ∧
    ∀ i (hi : i < p.channels.length), p.contributions[i]? = some (p.channels[i],
      if p.total = 0 then ⊤
      else (((p.incremental.map fun d => d.getD i 0).sum / p.incremental.length / p.total : ℝ) :
        WithTop ℝ)) := by
  constructor
  · unfold Prior.contributions
    rw [List.map_map]
    simp only [Function.comp_def]
    exact List.zipIdx_map_fst _ _
  · intro i hi
    unfold Prior.contributions
    rw [List.getElem?_map, List.getElem?_zipIdx, List.getElem?_eq_getElem hi]
    simp only [Option.map_some, zero_add]
    have : (p.incremental.map fun d => d.getD i 0 / p.total).sum
        = (p.incremental.map fun d => d.getD i 0).sum / p.total := by
      induction p.incremental with
      | nil => simp
      | cons d l ih => simp only [List.map_cons, List.sum_cons, ih, add_div]
    rw [this]
    split_ifs with h
    · rfl
    · congr 3
      ring

/-- **C73 (prior).** The observed outcome is the revenue if the value of a KPI unit is known, and the
KPI otherwise. -/
theorem total_meaning (p : Prior) :
    (∀ r, p.revenuePerKpi = some r → r.length = p.kpi.length →
      p.total = ∑ i ∈ range p.kpi.length, p.kpi.getD i 0 * r.getD i 0) ∧
    (p.revenuePerKpi = none → p.total = p.kpi.sum) := by
  constructor
  · intro r hr hl
    unfold Prior.total
    rw [hr]
    simp only
    clear hr
    generalize p.kpi = k at hl
    induction k generalizing r with
    | nil => simp
    | cons a k ih =>
      cases r with
      | nil => simp at hl
      | cons b r =>
        rw [List.length_cons, Finset.sum_range_succ']
        simp only [List.zipWith_cons_cons, List.sum_cons, List.getD_cons_succ, List.getD_cons_zero]
        rw [ih r (by simpa using hl), add_comm]
  · intro hr
    unfold Prior.total
    rw [hr]

/-- Two channels, two draws: a fifth and a tenth of the outcome, and one of four baselines is
negative. -/
example : (⟨[10, 10], some [1, 2], ["a", "b"], [1, -1, 2, 3], [[6, 3], [6, 3]]⟩ : Prior).contributions
      = [("a", ((1 / 5 : ℝ) : WithTop ℝ)), ("b", ((1 / 10 : ℝ) : WithTop ℝ))] ∧
    (⟨[10, 10], some [1, 2], ["a", "b"], [1, -1, 2, 3], [[6, 3], [6, 3]]⟩ : Prior).negativeBaseline
      = 1 / 4 := by
  constructor
  · unfold Prior.contributions Prior.total
    norm_num [List.zipIdx]
  · unfold Prior.negativeBaseline
    norm_num [List.filter]

end

end Verif.EdaMore.Props

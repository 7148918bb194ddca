import Verif.Model.Optimizer
import Verif.Lemmas.GridSearch2
import Mathlib.Data.List.Sort
import Mathlib.Data.List.Perm.Basic
import Mathlib.Data.Finset.Lattice.Fold
import Mathlib.Tactic.Positivity

/-! Helper lemmas about bounds and grids. -/

namespace Verif.Optimizer

open Verif Verif.GridSearch Verif.GridSearch.Spec Finset

theorem stepSize_pos (rf : ℤ) : 0 < stepSize rf := by unfold stepSize; positivity

theorem zpow_rf {rf : ℤ} (h : rf ≤ 0) : (10 : ℚ) ^ rf = 1 / (stepSize rf : ℚ) := by
  unfold stepSize
  obtain ⟨k, hk⟩ := Int.eq_ofNat_of_zero_le (show 0 ≤ -rf by omega)
  have : rf = -(k : ℤ) := by omega
  subst this
  simp

theorem npRound_step {rf : ℤ} (h : rf ≤ 0) (x : ℚ) :
    npRound x rf = ((rint (x / stepSize rf) * stepSize rf : ℤ) : ℚ) := by
  have hs : (stepSize rf : ℚ) ≠ 0 := by exact_mod_cast (stepSize_pos rf).ne'
  unfold npRound
  rw [zpow_rf h]
  push_cast
  rw [mul_one_div, div_div_eq_mul_div, div_one]

theorem trunc_npRound {rf : ℤ} (h : rf ≤ 0) (x : ℚ) :
    truncInt (npRound x rf) = rint (x / stepSize rf) * stepSize rf := by
  rw [npRound_step h, truncInt_intCast]

theorem getRoundFactor_ok {b g : ℚ} {rf : ℤ} (h : getRoundFactor b g = .ok rf) :
    rf ≤ 0 ∧ g < 1 ∧ 0 < b := by
  unfold getRoundFactor at h
  simp only at h
  split_ifs at h with h1 h2 h3
  · cases h; exact ⟨le_rfl, not_le.1 h1, not_le.1 h2⟩
  · cases h; exact ⟨by omega, not_le.1 h1, not_le.1 h2⟩

theorem validateSpendConstraints_ok {n : ℕ} {l u : List ℚ}
    (h : validateSpendConstraints n l u = .ok ()) :
    (l.length = 1 ∨ l.length = n) ∧ (u.length = 1 ∨ u.length = n) ∧
      (∀ c ∈ l, 0 ≤ c ∧ c ≤ 1) ∧ (∀ c ∈ u, 0 ≤ c) := by
  unfold validateSpendConstraints at h
  split_ifs at h with h1 h2 h3
  push Not at h1 h3
  exact ⟨h1.1, h1.2, by simpa using h2, h3⟩

theorem getD_of_lt {l : List ℚ} {i : ℕ} (h : i < l.length) : l.getD i 0 = l[i] := by
  simp [List.getD, h]

theorem constraintAt_mem {n : ℕ} {l : List ℚ} (h : l.length = 1 ∨ l.length = n) {c : ℕ}
    (hc : c < n) : constraintAt l c ∈ l := by
  unfold constraintAt
  split_ifs with h1
  · rw [getD_of_lt (by omega)]; exact List.getElem_mem _
  · rcases h with h | h
    · exact absurd h h1
    · rw [getD_of_lt (by omega)]; exact List.getElem_mem _

theorem getOptimizationBounds_ok {n : ℕ} {spend : ℕ → ℚ} {rf : ℤ} {l u : List ℚ}
    {lo hi : ℕ → ℤ} (h : getOptimizationBounds n spend rf l u = .ok (lo, hi)) :
    validateSpendConstraints n l u = .ok () ∧
    (lo = fun c => truncInt (npRound (max (1 - constraintAt l c) 0 * roundedSpend spend rf c) rf)) ∧
    (hi = fun c => truncInt (npRound ((1 + constraintAt u c) * roundedSpend spend rf c) rf)) := by
  unfold getOptimizationBounds at h
  cases hv : validateSpendConstraints n l u with
  | error e => rw [hv] at h; cases h
  | ok x =>
    rw [hv] at h
    cases h
    exact ⟨rfl, rfl, rfl⟩

/-- Everything the bounds satisfy, for a non-negative channel spend. -/
theorem bounds_facts {n : ℕ} {spend : ℕ → ℚ} {rf : ℤ} {l u : List ℚ} {lo hi : ℕ → ℤ}
    (hrf : rf ≤ 0) (h : getOptimizationBounds n spend rf l u = .ok (lo, hi)) {c : ℕ} (hc : c < n)
    (hsp : 0 ≤ spend c) :
    stepSize rf ∣ lo c ∧ stepSize rf ∣ hi c ∧ stepSize rf ∣ roundedSpend spend rf c ∧
    0 ≤ lo c ∧ lo c ≤ roundedSpend spend rf c ∧ roundedSpend spend rf c ≤ hi c ∧
    |(roundedSpend spend rf c : ℚ) - spend c| ≤ stepSize rf / 2 ∧
    |(lo c : ℚ) - (1 - constraintAt l c) * spend c| ≤ stepSize rf ∧
    |(hi c : ℚ) - (1 + constraintAt u c) * spend c| ≤
      stepSize rf + constraintAt u c * stepSize rf / 2 := by
  obtain ⟨hv, rfl, rfl⟩ := getOptimizationBounds_ok h
  obtain ⟨hl, hu, hl01, hu0⟩ := validateSpendConstraints_ok hv
  have hcl := hl01 _ (constraintAt_mem hl hc)
  have hcu := hu0 _ (constraintAt_mem hu hc)
  have hspos := stepSize_pos rf
  have hsq : (0 : ℚ) < stepSize rf := by exact_mod_cast hspos
  beta_reduce
  generalize constraintAt l c = cl at hcl ⊢
  generalize constraintAt u c = cu at hcu ⊢
  have hrs : roundedSpend spend rf c = rint (spend c / stepSize rf) * stepSize rf :=
    trunc_npRound hrf _
  have hr0 : 0 ≤ rint (spend c / stepSize rf) := by
    have := rint_mono (show (0 : ℚ) ≤ spend c / stepSize rf by positivity)
    rwa [rint_zero] at this
  have hrsabs : |(roundedSpend spend rf c : ℚ) - spend c| ≤ stepSize rf / 2 := by
    rw [hrs]
    push_cast
    have h1 := abs_rint_sub (spend c / stepSize rf)
    have e : (rint (spend c / stepSize rf) : ℚ) * stepSize rf - spend c
        = ((rint (spend c / stepSize rf) : ℚ) - spend c / stepSize rf) * stepSize rf := by
      field_simp
    rw [e, abs_mul, abs_of_pos hsq]
    nlinarith
  rw [max_eq_left (by linarith)]
  simp only [trunc_npRound hrf]
  rw [hrs]
  set k := rint (spend c / stepSize rf) with hk
  have e1 : (1 - cl) * ((k * stepSize rf : ℤ) : ℚ) / stepSize rf = (1 - cl) * k := by
    push_cast; field_simp
  have e2 : (1 + cu) * ((k * stepSize rf : ℤ) : ℚ) / stepSize rf = (1 + cu) * k := by
    push_cast; field_simp
  rw [e1, e2]
  have hkq : (0 : ℚ) ≤ k := by exact_mod_cast hr0
  have hklo : rint ((1 - cl) * k) ≤ k := by
    have := rint_mono (show (1 - cl) * (k : ℚ) ≤ k by nlinarith)
    rwa [rint_intCast] at this
  have hkhi : k ≤ rint ((1 + cu) * k) := by
    have := rint_mono (show (k : ℚ) ≤ (1 + cu) * k by nlinarith)
    rwa [rint_intCast] at this
  have hlo0 : 0 ≤ rint ((1 - cl) * (k : ℚ)) := by
    have := rint_mono (show (0 : ℚ) ≤ (1 - cl) * k by apply mul_nonneg <;> linarith)
    rwa [rint_zero] at this
  rw [hrs] at hrsabs
  have hab := abs_le.1 hrsabs
  push_cast at hab
  have ha1 := abs_le.1 (abs_rint_sub ((1 - cl) * (k : ℚ)))
  have ha2 := abs_le.1 (abs_rint_sub ((1 + cu) * (k : ℚ)))
  refine ⟨Dvd.intro_left _ rfl, Dvd.intro_left _ rfl, Dvd.intro_left _ rfl, by positivity,
    by gcongr, by gcongr, hrsabs, ?_, ?_⟩
  · push_cast
    generalize (rint ((1 - cl) * (k : ℚ)) : ℚ) = p at ha1
    generalize (stepSize rf : ℚ) = s at *
    generalize (k : ℚ) = q at *
    have hp : |p * s - (1 - cl) * q * s| ≤ s / 2 := by
      rw [show p * s - (1 - cl) * q * s = (p - (1 - cl) * q) * s by ring, abs_mul, abs_of_pos hsq]
      have : |p - (1 - cl) * q| ≤ 1 / 2 := abs_le.2 ha1
      nlinarith
    have hq : |(1 - cl) * q * s - (1 - cl) * spend c| ≤ s / 2 := by
      rw [show (1 - cl) * q * s - (1 - cl) * spend c = (1 - cl) * (q * s - spend c) by ring, abs_mul,
        abs_of_nonneg (by linarith : (0 : ℚ) ≤ 1 - cl)]
      have h1 : |q * s - spend c| ≤ s / 2 := abs_le.2 hab
      have h2 := abs_nonneg (q * s - spend c)
      nlinarith
    calc |p * s - (1 - cl) * spend c|
        = |(p * s - (1 - cl) * q * s) + ((1 - cl) * q * s - (1 - cl) * spend c)| := by ring_nf
      _ ≤ _ := abs_add_le _ _
      _ ≤ s := by linarith
  · push_cast
    generalize (rint ((1 + cu) * (k : ℚ)) : ℚ) = p at ha2
    generalize (stepSize rf : ℚ) = s at *
    generalize (k : ℚ) = q at *
    have hp : |p * s - (1 + cu) * q * s| ≤ s / 2 := by
      rw [show p * s - (1 + cu) * q * s = (p - (1 + cu) * q) * s by ring, abs_mul, abs_of_pos hsq]
      have : |p - (1 + cu) * q| ≤ 1 / 2 := abs_le.2 ha2
      nlinarith
    have hq : |(1 + cu) * q * s - (1 + cu) * spend c| ≤ (1 + cu) * (s / 2) := by
      rw [show (1 + cu) * q * s - (1 + cu) * spend c = (1 + cu) * (q * s - spend c) by ring, abs_mul,
        abs_of_nonneg (by linarith : (0 : ℚ) ≤ 1 + cu)]
      have h1 : |q * s - spend c| ≤ s / 2 := abs_le.2 hab
      have : 0 ≤ 1 + cu := by linarith
      gcongr
    calc |p * s - (1 + cu) * spend c|
        = |(p * s - (1 + cu) * q * s) + ((1 + cu) * q * s - (1 + cu) * spend c)| := by ring_nf
      _ ≤ _ := abs_add_le _ _
      _ ≤ _ := by linarith

/-! ### Grid creation -/

theorem arangeLen_mul {lo hi s : ℤ} {k : ℕ} (hs : 0 < s) (h : hi - lo = k * s) :
    arangeLen lo hi s = k + 1 := by
  unfold arangeLen
  have : -(hi + s - lo) = -(k + 1 : ℤ) * s := by linarith
  rw [this, Int.mul_ediv_cancel _ hs.ne']
  omega

theorem gridRows_mul {n : ℕ} {lo hi : ℕ → ℤ} {s : ℤ} {k : ℕ → ℕ} (hs : 0 < s)
    (h : ∀ c < n, hi c - lo c = k c * s) :
    gridRows n lo hi s = (range n).sup fun c => k c + 1 := by
  unfold gridRows
  cases hm : ((List.range n).map fun c => hi c - lo c).max? with
  | none =>
    rw [List.max?_eq_none_iff] at hm
    have : n = 0 := by simpa using hm
    subst this
    simp
  | some m =>
    rw [List.max?_eq_some_iff] at hm
    obtain ⟨hmem, hmax⟩ := hm
    simp only [List.mem_map, List.mem_range] at hmem hmax
    obtain ⟨c0, hc0, rfl⟩ := hmem
    simp only
    rw [h c0 hc0, Int.mul_ediv_cancel _ hs.ne']
    apply le_antisymm
    · have : k c0 + 1 ≤ (range n).sup fun c => k c + 1 :=
        Finset.le_sup (f := fun c => k c + 1) (mem_range.2 hc0)
      omega
    · apply Finset.sup_le
      intro c hc
      have hc := mem_range.1 hc
      have := hmax _ ⟨c, hc, rfl⟩
      rw [h c hc, h c0 hc0] at this
      have := le_of_mul_le_mul_right this hs
      omega

theorem createSpendGrid_ok {n : ℕ} {lo hi : ℕ → ℤ} {s : ℤ} {k : ℕ → ℕ} (hs : 0 < s)
    (h : ∀ c < n, hi c - lo c = k c * s) :
    createSpendGrid n lo hi s = .ok ((range n).sup fun c => k c + 1, fun r c =>
      if r < arangeLen (lo c) (hi c) s then some ((lo c + r * s : ℤ) : ℚ) else none) := by
  unfold createSpendGrid
  simp only
  rw [gridRows_mul hs h, if_neg]
  push Not
  intro c hc
  rw [arangeLen_mul hs (h c hc)]
  exact Finset.le_sup (f := fun c => k c + 1) (mem_range.2 hc)

/-- A regular grid is NaN in both tables exactly below its columns. -/
structure RegularBoth (G : Grid) (s : ℤ) (K : ℕ → ℕ) (base : ℕ → ℤ) (f : ℕ → ℕ → ℚ) : Prop where
  reg : Regular G s K (fun c => base c) f
  out_nan : ∀ c < G.cols, ∀ r, K c < r → r < G.rows → G.out r c = none
  rows_eq : G.rows = (range G.cols).sup fun c => K c + 1
  cols_pos : 0 < G.cols

theorem rows_pos_of_cols {n : ℕ} (hn : 0 < n) (K : ℕ → ℕ) : 0 < (range n).sup fun c => K c + 1 := by
  have : K 0 + 1 ≤ (range n).sup fun c => K c + 1 :=
    Finset.le_sup (f := fun c => K c + 1) (mem_range.2 hn)
  omega

theorem regular_of_create {n : ℕ} {lo hi : ℕ → ℤ} {s : ℤ} {k : ℕ → ℕ} (hs : 0 < s) (hn : 0 < n)
    (h : ∀ c < n, hi c - lo c = k c * s) (outcome : ℕ → ℕ → ℚ) {rows : ℕ} {cells : ℕ → ℕ → Num}
    (hc : createSpendGrid n lo hi s = .ok (rows, cells)) :
    RegularBoth { rows := rows, cols := n, spend := cells,
                  out := fun r c => (cells r c).map fun _ => outcome r c } s k lo
      (fun c r => outcome r c) := by
  rw [createSpendGrid_ok hs h] at hc
  cases hc
  refine ⟨⟨by exact_mod_cast hs, rows_pos_of_cols hn k, ?_, ?_, ?_, ?_⟩, ?_, rfl, hn⟩
  · intro c hc
    have : k c + 1 ≤ (range n).sup fun c => k c + 1 :=
      Finset.le_sup (f := fun c => k c + 1) (mem_range.2 hc)
    exact this
  · intro c hc r hr
    simp only
    rw [arangeLen_mul hs (h c hc), if_pos (by omega)]
    push_cast; rfl
  · intro c hc r hr
    simp only
    rw [arangeLen_mul hs (h c hc), if_pos (by omega)]
    rfl
  · intro c hc r hr _
    simp only
    rw [arangeLen_mul hs (h c hc), if_neg (by omega)]
  · intro c hc r hr _
    simp only
    rw [arangeLen_mul hs (h c hc), if_neg (by omega)]
    rfl

/-! ### Trimming -/

theorem filter_range_eq {n a b : ℕ} (hb : b < n) (p : ℕ → Bool)
    (hp : ∀ r < n, p r = true ↔ a ≤ r ∧ r ≤ b) :
    (List.range n).filter p = List.range' a (b + 1 - a) := by
  apply List.Perm.eq_of_pairwise (le := (· < ·))
  · intro x y _ _ h1 h2; omega
  · exact List.pairwise_lt_range.filter _
  · exact List.pairwise_lt_range'
  · rw [List.perm_ext_iff_of_nodup (List.nodup_range.filter _) List.nodup_range']
    intro x
    simp only [List.mem_filter, List.mem_range, List.mem_range'_1]
    constructor
    · rintro ⟨h1, h2⟩
      have := (hp x h1).1 h2
      omega
    · intro h
      exact ⟨by omega, (hp x (by omega)).2 (by omega)⟩

theorem filter_range_prefix {n m : ℕ} (hm : m ≤ n) (p : ℕ → Bool)
    (hp : ∀ r < n, p r = true ↔ r < m) : (List.range n).filter p = List.range m := by
  apply List.Perm.eq_of_pairwise (le := (· < ·))
  · intro x y _ _ h1 h2; omega
  · exact List.pairwise_lt_range.filter _
  · exact List.pairwise_lt_range
  · rw [List.perm_ext_iff_of_nodup (List.nodup_range.filter _) List.nodup_range]
    intro x
    simp only [List.mem_filter, List.mem_range]
    constructor
    · rintro ⟨h1, h2⟩
      exact (hp x h1).1 h2
    · intro h
      exact ⟨by omega, (hp x (by omega)).2 h⟩

theorem head?_range' {a n : ℕ} (hn : 0 < n) : (List.range' a n).head? = some a := by
  cases n with
  | zero => omega
  | succ n => rw [List.range'_succ]; rfl

theorem getLast?_range' {a n : ℕ} (hn : 0 < n) : (List.range' a n).getLast? = some (a + n - 1) := by
  cases n with
  | zero => omega
  | succ n => rw [List.range'_1_concat]; simp

section Trim

variable {G : Grid} {s : ℤ} {K : ℕ → ℕ} {base : ℕ → ℤ} {f : ℕ → ℕ → ℚ}

theorem spend_cases (hG : RegularBoth G s K base f) {c r : ℕ} (hc : c < G.cols) (hr : r < G.rows) :
    (r ≤ K c ∧ G.spend r c = some (base c + r * s : ℚ) ∧ G.out r c = some (f c r)) ∨
    (K c < r ∧ G.spend r c = none ∧ G.out r c = none) := by
  by_cases h : r ≤ K c
  · left; exact ⟨h, hG.reg.spend_eq c hc r h, hG.reg.out_eq c hc r h⟩
  · right
    have h := not_le.1 h
    exact ⟨h, hG.reg.spend_nan c hc r h hr, hG.out_nan c hc r h hr⟩

theorem validIndices_regular (hs : 0 < s) (hG : RegularBoth G s K base f) {lo hi : ℕ → ℤ}
    {a b : ℕ → ℕ} {c : ℕ} (hc : c < G.cols) (hlo : lo c = base c + a c * s)
    (hhi : hi c = base c + b c * s) (hbK : b c ≤ K c) :
    validIndices G lo hi c = List.range' (a c) (b c + 1 - a c) := by
  unfold validIndices
  have hKr := hG.reg.K_lt c hc
  apply filter_range_eq (by omega)
  intro r hr
  rcases spend_cases hG hc hr with ⟨h1, h2, -⟩ | ⟨h1, h2, -⟩
  · rw [h2]
    simp only [decide_eq_true_eq]
    rw [hlo, hhi]
    have e1 : (((base c + a c * s : ℤ) : ℚ) ≤ base c + r * s) ↔ a c ≤ r := by
      rw [show (base c : ℚ) + r * s = ((base c + r * s : ℤ) : ℚ) by push_cast; ring, Int.cast_le]
      constructor
      · intro h
        have : (a c : ℤ) * s ≤ r * s := by linarith
        have := le_of_mul_le_mul_right this hs
        exact_mod_cast this
      · intro h
        have : (a c : ℤ) * s ≤ r * s := by gcongr
        linarith
    have e2 : ((base c : ℚ) + r * s ≤ ((base c + b c * s : ℤ) : ℚ)) ↔ r ≤ b c := by
      rw [show (base c : ℚ) + r * s = ((base c + r * s : ℤ) : ℚ) by push_cast; ring, Int.cast_le]
      constructor
      · intro h
        have : (r : ℤ) * s ≤ b c * s := by linarith
        have := le_of_mul_le_mul_right this hs
        exact_mod_cast this
      · intro h
        have : (r : ℤ) * s ≤ b c * s := by gcongr
        linarith
    rw [e1, e2]
  · rw [h2]
    simp
    intro h; omega

theorem trimColumn_regular {rows A B : ℕ} (hAB : A ≤ B) (hB : B < rows) (col : ℕ → Num) (r : ℕ) :
    trimColumn rows (List.range' A (B + 1 - A)) col r = if r ≤ B - A then col (r + A) else none := by
  unfold trimColumn
  rw [head?_range' (by omega), getLast?_range' (by omega)]
  simp only
  by_cases h : r ≤ B - A
  · rw [if_pos h, if_neg (by omega), Nat.mod_eq_of_lt (by omega)]
  · rw [if_neg h, if_pos (by omega)]

theorem keptRows_prefix {rows cols : ℕ} {cell : ℕ → ℕ → Num} {d : ℕ → ℕ}
    (hd : ∀ c < cols, d c < rows) (hcell : ∀ r < rows, ∀ c < cols, (cell r c).isSome = true ↔ r ≤ d c) :
    keptRows rows cols cell = List.range ((range cols).sup fun c => d c + 1) := by
  unfold keptRows
  apply filter_range_prefix
  · apply Finset.sup_le
    intro c hc
    exact hd c (mem_range.1 hc)
  · intro r hr
    rw [List.any_eq_true]
    constructor
    · rintro ⟨c, hc, h⟩
      have hc := List.mem_range.1 hc
      have h1 := (hcell r hr c hc).1 h
      have : d c + 1 ≤ (range cols).sup fun c => d c + 1 :=
        Finset.le_sup (f := fun c => d c + 1) (mem_range.2 hc)
      omega
    · intro h
      rw [Finset.lt_sup_iff] at h
      obtain ⟨c, hc, h⟩ := h
      have hc := mem_range.1 hc
      exact ⟨c, List.mem_range.2 hc, (hcell r hr c hc).2 (by omega)⟩

theorem boundsCovered_regular (hs : 0 < s) (hG : RegularBoth G s K base f) {lo hi : ℕ → ℤ}
    {a b : ℕ → ℕ} (hlo : ∀ c < G.cols, lo c = base c + a c * s)
    (hhi : ∀ c < G.cols, hi c = base c + b c * s) (hbK : ∀ c < G.cols, b c ≤ K c) :
    boundsCovered G lo hi = true := by
  unfold boundsCovered
  rw [List.all_eq_true]
  intro c hc
  have hc := List.mem_range.1 hc
  have hsq : (0 : ℚ) < s := by exact_mod_cast hs
  have hKr := hG.reg.K_lt c hc
  rw [Bool.and_eq_true]
  constructor
  · cases hm : colMin G c with
    | none => rfl
    | some m =>
      simp only [Bool.not_eq_true', decide_eq_false_iff_not, not_lt]
      unfold colMin at hm
      rw [List.min?_eq_some_iff] at hm
      have := hm.2 (base c) (by
        simp only [List.mem_filterMap, List.mem_range]
        exact ⟨0, by omega, by simpa using hG.reg.spend_eq c hc 0 (Nat.zero_le _)⟩)
      refine le_trans this ?_
      rw [hlo c hc]
      push_cast
      have : (0 : ℚ) ≤ a c * s := by positivity
      linarith
  · cases hm : colMax G c with
    | none => rfl
    | some m =>
      simp only [Bool.not_eq_true', decide_eq_false_iff_not, not_lt]
      unfold colMax at hm
      rw [List.max?_eq_some_iff] at hm
      have := hm.2 (base c + K c * s) (by
        simp only [List.mem_filterMap, List.mem_range]
        exact ⟨K c, hKr, hG.reg.spend_eq c hc _ le_rfl⟩)
      refine le_trans ?_ this
      rw [hhi c hc]
      push_cast
      have : (b c : ℚ) ≤ K c := by exact_mod_cast hbK c hc
      gcongr

/-- Trimming a regular grid to sub-bounds gives the regular grid of those bounds. -/
theorem trimGrids_regular (hs : 0 < s) (hG : RegularBoth G s K base f) {lo hi : ℕ → ℤ}
    {a b : ℕ → ℕ} (hlo : ∀ c < G.cols, lo c = base c + a c * s)
    (hhi : ∀ c < G.cols, hi c = base c + b c * s) (hab : ∀ c < G.cols, a c ≤ b c)
    (hbK : ∀ c < G.cols, b c ≤ K c) :
    ∃ G', trimGrids G lo hi = .ok G' ∧ G'.cols = G.cols ∧
      RegularBoth G' s (fun c => b c - a c) lo (fun c r => f c (r + a c)) := by
  have hv : ∀ c < G.cols, validIndices G lo hi c = List.range' (a c) (b c + 1 - a c) := fun c hc =>
    validIndices_regular hs hG hc (hlo c hc) (hhi c hc) (hbK c hc)
  have hKr := hG.reg.K_lt
  set sp := fun r c => trimColumn G.rows (validIndices G lo hi c) (G.spend · c) r with hsp
  set ou := fun r c => trimColumn G.rows (validIndices G lo hi c) (G.out · c) r with hou
  have hspe : ∀ c < G.cols, ∀ r, sp r c = if r ≤ b c - a c then G.spend (r + a c) c else none := by
    intro c hc r
    rw [hsp]; simp only
    rw [hv c hc, trimColumn_regular (hab c hc) (by have := hKr c hc; have := hbK c hc; omega)]
  have houe : ∀ c < G.cols, ∀ r, ou r c = if r ≤ b c - a c then G.out (r + a c) c else none := by
    intro c hc r
    rw [hou]; simp only
    rw [hv c hc, trimColumn_regular (hab c hc) (by have := hKr c hc; have := hbK c hc; omega)]
  have hsps : ∀ c < G.cols, ∀ r ≤ b c - a c, sp r c = some (lo c + r * s : ℚ) := by
    intro c hc r hr
    have h1 := hab c hc
    have h2 := hbK c hc
    rw [hspe c hc, if_pos hr, hG.reg.spend_eq c hc _ (by omega), hlo c hc]
    push_cast; congr 1; ring
  have hous : ∀ c < G.cols, ∀ r ≤ b c - a c, ou r c = some (f c (r + a c)) := by
    intro c hc r hr
    have h1 := hab c hc
    have h2 := hbK c hc
    rw [houe c hc, if_pos hr, hG.reg.out_eq c hc _ (by omega)]
  have hks : keptRows G.rows G.cols sp = List.range ((range G.cols).sup fun c => b c - a c + 1) := by
    apply keptRows_prefix
    · intro c hc; have := hKr c hc; have := hbK c hc; omega
    · intro r _ c hc
      constructor
      · intro h
        by_contra hcon
        rw [hspe c hc, if_neg hcon] at h
        cases h
      · intro h; rw [hsps c hc r h]; rfl
  have hko : keptRows G.rows G.cols ou = List.range ((range G.cols).sup fun c => b c - a c + 1) := by
    apply keptRows_prefix
    · intro c hc; have := hKr c hc; have := hbK c hc; omega
    · intro r _ c hc
      constructor
      · intro h
        by_contra hcon
        rw [houe c hc, if_neg hcon] at h
        cases h
      · intro h; rw [hous c hc r h]; rfl
  have hne : ¬ ∃ c < G.cols, validIndices G lo hi c = [] := by
    push Not
    intro c hc h
    rw [hv c hc] at h
    have := congrArg List.length h
    simp at this
    have := hab c hc
    omega
  set M := (range G.cols).sup fun c => b c - a c + 1 with hM
  have hMc : ∀ c < G.cols, b c - a c < M := by
    intro c hc
    have : b c - a c + 1 ≤ M := Finset.le_sup (f := fun c => b c - a c + 1) (mem_range.2 hc)
    omega
  refine ⟨{ rows := (keptRows G.rows G.cols sp).length, cols := G.cols
            spend := fun r c => match (keptRows G.rows G.cols sp)[r]? with | some i => sp i c | none => none
            out := fun r c => match (keptRows G.rows G.cols ou)[r]? with | some i => ou i c | none => none },
    ?_, rfl, ?_⟩
  · unfold trimGrids
    rw [if_neg (by rw [boundsCovered_regular hs hG hlo hhi hbK]; simp), if_neg hne]
    have hlen : ¬ (keptRows G.rows G.cols sp).length ≠ (keptRows G.rows G.cols ou).length := by
      rw [hks, hko]; simp
    exact if_neg hlen
  · have hrow : ∀ r < M, (List.range M)[r]? = some r := by
      intro r hr; simp [hr]
    rw [hks, hko]
    refine ⟨⟨by exact_mod_cast hs, ?_, ?_, ?_, ?_, ?_⟩, ?_, ?_, hG.cols_pos⟩
    · simp only [List.length_range]
      exact rows_pos_of_cols hG.cols_pos _
    · intro c hc; simp only [List.length_range]; exact hMc c hc
    · intro c hc r hr
      have := hMc c hc
      simp only
      rw [hrow r (by omega)]
      exact hsps c hc r hr
    · intro c hc r hr
      have := hMc c hc
      simp only
      rw [hrow r (by omega)]
      exact hous c hc r hr
    · intro c hc r hr hr2
      simp only [List.length_range] at hr2 ⊢
      rw [hrow r hr2]
      simp only
      rw [hspe c hc, if_neg (by omega)]
    · intro c hc r hr hr2
      simp only [List.length_range] at hr2 ⊢
      rw [hrow r hr2]
      simp only
      rw [houe c hc, if_neg (by omega)]
    · simp only [List.length_range]; exact hM

end Trim

end Verif.Optimizer

import Verif.Lemmas.BandSolve
import Verif.Spec.BandSolve
import Mathlib.LinearAlgebra.Matrix.Block
import Mathlib.LinearAlgebra.Matrix.NonsingularInverse
import Mathlib.LinearAlgebra.Matrix.ToLinearEquiv
import Mathlib.Algebra.Group.ForwardDiff
import Mathlib.Tactic.LinearCombination

/-!
# The penalised spline solver: property C47
-/

namespace Verif.BandSolve.Props

open Finset Verif.BandSolve Spec

theorem dense_of_stores {m n : ℕ} {M A : ℕ → ℕ → ℚ} (h : Stores m n M A) {i j : ℕ} (hi : i < n)
    (hj : j < n) : dense m M i j = A i j := by
  obtain ⟨h1, h2, h3⟩ := h
  wlog hij : i ≤ j generalizing i j
  · rw [dense_symm, this hj hi (by omega), h1 j hj i hi]
  rw [dense_symm]
  unfold dense
  rw [if_pos hij]
  by_cases hm : j - i ≤ m
  · have := h2 i (j - i) (by omega) hm
    rw [if_pos hm, ← this, show i + (j - i) = j by omega]
  · have := h3 i (j - i) (by omega) (by omega)
    rw [if_neg hm, ← this, show i + (j - i) = j by omega]

/-- The leading `K x K` block of `A`. -/
def block (A : ℕ → ℕ → ℚ) (K : ℕ) : Matrix (Fin K) (Fin K) ℚ := Matrix.of fun i j => A i j

theorem det_block {n m : ℕ} {M A : ℕ → ℕ → ℚ} (h : Stores m n M A) {K : ℕ} (hK : K ≤ n)
    (hp : ∀ k, k + 1 < K → ldl n m M k 0 ≠ 0) :
    (block A K).det = ∏ k ∈ range K, ldl n m M k 0 := by
  set F := ldl n m M with hF
  let L : Matrix (Fin K) (Fin K) ℚ := Matrix.of fun i k => Lmat m F i k
  have hA : block A K = L * Matrix.diagonal (fun k : Fin K => F k 0) * L.transpose := by
    ext i j
    rw [Matrix.mul_apply]
    simp only [block, Matrix.of_apply, Matrix.mul_diagonal, Matrix.transpose_apply, L]
    rw [← dense_of_stores h (by omega) (by omega), ldl_factor M hK hp i.2 j.2, ← hF]
    exact sum_range (fun k => Lmat m F i k * F k 0 * Lmat m F j k)
  have hL : L.det = 1 := by
    rw [Matrix.det_of_lowerTriangular]
    · simp [L, Lmat]
    · intro i k hik
      have : (i : ℕ) < k := hik
      simp only [L, Matrix.of_apply, Lmat]
      rw [if_neg (by omega), if_neg (by omega)]
  rw [hA, Matrix.det_mul, Matrix.det_mul, Matrix.det_transpose, hL, Matrix.det_diagonal, one_mul,
    mul_one, ← prod_range (fun k => F k 0)]

theorem pivots_ne_zero {n m : ℕ} {M A : ℕ → ℕ → ℚ} (h : Stores m n M A)
    (hdet : ∀ K ≤ n, (block A K).det ≠ 0) : ∀ k < n, ldl n m M k 0 ≠ 0 := by
  intro k
  induction k using Nat.strong_induction_on with
  | _ k ih =>
    intro hk
    have := hdet (k + 1) (by omega)
    rw [det_block h (by omega) (fun q hq => ih q (by omega) (by omega)), prod_range_succ] at this
    exact right_ne_zero_of_mul this

theorem bandsolve_accepts {R : Rot} {b : List ℚ} {x : List ℚ} (h : bandsolve R b = .ok x) :
    b.length = R.n ∧ x.length = R.n ∧
      ∀ i < R.n, x.getD i 0 = kernel R.n (R.cols - 1) R.at' (fun i => b.getD i 0) i := by
  unfold bandsolve at h
  split_ifs at h with h1 h2 h3 h4
  simp only [Except.ok.injEq] at h
  subst h
  refine ⟨by simpa using h4, by simp, fun i hi => ?_⟩
  simp [List.getD, hi]

/-- **C47.** Whenever the solver accepts its input, the matrix stored in it is `A`, and no leading
minor of `A` vanishes, the returned vector is the one and only solution of `A x = b`. -/
theorem bandsolve_correct (R : Rot) (A : ℕ → ℕ → ℚ) (hA : Stores (R.cols - 1) R.n R.at' A)
    (hdet : ∀ K ≤ R.n, (block A K).det ≠ 0) (b x : List ℚ) (h : bandsolve R b = .ok x) :
    x.length = R.n ∧
    (∀ i < R.n, ∑ j ∈ range R.n, A i j * x.getD j 0 = b.getD i 0) ∧
    ∀ z : ℕ → ℚ, (∀ i < R.n, ∑ j ∈ range R.n, A i j * z j = b.getD i 0) →
      ∀ i < R.n, z i = x.getD i 0 := by
  obtain ⟨hb, hx, hk⟩ := bandsolve_accepts h
  have hsol : ∀ i < R.n, ∑ j ∈ range R.n, A i j * x.getD j 0 = b.getD i 0 := by
    intro i hi
    rw [← kernel_solves R.at' (fun i => b.getD i 0) (pivots_ne_zero hA hdet) hi]
    apply sum_congr rfl
    intro j hj
    have hj := mem_range.1 hj
    rw [hk j hj, dense_of_stores hA hi hj]
  refine ⟨hx, hsol, ?_⟩
  intro z hz i hi
  have hzero : (block A R.n).mulVec (fun j : Fin R.n => z j - x.getD j 0) = 0 := by
    funext r
    simp only [Matrix.mulVec, dotProduct, block, Matrix.of_apply, Pi.zero_apply]
    rw [← sum_range (fun j => A r j * (z j - x.getD j 0))]
    have e1 := hz r r.2
    have e2 := hsol r r.2
    rw [← e2] at e1
    simp only [mul_sub, sum_sub_distrib]
    linarith
  have := Matrix.eq_zero_of_mulVec_eq_zero (hdet R.n le_rfl) hzero
  have := congrFun this ⟨i, hi⟩
  simp only [Pi.zero_apply] at this
  linarith

/-- **C47 (acceptance).** Exactly the properly padded matrices with at least one superdiagonal and a
right-hand side of matching length are accepted. -/
theorem bandsolve_accepted_iff (R : Rot) (b : List ℚ) :
    (∃ x, bandsolve R b = .ok x) ↔ 2 ≤ R.cols ∧ R.at' (R.n - 1) 1 = 0 ∧ b.length = R.n ∧
      (R.n = R.cols → R.at' (R.n - 1) (R.cols - 1) = 0) := by
  unfold bandsolve
  split_ifs with h1 h2 h3 h4
  · exact ⟨fun h => by simp at h, fun h => absurd (h.2.2.2 h1.1) h1.2⟩
  · exact ⟨fun h => by simp at h, fun h => by omega⟩
  · exact ⟨fun h => by simp at h, fun h => absurd h.2.1 h3⟩
  · exact ⟨fun h => by simp at h, fun h => absurd h.2.2.1 h4⟩
  · refine ⟨fun _ => ⟨by omega, by simpa using h3, by simpa using h4, ?_⟩, fun _ => ⟨_, rfl⟩⟩
    intro h5
    by_contra h6
    exact h1 ⟨h5, h6⟩

/-- The tridiagonal system with 2 on and -1 beside the diagonal. -/
def demo : Rot := { n := 3, cols := 2, at' := fun r c => if c = 0 then 2 else if c = 1 ∧ r < 2 then -1 else 0 }

example : bandsolve demo [1, 0, 1] = .ok [1, 1, 1] := by decide +kernel

/-- The matrix `demo` stores. -/
def demoA : ℕ → ℕ → ℚ := fun i j => if i = j then 2 else if i + 1 = j ∨ j + 1 = i then -1 else 0

example : Stores (demo.cols - 1) demo.n demo.at' demoA := by
  refine ⟨?_, ?_, ?_⟩
  · intro i _ j _
    unfold demoA
    by_cases h : i = j
    · simp [h]
    · rw [if_neg h, if_neg (Ne.symm h)]
      congr 1
      rw [or_comm]
  · intro r c h1 h2
    simp only [demo] at h1 h2 ⊢
    have : c = 0 ∨ c = 1 := by omega
    rcases this with rfl | rfl
    · simp [demoA]
    · rw [if_neg (by omega), if_pos (by omega)]
      simp [demoA]
  · intro r c h1 h2
    simp only [demo] at h1 h2
    unfold demoA
    rw [if_neg (by omega), if_neg (by omega)]

example : ∀ K ≤ demo.n, (block demoA K).det ≠ 0 := by
  intro K hK
  have : K ≤ 3 := hK
  interval_cases K
  · simp
  · rw [Matrix.det_fin_one]; simp [block, demoA]
  · rw [Matrix.det_fin_two]; simp [block, demoA]; norm_num
  · rw [Matrix.det_fin_three]; simp [block, demoA]; norm_num

/-! ### The difference penalty -/

theorem delta_eq (d : ℕ) (β : ℕ → ℚ) (k : ℕ) :
    delta d β k = (-1) ^ d * ∑ t ∈ range (d + 1), binom d t * β (k + t) := by
  have h : ∀ d k, delta d β k = (fwdDiff 1)^[d] β k := by
    intro d
    induction d with
    | zero => intro k; rfl
    | succ d ih =>
      intro k
      rw [Function.iterate_succ_apply']
      show delta d β (k + 1) - delta d β k = _
      rw [ih, ih]
      rfl
  rw [h, fwdDiff_iter_eq_sum_shift, mul_sum]
  apply sum_congr rfl
  intro t ht
  have ht : t ≤ d := by have := mem_range.1 ht; omega
  have hs : (-1 : ℚ) ^ (d - t) = (-1) ^ d * (-1) ^ t := by
    obtain ⟨q, rfl⟩ := Nat.exists_eq_add_of_le ht
    rw [Nat.add_sub_cancel_left, pow_add]
    have : ((-1 : ℚ) ^ t) * (-1) ^ t = 1 := by rw [← mul_pow]; norm_num
    linear_combination -(-1) ^ q * this
  simp only [binom, smul_eq_mul, mul_one, zsmul_eq_mul, Int.cast_mul, Int.cast_pow, Int.cast_neg,
    Int.cast_one, Int.cast_natCast, nsmul_eq_mul, Nat.cast_id]
  rw [hs]
  ring

/-- Coefficient of parameter `i` in the `k`-th difference, up to sign. -/
def coef (d k i : ℕ) : ℚ := if k ≤ i ∧ i ≤ k + d then binom d (i - k) else 0

theorem sum_coef (d : ℕ) (β : ℕ → ℚ) {k rows : ℕ} (h : k + d < rows) :
    ∑ i ∈ range rows, coef d k i * β i = (-1) ^ d * delta d β k := by
  have h1 : ∑ i ∈ range rows, coef d k i * β i = ∑ i ∈ Ico k (k + (d + 1)), coef d k i * β i := by
    symm
    apply sum_subset
    · intro i hi; have := mem_Ico.1 hi; exact mem_range.2 (by omega)
    · intro i _ hi
      have := mt mem_Ico.2 hi
      unfold coef
      rw [if_neg (by omega), zero_mul]
  rw [h1, delta_eq, sum_Ico_eq_sum_range, Nat.add_sub_cancel_left, ← mul_assoc, ← mul_pow]
  norm_num
  apply sum_congr rfl
  intro t ht
  have := mem_range.1 ht
  unfold coef
  rw [if_pos (by omega), Nat.add_sub_cancel_left]

theorem bandWeight_entry (w : List ℚ) (d : ℕ) {i j : ℕ} (hi : i < w.length + d)
    (hj : j < w.length + d) :
    dense d (bandWeight w d).at' i j
      = ∑ k ∈ range w.length, w.getD k 0 * (coef d k i * coef d k j) := by
  wlog hij : i ≤ j generalizing i j
  · rw [dense_symm, this hj hi (by omega)]
    exact sum_congr rfl fun k _ => by ring
  rw [dense_symm]
  unfold dense
  rw [if_pos hij]
  by_cases hm : j - i ≤ d
  · rw [if_pos hm]
    unfold bandWeight
    simp only
    rw [if_pos (by omega), show i + (j - i) = j by omega, forRange_sum, zero_add]
    set hi' := (if i < w.length - 1 then i else w.length - 1) with hhi
    have hhi' : hi' = min i (w.length - 1) := by
      rw [hhi]; split_ifs <;> omega
    have : ∑ k ∈ range w.length, w.getD k 0 * (coef d k i * coef d k j)
        = ∑ k ∈ Ico (j - d) (hi' + 1), w.getD k 0 * (coef d k i * coef d k j) := by
      rcases Nat.eq_zero_or_pos w.length with h0 | h0
      · have hw : w = [] := List.length_eq_zero_iff.1 h0
        subst hw
        simp
      · symm
        apply sum_subset
        · intro k hk; have := mem_Ico.1 hk; exact mem_range.2 (by omega)
        · intro k hk hk'
          have hk := mem_range.1 hk
          have hk' := mt mem_Ico.2 hk'
          have : coef d k i * coef d k j = 0 := by
            unfold coef
            by_cases h1 : k ≤ i
            · rw [if_neg (show ¬ (k ≤ j ∧ j ≤ k + d) by omega), mul_zero]
            · rw [if_neg (by omega), zero_mul]
          rw [this, mul_zero]
    rw [this]
    apply sum_congr rfl
    intro k hk
    have hk := mem_Ico.1 hk
    unfold coef
    rw [if_pos (by omega), if_pos (by omega)]
    ring
  · rw [if_neg hm]
    symm
    apply sum_eq_zero
    intro k _
    have : coef d k i * coef d k j = 0 := by
      unfold coef
      by_cases h1 : k ≤ i
      · rw [if_neg (show ¬ (k ≤ j ∧ j ≤ k + d) by omega), mul_zero]
      · rw [if_neg (by omega), zero_mul]
    rw [this, mul_zero]

/-- **C47 (penalty).** The penalty matrix is the bilinear form of the weighted `d`-th differences. -/
theorem bandWeight_is_difference_penalty (w : List ℚ) (d : ℕ) (P : ℕ → ℕ → ℚ)
    (hP : Stores d (w.length + d) (bandWeight w d).at' P) (β γ : ℕ → ℚ) :
    ∑ i ∈ range (w.length + d), ∑ j ∈ range (w.length + d), β i * P i j * γ j
      = ∑ k ∈ range w.length, w.getD k 0 * delta d β k * delta d γ k := by
  have h1 : ∀ i ∈ range (w.length + d), ∑ j ∈ range (w.length + d), β i * P i j * γ j
      = ∑ k ∈ range w.length, w.getD k 0 * (coef d k i * β i) * ((-1) ^ d * delta d γ k) := by
    intro i hi
    have hi := mem_range.1 hi
    calc ∑ j ∈ range (w.length + d), β i * P i j * γ j
        = ∑ j ∈ range (w.length + d), ∑ k ∈ range w.length,
            w.getD k 0 * (coef d k i * β i) * (coef d k j * γ j) := by
          apply sum_congr rfl
          intro j hj
          rw [← dense_of_stores hP hi (mem_range.1 hj), bandWeight_entry w d hi (mem_range.1 hj),
            mul_sum, sum_mul]
          exact sum_congr rfl fun k _ => by ring
      _ = _ := by
          rw [sum_comm]
          apply sum_congr rfl
          intro k hk
          rw [← mul_sum, sum_coef d γ (by have := mem_range.1 hk; omega)]
  rw [sum_congr rfl h1, sum_comm]
  apply sum_congr rfl
  intro k hk
  have h2 : ∑ i ∈ range (w.length + d), w.getD k 0 * (coef d k i * β i) * ((-1) ^ d * delta d γ k)
      = w.getD k 0 * (∑ i ∈ range (w.length + d), coef d k i * β i) * ((-1) ^ d * delta d γ k) := by
    rw [mul_sum, sum_mul]
  rw [h2, sum_coef d β (by have := mem_range.1 hk; omega)]
  have : ((-1 : ℚ) ^ d) * (-1) ^ d = 1 := by rw [← mul_pow]; norm_num
  linear_combination (w.getD k 0 * delta d β k * delta d γ k) * this

/-- Every rotated array stores a symmetric matrix. -/
theorem stores_dense (m n : ℕ) (M : ℕ → ℕ → ℚ) : Stores m n M (dense m M) := by
  refine ⟨fun i _ j _ => dense_symm m M i j, ?_, ?_⟩
  · intro r c _ hc
    rw [dense_symm]
    unfold dense
    rw [if_pos (by omega), Nat.add_sub_cancel_left, if_pos hc]
  · intro r c _ hc
    rw [dense_symm]
    unfold dense
    rw [if_pos (by omega), Nat.add_sub_cancel_left, if_neg (by omega)]

/-- Second differences of three parameters with weight 2: `2 (β₀ - 2 β₁ + β₂)²`. -/
example : (List.range 3).map (fun i => (List.range 3).map fun j =>
    dense 2 (bandWeight [2] 2).at' i j) = [[2, -4, 2], [-4, 8, -4], [2, -4, 2]] := by
  decide +kernel

/-! ### Rotation -/

theorem lastNonzero_ge {A : ℕ → ℕ → ℚ} {p i j last : ℕ} (h : lastNonzero A p i = some last)
    (hj : j < p) (hA : A i j ≠ 0) : j ≤ last := by
  unfold lastNonzero at h
  set l := (List.range p).filter fun j => decide (A i j ≠ 0) with hl
  have hs : l.Pairwise (· < ·) := List.pairwise_lt_range.filter _
  have hm : j ∈ l := by rw [hl, List.mem_filter]; exact ⟨List.mem_range.2 hj, by simpa using hA⟩
  obtain ⟨q, hq, rfl⟩ := List.mem_iff_getElem.1 hm
  rw [List.getLast?_eq_getElem?] at h
  obtain ⟨h1, rfl⟩ := List.getElem?_eq_some_iff.1 h
  rcases Nat.lt_or_ge q (l.length - 1) with hlt | hge
  · exact (List.pairwise_iff_getElem.1 hs q (l.length - 1) hq h1 hlt).le
  · have : q = l.length - 1 := by omega
    subst this; exact le_rfl

theorem bandwidth_foldlM {A : ℕ → ℕ → ℚ} {p : ℕ} {rows : List ℕ} {l0 l : ℕ}
    (h : rows.foldlM (bandStep A p) l0 = Except.ok l) :
    l0 ≤ l ∧ ∀ i ∈ rows, ∃ last, lastNonzero A p i = some last ∧ last - i ≤ l := by
  induction rows generalizing l0 with
  | nil =>
    simp only [List.foldlM_nil, pure, Except.pure, Except.ok.injEq] at h
    subst h; simp
  | cons i rest ih =>
    rw [List.foldlM_cons, bandStep] at h
    cases hi : lastNonzero A p i with
    | none => rw [hi] at h; simp [bind, Except.bind] at h
    | some last =>
      rw [hi] at h
      simp only [bind, Except.bind] at h
      obtain ⟨h1, h2⟩ := ih h
      refine ⟨by omega, ?_⟩
      intro q hq
      rcases List.mem_cons.1 hq with rfl | hq
      · exact ⟨last, hi, by omega⟩
      · exact h2 q hq

/-- **C47 (rotation).** The rotated form of a symmetric matrix stores that matrix, and is padded with
zeros below. -/
theorem mat2rot_stores (A : ℕ → ℕ → ℚ) (p : ℕ) (hsym : ∀ i < p, ∀ j < p, A i j = A j i) (R : Rot)
    (h : mat2rot A p = .ok R) :
    R.n = p ∧ 1 ≤ R.cols ∧ Stores (R.cols - 1) p R.at' A ∧ ∀ r c, p ≤ r + c → R.at' r c = 0 := by
  unfold mat2rot at h
  cases hb : bandwidth A p with
  | error e => rw [hb] at h; cases h
  | ok l =>
    rw [hb] at h
    simp only [Except.map, Except.ok.injEq] at h
    subst h
    unfold bandwidth at hb
    have hb := (bandwidth_foldlM hb).2
    refine ⟨rfl, by simp, ⟨hsym, ?_, ?_⟩, ?_⟩
    · intro r c hrc _
      simp only
      rw [if_pos hrc]
    · intro r c hrc hc
      simp only [Nat.add_sub_cancel] at hc
      by_contra hne
      obtain ⟨last, h1, h2⟩ := hb r (List.mem_range.2 (by omega))
      have := lastNonzero_ge h1 hrc hne
      omega
    · intro r c hrc
      simp only
      rw [if_neg (by omega)]

/-- It is defined exactly when no row is zero. -/
theorem mat2rot_defined_iff (A : ℕ → ℕ → ℚ) (p : ℕ) :
    (∃ R, mat2rot A p = .ok R) ↔ ∀ i < p, ∃ j < p, A i j ≠ 0 := by
  have hnone : ∀ i, lastNonzero A p i = none ↔ ∀ j < p, A i j = 0 := by
    intro i
    unfold lastNonzero
    rw [List.getLast?_eq_none_iff, List.filter_eq_nil_iff]
    simp
  have key : ∀ (rows : List ℕ) (l0 : ℕ), (∃ l, rows.foldlM (bandStep A p) l0 = Except.ok l) ↔ ∀ i ∈ rows, ∃ j < p, A i j ≠ 0 := by
    intro rows
    induction rows with
    | nil => intro l0; simp [pure, Except.pure]
    | cons i rest ih =>
      intro l0
      rw [List.foldlM_cons, bandStep]
      cases hi : lastNonzero A p i with
      | none =>
        have := (hnone i).1 hi
        simp only [bind, Except.bind, reduceCtorEq, exists_false, List.mem_cons, forall_eq_or_imp,
          false_iff, not_and]
        rintro ⟨j, hj, hne⟩
        exact absurd (this j hj) hne
      | some last =>
        simp only [bind, Except.bind, List.mem_cons, forall_eq_or_imp]
        rw [ih, iff_and_self]
        intro _
        by_contra hc
        push Not at hc
        rw [(hnone i).2 hc] at hi
        cases hi
  unfold mat2rot
  have := key (List.range p) 0
  simp only [List.mem_range] at this
  rw [← this]
  unfold bandwidth
  constructor
  · rintro ⟨R, h⟩
    cases hb : (List.range p).foldlM (bandStep A p) 0 with
    | error e => rw [hb] at h; cases h
    | ok l => exact ⟨l, rfl⟩
  · rintro ⟨l, h⟩
    rw [h]
    exact ⟨_, rfl⟩

/-! ### The ridge solver -/

/-- The regularised normal matrix `X'X + eps I`, `meridian/model/knots.py:552-557`. -/
def gram (N : ℕ) (X : ℕ → ℕ → ℚ) (eps : ℚ) (i j : ℕ) : ℚ :=
  ∑ r ∈ range N, X r i * X r j + if i = j then eps else 0

/-- `X'y`, `meridian/model/knots.py:553`. -/
def moment (N p : ℕ) (X : ℕ → ℕ → ℚ) (y : ℕ → ℚ) : List ℚ :=
  (List.range p).map fun i => ∑ r ∈ range N, X r i * y r

theorem gram_symm (N : ℕ) (X : ℕ → ℕ → ℚ) (eps : ℚ) (i j : ℕ) :
    gram N X eps i j = gram N X eps j i := by
  unfold gram
  congr 1
  · exact sum_congr rfl fun r _ => mul_comm _ _
  · simp only [eq_comm]

/-- `βᵀ (X'X + eps I) γ`. -/
theorem gram_form (N p : ℕ) (X : ℕ → ℕ → ℚ) (eps : ℚ) (β γ : ℕ → ℚ) :
    ∑ i ∈ range p, ∑ j ∈ range p, β i * gram N X eps i j * γ j
      = ∑ r ∈ range N, (∑ i ∈ range p, X r i * β i) * (∑ i ∈ range p, X r i * γ i)
        + eps * ∑ i ∈ range p, β i * γ i := by
  have h1 : ∀ i ∈ range p, ∑ j ∈ range p, β i * gram N X eps i j * γ j
      = ∑ r ∈ range N, (X r i * β i) * (∑ j ∈ range p, X r j * γ j) + eps * (β i * γ i) := by
    intro i hi
    have h2 : ∀ j ∈ range p, β i * gram N X eps i j * γ j
        = ∑ r ∈ range N, (X r i * β i) * (X r j * γ j) + if i = j then eps * (β i * γ i) else 0 := by
      intro j _
      unfold gram
      rw [mul_add, add_mul, mul_sum, sum_mul]
      congr 1
      · exact sum_congr rfl fun r _ => by ring
      · split_ifs with h
        · subst h; ring
        · ring
    rw [sum_congr rfl h2, sum_add_distrib, sum_comm, sum_ite_eq, if_pos hi]
    congr 1
    exact sum_congr rfl fun r _ => by rw [mul_sum]
  rw [sum_congr rfl h1, sum_add_distrib, sum_comm, mul_sum]
  congr 1
  exact sum_congr rfl fun r _ => by rw [sum_mul]

section ridge

variable {N degree : ℕ} {X : ℕ → ℕ → ℚ} {y : ℕ → ℚ} {eps pen : ℚ} {w : List ℚ} {R : Rot}

/-- The penalty matrix. -/
def penaltyMatrix (w : List ℚ) (d : ℕ) : ℕ → ℕ → ℚ := dense d (bandWeight w d).at'

/-- The system matrix. -/
def system (N : ℕ) (X : ℕ → ℕ → ℚ) (eps pen : ℚ) (w : List ℚ) (d i j : ℕ) : ℚ :=
  gram N X eps i j + pen * penaltyMatrix w d i j

theorem system_form (N p : ℕ) (X : ℕ → ℕ → ℚ) (eps pen : ℚ) (w : List ℚ) (d : ℕ)
    (hp : p = w.length + d) (β γ : ℕ → ℚ) :
    ∑ i ∈ range p, ∑ j ∈ range p, β i * system N X eps pen w d i j * γ j
      = ∑ r ∈ range N, (∑ i ∈ range p, X r i * β i) * (∑ i ∈ range p, X r i * γ i)
        + eps * ∑ i ∈ range p, β i * γ i
        + pen * ∑ k ∈ range w.length, w.getD k 0 * delta d β k * delta d γ k := by
  rw [← gram_form, hp, ← bandWeight_is_difference_penalty w d _ (stores_dense _ _ _), mul_sum,
    ← sum_add_distrib]
  apply sum_congr rfl
  intro i _
  rw [mul_sum, ← sum_add_distrib]
  apply sum_congr rfl
  intro j _
  unfold system penaltyMatrix
  ring

theorem system_pos (N p : ℕ) (X : ℕ → ℕ → ℚ) (eps pen : ℚ) (w : List ℚ) (d : ℕ)
    (hp : p = w.length + d) (heps : 0 < eps) (hpen : 0 ≤ pen) (hw : ∀ v ∈ w, 0 ≤ v) (β : ℕ → ℚ)
    (hβ : ∃ i < p, β i ≠ 0) :
    0 < ∑ i ∈ range p, ∑ j ∈ range p, β i * system N X eps pen w d i j * β j := by
  rw [system_form N p X eps pen w d hp]
  have h1 : 0 ≤ ∑ r ∈ range N, (∑ i ∈ range p, X r i * β i) * (∑ i ∈ range p, X r i * β i) :=
    sum_nonneg fun r _ => mul_self_nonneg _
  have h2 : 0 < ∑ i ∈ range p, β i * β i := by
    obtain ⟨i, hi, hne⟩ := hβ
    exact sum_pos' (fun i _ => mul_self_nonneg _) ⟨i, mem_range.2 hi, mul_self_pos.2 hne⟩
  have h3 : 0 ≤ ∑ k ∈ range w.length, w.getD k 0 * delta d β k * delta d β k := by
    apply sum_nonneg
    intro k hk
    rw [mul_assoc]
    apply mul_nonneg _ (mul_self_nonneg _)
    have hk := mem_range.1 hk
    rw [List.getD_eq_getElem?_getD, List.getElem?_eq_getElem hk]
    exact hw _ (List.getElem_mem hk)
  have h4 := mul_pos heps h2
  have h5 := mul_nonneg hpen h3
  linarith

/-- The array handed to the banded solver stores `X'X + eps I + pen D'WD`. -/
theorem system_stored (hR : mat2rot (gram N X eps) (w.length + (degree + 1)) = .ok R)
    (hband : R.cols = degree + 1) {i j : ℕ} (hi : i < w.length + (degree + 1))
    (hj : j < w.length + (degree + 1)) :
    dense (degree + 1) (fun r c => R.pad.at' r c + pen * (bandWeight w (degree + 1)).at' r c) i j
      = system N X eps pen w (degree + 1) i j := by
  obtain ⟨-, -, hs, -⟩ := mat2rot_stores _ _ (fun i _ j _ => gram_symm N X eps i j) R hR
  rw [hband, Nat.add_sub_cancel] at hs
  unfold system penaltyMatrix
  rw [← dense_of_stores hs hi hj]
  unfold dense Rot.pad
  simp only [hband]
  split_ifs <;> first | omega | ring

theorem bandWeight_pad (w : List ℚ) (d : ℕ) {r c : ℕ} (h : w.length + d ≤ r + c) :
    (bandWeight w d).at' r c = 0 := by
  unfold bandWeight
  simp only
  rw [if_neg (by omega)]

/-- One solve: the normal equations of the penalised problem. -/
theorem penalisedSolve_correct (heps : 0 < eps) (hpen : 0 ≤ pen) (hw : ∀ v ∈ w, 0 ≤ v)
    (hR : mat2rot (gram N X eps) (w.length + (degree + 1)) = .ok R)
    (hband : R.cols = degree + 1) (b : List ℚ) (hb : b.length = w.length + (degree + 1)) :
    ∃ x, penalisedSolve R.pad b pen w (degree + 1) = .ok x ∧
      x.length = w.length + (degree + 1) ∧
      ∀ i < w.length + (degree + 1), ∑ j ∈ range (w.length + (degree + 1)),
        system N X eps pen w (degree + 1) i j * x.getD j 0 = b.getD i 0 := by
  obtain ⟨hn, -, -, hpad⟩ := mat2rot_stores _ _ (fun i _ j _ => gram_symm N X eps i j) R hR
  set p := w.length + (degree + 1) with hp
  set T : Rot := { n := R.pad.n, cols := R.pad.cols, at' := fun r c => R.pad.at' r c + pen * (bandWeight w (degree + 1)).at' r c } with hT
  have hTn : T.n = p := hn
  have hTc : T.cols = degree + 2 := by rw [hT]; simp [Rot.pad, hband]
  have hTz : ∀ r c, p ≤ r + c → T.at' r c = 0 := by
    intro r c h
    simp only [hT, Rot.pad]
    rw [bandWeight_pad w (degree + 1) (by omega), mul_zero, add_zero]
    split_ifs
    · exact hpad r c h
    · rfl
  have hacc : ∃ x, bandsolve T b = .ok x := by
    rw [bandsolve_accepted_iff]
    refine ⟨by omega, hTz _ _ (by omega), by omega, fun h => hTz _ _ (by omega)⟩
  obtain ⟨x, hx⟩ := hacc
  refine ⟨x, ?_, ?_⟩
  · unfold penalisedSolve
    rw [if_neg (by simp [Rot.pad, hband]), if_neg]
    · exact hx
    · show ¬ R.n ≠ p
      rw [hn]; simp
  · obtain ⟨-, hlen, hk⟩ := bandsolve_accepts hx
    refine ⟨by rw [hlen, hTn], ?_⟩
    intro i hi
    have hden : ∀ i < p, ∀ j < p, dense (T.cols - 1) T.at' i j = system N X eps pen w (degree + 1) i j := by
      intro i hi j hj
      rw [hTc]
      exact system_stored hR hband hi hj
    have hpiv := pivots_pos (n := p) (m := T.cols - 1) T.at' (by
      intro z hz
      have := system_pos N p X eps pen w (degree + 1) hp heps hpen hw z hz
      refine this.trans_eq ?_
      apply sum_congr rfl; intro i hi
      apply sum_congr rfl; intro j hj
      rw [hden i (mem_range.1 hi) j (mem_range.1 hj)])
    have := kernel_solves (n := p) (m := T.cols - 1) T.at' (fun i => b.getD i 0)
      (fun k hk => (hpiv k hk).ne') hi
    rw [← this]
    apply sum_congr rfl
    intro j hj
    have hj := mem_range.1 hj
    rw [hk j (by omega), hden i hi j hj, hTn]

theorem update_eq {old sol : List ℚ} (h : old.length = sol.length) :
    (old.zip (sol.zip old)).map (fun p => p.1 + (p.2.1 - p.2.2)) = sol := by
  induction old generalizing sol with
  | nil => cases sol with
    | nil => rfl
    | cons _ _ => simp at h
  | cons o rest ih =>
    cases sol with
    | nil => simp at h
    | cons q qs =>
      simp only [List.zip_cons_cons, List.map_cons]
      rw [ih (by simpa using h)]
      congr 1
      ring

theorem relError_self {l : List ℚ} (h : ∃ v ∈ l, v ≠ 0) : relError l l = .ok 0 := by
  unfold relError
  have hall : ∀ e ∈ (((l.zip l).filter fun p => decide (p.2 ≠ 0)).map fun p => |p.1 - p.2| / |p.2|), e = 0 := by
    intro e he
    obtain ⟨q, hq, rfl⟩ := List.mem_map.1 he
    have hq := (List.mem_filter.1 hq).1
    obtain ⟨k, hk⟩ := List.mem_iff_getElem?.1 hq
    rw [List.getElem?_zip_eq_some] at hk
    have : q.1 = q.2 := by
      have h1 := hk.1; rw [hk.2] at h1; exact (Option.some.inj h1).symm
    rw [this]; simp
  have hne : (((l.zip l).filter fun p => decide (p.2 ≠ 0)).map fun p => |p.1 - p.2| / |p.2|) ≠ [] := by
    obtain ⟨v, hv, hv0⟩ := h
    obtain ⟨k, hk⟩ := List.mem_iff_getElem?.1 hv
    intro hc
    rw [List.map_eq_nil_iff, List.filter_eq_nil_iff] at hc
    have := hc (v, v) (List.mem_of_getElem? (i := k) (by rw [List.getElem?_zip_eq_some]; exact ⟨hk, hk⟩))
    simp [hv0] at this
  split
  · rename_i hm
    exact absurd (List.max?_eq_none_iff.1 hm) hne
  · rename_i e hm
    rw [hall e (List.max?_mem hm)]

theorem relError_ok {par old : List ℚ} (hl : par.length = old.length) (h : ∃ v ∈ old, v ≠ 0) :
    ∃ e, relError par old = .ok e := by
  unfold relError
  split
  · rename_i hm
    have hm := List.max?_eq_none_iff.1 hm
    rw [List.map_eq_nil_iff, List.filter_eq_nil_iff] at hm
    obtain ⟨v, hv, hv0⟩ := h
    obtain ⟨k, hk⟩ := List.mem_iff_getElem?.1 hv
    have hkl := (List.getElem?_eq_some_iff.1 hk).1
    have := hm (par[k]'(by omega), v) (List.mem_of_getElem? (i := k) (by
      rw [List.getElem?_zip_eq_some]
      exact ⟨List.getElem?_eq_getElem _, hk⟩))
    simp [hv0] at this
  · exact ⟨_, rfl⟩

/-- The iteration settles on the solution of the linear system in at most two passes. -/
theorem ridge_two_passes {xx : Rot} {xy : List ℚ} {d : ℕ} {old sol : List ℚ} {fuel : ℕ}
    (hsol : penalisedSolve xx xy pen w d = .ok sol) (hl : old.length = sol.length)
    (hold : ∃ v ∈ old, v ≠ 0) (hne : ∃ v ∈ sol, v ≠ 0) {tol : ℚ} (htol : 0 < tol) (q) :
    ridgeLoop xx xy pen w d tol (fuel + 2) q old = .ok (some sol) := by
  obtain ⟨e, he⟩ := relError_ok hl.symm hold
  unfold ridgeLoop
  simp only [hsol, bind, Except.bind, update_eq hl, he]
  split_ifs
  · rfl
  · unfold ridgeLoop
    simp only [hsol, bind, Except.bind, update_eq rfl, relError_self hne, if_pos htol]

/-- The objective is its value at the solution plus the quadratic form of the distance. -/
theorem objective_decomp (p : ℕ) (hp : p = w.length + (degree + 1)) (par : ℕ → ℚ)
    (hpar : ∀ i < p, ∑ j ∈ range p, system N X eps pen w (degree + 1) i j * par j
      = ∑ r ∈ range N, X r i * y r) (β : ℕ → ℚ) :
    objective N p X y eps pen w (degree + 1) β = objective N p X y eps pen w (degree + 1) par
      + ∑ i ∈ range p, ∑ j ∈ range p,
          (β i - par i) * system N X eps pen w (degree + 1) i j * (β j - par j) := by
  set d := degree + 1
  -- objective as quadratic polynomial
  have hobj : ∀ γ : ℕ → ℚ, objective N p X y eps pen w d γ = ∑ r ∈ range N, y r ^ 2
      - 2 * ∑ i ∈ range p, γ i * (∑ r ∈ range N, X r i * y r)
      + ∑ i ∈ range p, ∑ j ∈ range p, γ i * system N X eps pen w d i j * γ j := by
    intro γ
    rw [system_form N p X eps pen w d hp]
    unfold objective
    have h1 : ∑ r ∈ range N, (y r - ∑ i ∈ range p, X r i * γ i) ^ 2
        = ∑ r ∈ range N, y r ^ 2 - 2 * ∑ r ∈ range N, y r * ∑ i ∈ range p, X r i * γ i
          + ∑ r ∈ range N, (∑ i ∈ range p, X r i * γ i) * (∑ i ∈ range p, X r i * γ i) := by
      rw [mul_sum, ← sum_sub_distrib, ← sum_add_distrib]
      exact sum_congr rfl fun r _ => by ring
    have h2 : ∑ r ∈ range N, y r * ∑ i ∈ range p, X r i * γ i
        = ∑ i ∈ range p, γ i * (∑ r ∈ range N, X r i * y r) := by
      simp only [mul_sum]
      rw [sum_comm]
      exact sum_congr rfl fun i _ => sum_congr rfl fun r _ => by ring
    have h3 : ∑ k ∈ range w.length, w.getD k 0 * delta d γ k ^ 2
        = ∑ k ∈ range w.length, w.getD k 0 * delta d γ k * delta d γ k :=
      sum_congr rfl fun k _ => by ring
    have h4 : ∑ i ∈ range p, γ i ^ 2 = ∑ i ∈ range p, γ i * γ i :=
      sum_congr rfl fun k _ => by ring
    rw [h1, h2, h3, h4]
    ring
  have hb : ∀ γ : ℕ → ℚ, ∑ i ∈ range p, γ i * (∑ r ∈ range N, X r i * y r)
      = ∑ i ∈ range p, ∑ j ∈ range p, γ i * system N X eps pen w d i j * par j := by
    intro γ
    apply sum_congr rfl
    intro i hi
    rw [← hpar i (mem_range.1 hi), mul_sum]
    exact sum_congr rfl fun j _ => by ring
  have hsym : ∑ i ∈ range p, ∑ j ∈ range p, par i * system N X eps pen w d i j * β j
      = ∑ i ∈ range p, ∑ j ∈ range p, β i * system N X eps pen w d i j * par j := by
    rw [sum_comm]
    refine sum_congr rfl fun i _ => sum_congr rfl fun j _ => ?_
    have : system N X eps pen w d i j = system N X eps pen w d j i := by
      unfold system penaltyMatrix
      rw [gram_symm, dense_symm]
    rw [this]; ring
  have hexp : ∑ i ∈ range p, ∑ j ∈ range p,
        (β i - par i) * system N X eps pen w d i j * (β j - par j)
      = ∑ i ∈ range p, ∑ j ∈ range p, β i * system N X eps pen w d i j * β j
        - ∑ i ∈ range p, ∑ j ∈ range p, β i * system N X eps pen w d i j * par j
        - ∑ i ∈ range p, ∑ j ∈ range p, par i * system N X eps pen w d i j * β j
        + ∑ i ∈ range p, ∑ j ∈ range p, par i * system N X eps pen w d i j * par j := by
    simp only [← sum_sub_distrib, ← sum_add_distrib]
    exact sum_congr rfl fun i _ => sum_congr rfl fun j _ => by ring
  rw [hobj, hobj, hexp, hb, hb, hsym]
  ring

/-- **C47 (ridge solver).** For every design matrix whose regularised normal matrix has bandwidth
`degree`, every non-negative penalty and weights, and data not orthogonal to the design, the ridge
solver returns the unique minimiser of the penalised least squares criterion, whatever non-zero
starting point it is given. -/
theorem ridge_solver_minimises (heps : 0 < eps) (hpen : 0 ≤ pen) (hw : ∀ v ∈ w, 0 ≤ v)
    (hR : mat2rot (gram N X eps) (w.length + (degree + 1)) = .ok R) (hband : R.cols = degree + 1)
    (old : List ℚ) (hold : old.length = w.length + (degree + 1)) (hold0 : ∃ v ∈ old, v ≠ 0)
    (hxy : ∃ v ∈ moment N (w.length + (degree + 1)) X y, v ≠ 0) :
    ∃ par, weightedRidge R.pad (moment N (w.length + (degree + 1)) X y) degree pen w old
        = .ok (some par) ∧ par.length = w.length + (degree + 1) ∧
      ∀ β : ℕ → ℚ,
        objective N par.length X y eps pen w (degree + 1) (fun i => par.getD i 0)
          ≤ objective N par.length X y eps pen w (degree + 1) β ∧
        (objective N par.length X y eps pen w (degree + 1) β
          = objective N par.length X y eps pen w (degree + 1) (fun i => par.getD i 0) →
          ∀ i < par.length, β i = par.getD i 0) := by
  have hblen : (moment N (w.length + (degree + 1)) X y).length = w.length + (degree + 1) := by
    simp [moment]
  obtain ⟨sol, hsol, hlen, heq⟩ := penalisedSolve_correct (X := X) (N := N) heps hpen hw hR hband
    _ hblen
  have hget : ∀ i < w.length + (degree + 1), (moment N (w.length + (degree + 1)) X y).getD i 0
      = ∑ r ∈ range N, X r i * y r := by
    intro i hi
    simp [moment, List.getD, hi]
  have hsne : ∃ v ∈ sol, v ≠ 0 := by
    by_contra hc
    push Not at hc
    obtain ⟨v, hv, hv0⟩ := hxy
    obtain ⟨i, hi⟩ := List.mem_iff_getElem?.1 hv
    have hil := (List.getElem?_eq_some_iff.1 hi).1
    rw [hblen] at hil
    apply hv0
    have h1 := heq i hil
    have h2 : (moment N (w.length + (degree + 1)) X y).getD i 0 = v := by
      rw [List.getD_eq_getElem?_getD, hi, Option.getD_some]
    rw [h2] at h1
    rw [← h1]
    apply sum_eq_zero
    intro j hj
    have hj := mem_range.1 hj
    rw [List.getD_eq_getElem?_getD, List.getElem?_eq_getElem (by omega)]
    simp only [Option.getD_some]
    rw [hc _ (List.getElem_mem _), mul_zero]
  refine ⟨sol, ?_, hlen, ?_⟩
  · unfold weightedRidge
    exact ridge_two_passes (fuel := 998) hsol (by omega) hold0 hsne (by norm_num) none
  · intro β
    rw [hlen]
    have hd := objective_decomp (N := N) (X := X) (y := y) (eps := eps) (pen := pen) (w := w)
      (degree := degree) _ rfl (fun i => sol.getD i 0)
      (fun i hi => by rw [heq i hi, hget i hi]) β
    have hq : ∀ z : ℕ → ℚ, 0 ≤ ∑ i ∈ range (w.length + (degree + 1)),
        ∑ j ∈ range (w.length + (degree + 1)), z i * system N X eps pen w (degree + 1) i j * z j := by
      intro z
      by_cases hz : ∃ i < w.length + (degree + 1), z i ≠ 0
      · exact (system_pos N _ X eps pen w (degree + 1) rfl heps hpen hw z hz).le
      · push Not at hz
        apply le_of_eq
        symm
        apply sum_eq_zero
        intro i hi
        apply sum_eq_zero
        intro j _
        rw [hz i (mem_range.1 hi)]; ring
    constructor
    · rw [hd]
      have := hq (fun i => β i - sol.getD i 0)
      linarith
    · intro hobj i hi
      by_contra hne
      have := system_pos N _ X eps pen w (degree + 1) rfl heps hpen hw
        (fun i => β i - sol.getD i 0) ⟨i, hi, sub_ne_zero.2 hne⟩
      linarith

/-- **C47 (finding).** When the data are orthogonal to every spline basis function - for example a
KPI that is constant in every geo, so that the centred KPI is zero - the ridge solver raises:
its second pass takes the maximum of an empty selection. -/
theorem ridge_solver_fails_on_flat_data (heps : 0 < eps) (hpen : 0 ≤ pen) (hw : ∀ v ∈ w, 0 ≤ v)
    (hR : mat2rot (gram N X eps) (w.length + (degree + 1)) = .ok R) (hband : R.cols = degree + 1)
    (old : List ℚ) (hold : old.length = w.length + (degree + 1)) (hold0 : ∃ v ∈ old, v ≠ 0)
    (hxy : ∀ v ∈ moment N (w.length + (degree + 1)) X y, v = 0) :
    weightedRidge R.pad (moment N (w.length + (degree + 1)) X y) degree pen w old
      = .error .emptyMax := by
  have hblen : (moment N (w.length + (degree + 1)) X y).length = w.length + (degree + 1) := by
    simp [moment]
  obtain ⟨sol, hsol, hlen, heq⟩ := penalisedSolve_correct (X := X) (N := N) heps hpen hw hR hband
    _ hblen
  have hz : ∀ i < w.length + (degree + 1), sol.getD i 0 = 0 := by
    by_contra hc
    push Not at hc
    have := system_pos N _ X eps pen w (degree + 1) rfl heps hpen hw (fun i => sol.getD i 0) hc
    have h0 : ∑ i ∈ range (w.length + (degree + 1)), ∑ j ∈ range (w.length + (degree + 1)),
        sol.getD i 0 * system N X eps pen w (degree + 1) i j * sol.getD j 0 = 0 := by
      apply sum_eq_zero
      intro i hi
      have hi := mem_range.1 hi
      have h1 := heq i hi
      have h2 : (moment N (w.length + (degree + 1)) X y).getD i 0 = 0 := by
        rw [List.getD_eq_getElem?_getD, List.getElem?_eq_getElem (by omega)]
        exact hxy _ (List.getElem_mem _)
      rw [h2] at h1
      simp only [mul_assoc]
      rw [← mul_sum, h1, mul_zero]
    rw [h0] at this
    exact lt_irrefl _ this
  have hsz : ∀ v ∈ sol, v = 0 := by
    intro v hv
    obtain ⟨i, hi⟩ := List.mem_iff_getElem?.1 hv
    have hil := (List.getElem?_eq_some_iff.1 hi).1
    have := hz i (by omega)
    rw [List.getD_eq_getElem?_getD, hi] at this
    exact this
  have hl : old.length = sol.length := by omega
  obtain ⟨e, he⟩ := relError_ok hl.symm hold0
  have he1 : e = 1 := by
    unfold relError at he
    split at he
    · cases he
    · rename_i e' hm
      cases he
      obtain ⟨q, hq, rfl⟩ := List.mem_map.1 (List.max?_mem hm)
      obtain ⟨hq1, hq2⟩ := List.mem_filter.1 hq
      have hq2 : q.2 ≠ 0 := by simpa using hq2
      have : q.1 = 0 := hsz _ (List.of_mem_zip hq1).1
      rw [this, zero_sub, abs_neg, div_self (abs_ne_zero.2 hq2)]
  have hempty : relError sol sol = .error .emptyMax := by
    unfold relError
    have : ((sol.zip sol).filter fun p => decide (p.2 ≠ 0)) = [] := by
      rw [List.filter_eq_nil_iff]
      intro q hq
      simp [hsz _ (List.of_mem_zip hq).2]
    rw [this]
    rfl
  unfold weightedRidge
  unfold ridgeLoop
  simp only [hsol, bind, Except.bind, update_eq hl, he]
  rw [if_neg (by rw [he1]; norm_num)]
  unfold ridgeLoop
  simp only [hsol, bind, Except.bind, update_eq rfl, hempty]

end ridge

/-- The ridge solver rejects every normal matrix whose bandwidth is not the degree. -/
theorem ridge_solver_needs_bandwidth (A : ℕ → ℕ → ℚ) (p : ℕ) (R : Rot) (hR : mat2rot A p = .ok R)
    (degree : ℕ) (h : R.cols ≠ degree + 1) (xy w old : List ℚ) (pen : ℚ) :
    weightedRidge R.pad xy degree pen w old = .error .columns := by
  unfold weightedRidge ridgeLoop penalisedSolve
  rw [if_pos (by simpa [Rot.pad] using h)]
  rfl

/-- Linear splines with knots 0, 1, 3 observed at 0, 1, 2, 3 (time 2 is not a knot). -/
def demoX : ℕ → ℕ → ℚ := fun r i =>
  (([[1, 0, 0], [0, 1, 0], [0, 1 / 2, 1 / 2], [0, 0, 1]] : List (List ℚ)).getD r []).getD i 0

/-- Observations. -/
def demoY : ℕ → ℚ := fun r => ([1, 2, 0, 4] : List ℚ).getD r 0

example : (mat2rot (gram 4 demoX (1 / 10)) ([1].length + (1 + 1))).map (fun R => (R.n, R.cols))
    = .ok (3, 2) := by decide +kernel

example : ∃ v ∈ moment 4 3 demoX demoY, v ≠ 0 := ⟨1, by decide +kernel, by decide +kernel⟩

example : (mat2rot (gram 4 demoX (1 / 10)) 3).bind (fun R =>
    weightedRidge R.pad (moment 4 3 demoX demoY) 1 2 [1] [1, 1, 1])
    = .ok (some [230 / 363, 535 / 363, 895 / 363]) := by decide +kernel

/-- Flat data. -/
example : (mat2rot (gram 4 demoX (1 / 10)) 3).bind (fun R =>
    weightedRidge R.pad (moment 4 3 demoX fun _ => 0) 1 2 [1] [1, 1, 1]) = .error .emptyMax := by
  decide +kernel

/-- With every time a knot the normal matrix is diagonal and the solver refuses it. -/
example : (mat2rot (gram 3 (fun r i => if r = i then 1 else 0) (1 / 10)) 3).bind (fun R =>
    weightedRidge R.pad [1, 2, 3] 1 2 [1] [1, 1, 1]) = .error .columns := by decide +kernel

end Verif.BandSolve.Props

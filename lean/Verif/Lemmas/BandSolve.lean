import Verif.Model.BandSolve
import Mathlib.Algebra.BigOperators.Intervals
import Mathlib.Algebra.BigOperators.Ring.Finset
import Mathlib.Algebra.Order.BigOperators.Ring.Finset
import Mathlib.Tactic.Ring
import Mathlib.Tactic.Linarith
import Mathlib.Tactic.FieldSimp

/-! # Lemmas on the banded solver -/

namespace Verif.BandSolve

open Finset

theorem forRange_inv {σ : Type} (P : ℕ → σ → Prop) {lo hi : ℕ} {s : σ} {f : σ → ℕ → σ}
    (hle : lo ≤ hi) (h0 : P lo s)
    (hstep : ∀ i t, lo ≤ i → i < hi → P i t → P (i + 1) (f t i)) : P hi (forRange lo hi s f) := by
  unfold forRange
  obtain ⟨n, rfl⟩ := Nat.exists_eq_add_of_le hle
  rw [Nat.add_sub_cancel_left]
  clear hle
  induction n with
  | zero => simpa using h0
  | succ n ih =>
    rw [List.range'_1_concat, List.foldl_append]
    simp only [List.foldl_cons, List.foldl_nil]
    exact hstep (lo + n) _ (Nat.le_add_right _ _) (by omega)
      (ih fun i t h1 h2 => hstep i t h1 (by omega))

theorem forRange_empty {σ : Type} {lo hi : ℕ} {s : σ} {f : σ → ℕ → σ} (h : hi ≤ lo) :
    forRange lo hi s f = s := by
  unfold forRange
  rw [Nat.sub_eq_zero_of_le h]; rfl

theorem forRange_sum (lo hi : ℕ) (a : ℚ) (f : ℕ → ℚ) :
    forRange lo hi a (fun t k => t + f k) = a + ∑ k ∈ Ico lo hi, f k := by
  rcases le_total hi lo with h | h
  · rw [forRange_empty h, Ico_eq_empty (by omega)]; simp
  · exact forRange_inv (fun i t => t = a + ∑ k ∈ Ico lo i, f k) h (by simp) (by
      intro i t h1 h2 ht
      rw [ht, sum_Ico_succ_top h1]; ring)

/-! ## The factorisation -/

/-- Effect of the innermost loop: one cell is reduced by a sum over earlier rows. -/
theorem ldl_inner (M : ℕ → ℕ → ℚ) (lo i j : ℕ) :
    forRange lo j M (fun M k =>
      set2 M j (i - j) (M j (i - j) - M k (i - k) * M k (j - k) * M k 0))
    = set2 M j (i - j) (M j (i - j) - ∑ k ∈ Ico lo j, M k (i - k) * M k (j - k) * M k 0) := by
  rcases le_total j lo with h | h
  · rw [forRange_empty h, Ico_eq_empty (by omega)]
    funext r c
    unfold set2
    split_ifs with hc
    · rw [hc.1, hc.2]; simp
    · rfl
  · refine forRange_inv (fun q N => N = set2 M j (i - j) (M j (i - j)
      - ∑ k ∈ Ico lo q, M k (i - k) * M k (j - k) * M k 0)) h ?_ ?_
    · funext r c
      unfold set2
      split_ifs with hc
      · rw [hc.1, hc.2]; simp
      · rfl
    · intro q N h1 h2 hN
      subst hN
      have hq : q ≠ j := by omega
      funext r c
      simp only [set2, and_self, if_true, if_neg (fun h : q = j ∧ _ => hq h.1)]
      split_ifs with hc
      · rw [sum_Ico_succ_top h1]; ring
      · rfl

/-- The equation a finished cell satisfies. -/
def Eqn (m : ℕ) (M0 M : ℕ → ℕ → ℚ) (r c : ℕ) : Prop :=
  M r c = (M0 r c - ∑ k ∈ Ico (r + c - m) r, M k (r + c - k) * M k (r - k) * M k 0)
    / (if 0 < c then M r 0 else 1)

theorem Eqn.congr {m : ℕ} {M0 M N : ℕ → ℕ → ℚ} {r c : ℕ} (h : Eqn m M0 M r c)
    (hN : ∀ r' c', (r' + c' < r + c ∨ (r' + c' = r + c ∧ r' ≤ r)) → N r' c' = M r' c') :
    Eqn m M0 N r c := by
  unfold Eqn at h ⊢
  rw [hN r c (by omega), hN r 0 (by omega), h]
  congr 2
  apply sum_congr rfl
  intro k hk
  have hk := mem_Ico.1 hk
  rw [hN k (r + c - k) (by omega), hN k (r - k) (by omega), hN k 0 (by omega)]

/-- Cells before position `(i, j)` (column by column) are finished, the others are untouched. -/
def Done (m : ℕ) (M0 M : ℕ → ℕ → ℚ) (i j : ℕ) : Prop :=
  ∀ r c, (c ≤ m → (r + c < i ∨ (r + c = i ∧ r < j)) → Eqn m M0 M r c) ∧
    (¬ (c ≤ m ∧ (r + c < i ∨ (r + c = i ∧ r < j))) → M r c = M0 r c)

theorem ldl_step {m : ℕ} {M0 M : ℕ → ℕ → ℚ} {i j : ℕ} (hj : i - m ≤ j) (hji : j ≤ i)
    (h : Done m M0 M i j) :
    Done m M0 (
      let M := forRange (i - m) j M fun M k =>
        set2 M j (i - j) (M j (i - j) - M k (i - k) * M k (j - k) * M k 0)
      if j < i then set2 M j (i - j) (M j (i - j) / M j 0) else M) i (j + 1) := by
  rw [ldl_inner]
  have hM : M j (i - j) = M0 j (i - j) := (h j (i - j)).2 (by omega)
  generalize hN : (let M := set2 M j (i - j) (M j (i - j) - ∑ k ∈ Ico (i - m) j, M k (i - k) * M k (j - k) * M k 0)
      if j < i then set2 M j (i - j) (M j (i - j) / M j 0) else M) = N
  have hother : ∀ r c, ¬ (r = j ∧ c = i - j) → N r c = M r c := by
    intro r c hrc
    rw [← hN]
    dsimp only
    split_ifs with hlt
    · unfold set2; rw [if_neg hrc, if_neg hrc]
    · unfold set2; rw [if_neg hrc]
  have hcell : N j (i - j) = (M0 j (i - j) - ∑ k ∈ Ico (i - m) j, M k (i - k) * M k (j - k) * M k 0)
      / (if 0 < i - j then N j 0 else 1) := by
    have hsum : ∑ k ∈ Ico (i - m) j, M k (i - k) * M k (j - k) * M k 0
      = ∑ k ∈ Ico (i - m) j, M k (i - k) * M k (j - k) * M k 0 := rfl
    rcases Nat.lt_or_ge j i with hlt | hge
    · rw [if_pos (by omega), hother j 0 (by omega), ← hM, ← hN]
      have h0 : ¬ (0 = i - j) := by omega
      simp [set2, hlt, h0]
    · rw [if_neg (by omega), ← hM, ← hN]
      simp [set2, Nat.not_lt.2 hge]
  intro r c
  constructor
  · intro hc hlex
    by_cases hrc : r = j ∧ c = i - j
    · obtain ⟨rfl, rfl⟩ := hrc
      unfold Eqn
      rw [hcell, show r + (i - r) = i by omega]
      congr 2
      apply sum_congr rfl
      intro k hk
      have hk := mem_Ico.1 hk
      rw [hother k _ (by omega), hother k _ (by omega), hother k _ (by omega)]
    · apply ((h r c).1 hc (by omega)).congr
      intro r' c' hl
      apply hother
      rintro ⟨rfl, rfl⟩
      omega
  · intro hnot
    rw [hother r c (by omega)]
    exact (h r c).2 (by omega)

theorem ldl_done (n m : ℕ) (M0 : ℕ → ℕ → ℚ) : Done m M0 (ldl n m M0) n 0 := by
  unfold ldl
  refine forRange_inv (fun i M => Done m M0 M i 0) (Nat.zero_le n) ?_ ?_
  · intro r c
    exact ⟨fun _ h => by omega, fun _ => rfl⟩
  · intro i M _ _ h
    have h' : Done m M0 M i (i - m) := by
      intro r c
      refine ⟨fun hc hl => (h r c).1 hc (by omega), fun hn => (h r c).2 (by omega)⟩
    have := forRange_inv (fun j M => Done m M0 M i j) (lo := i - m) (hi := i + 1) (s := M)
      (by omega) h' (fun j t h1 h2 ht => ldl_step h1 (by omega) ht)
    intro r c
    refine ⟨fun hc hl => (this r c).1 hc (by omega), fun hn => (this r c).2 ?_⟩
    omega

/-- The finished cells of the factorisation. -/
theorem ldl_eqn (n m : ℕ) (M0 : ℕ → ℕ → ℚ) {r c : ℕ} (hc : c ≤ m) (hrc : r + c < n) :
    Eqn m M0 (ldl n m M0) r c := ((ldl_done n m M0) r c).1 hc (.inl hrc)

/-! ## The triangular solves -/

theorem sub_fold (x : ℕ → ℚ) (i hi : ℕ) (a : ℕ → ℚ) (g : ℕ → ℕ) (hg : ∀ j, 1 ≤ j → j < hi → g j ≠ i) :
    forRange 1 hi x (fun x j => set1 x i (x i - a j * x (g j)))
      = set1 x i (x i - ∑ j ∈ Ico 1 hi, a j * x (g j)) := by
  have h0 : ∀ v, v = x i → set1 x i v = x := by
    intro v hv; funext q; unfold set1; split_ifs with h
    · rw [h, hv]
    · rfl
  rcases le_total hi 1 with h | h
  · rw [forRange_empty h, Ico_eq_empty (by omega)]
    exact (h0 _ (by simp)).symm
  · refine forRange_inv (fun q y => q ≤ hi → y = set1 x i (x i - ∑ j ∈ Ico 1 q, a j * x (g j))) h
      (fun _ => (h0 _ (by simp)).symm) ?_ le_rfl
    intro q y h1 h2 hy hq
    rw [hy (by omega)]
    have hne := hg q h1 h2
    funext r
    unfold set1
    simp only [if_true, if_neg hne]
    split_ifs with hr
    · rw [sum_Ico_succ_top h1]; ring
    · rfl

/-- The forward substitution solves `L y = b`. -/
theorem forward_eqn (n m : ℕ) (F : ℕ → ℕ → ℚ) (b : ℕ → ℚ) {i : ℕ} (hi : i < n) :
    forward n m F b i = b i - ∑ j ∈ Ico 1 (min i m + 1), F (i - j) j * forward n m F b (i - j) := by
  have key : ∀ i', (i' < n → forward n m F b i' = b i'
      - ∑ j ∈ Ico 1 (min i' m + 1), F (i' - j) j * forward n m F b (i' - j)) := by
    let P : ℕ → (ℕ → ℚ) → Prop := fun q y => (∀ i', i' < q → y i' = b i'
          - ∑ j ∈ Ico 1 (min i' m + 1), F (i' - j) j * y (i' - j)) ∧ ∀ i', q ≤ i' → y i' = b i'
    have : P n (forward n m F b) := by
      unfold forward
      refine forRange_inv P (by omega) ⟨?_, fun _ _ => rfl⟩ ?_
      · intro i' h
        have : i' = 0 := by omega
        subst this
        simp
      · intro q y h1 h2 ⟨hy1, hy2⟩
        rw [sub_fold y q _ (fun j => F (q - j) j) (fun j => q - j) (by intro j h1 h2; omega)]
        constructor
        · intro i' h
          rcases Nat.lt_or_eq_of_le (Nat.le_of_lt_succ h) with hlt | heq
          · simp only [set1, if_neg (Nat.ne_of_lt hlt)]
            rw [hy1 i' hlt]
            congr 1
            apply sum_congr rfl
            intro j hj
            rw [if_neg (by omega)]
          · subst heq
            simp only [set1, if_true]
            rw [hy2 i' le_rfl]
            congr 1
            apply sum_congr rfl
            intro j hj
            have := mem_Ico.1 hj
            rw [if_neg (by omega)]
        · intro i' h
          simp only [set1, if_neg (show ¬ i' = q by omega)]
          exact hy2 i' (by omega)
    exact fun i' h => this.1 i' h
  exact key i hi

theorem diagSolve_eq (n : ℕ) (F : ℕ → ℕ → ℚ) (y : ℕ → ℚ) {i : ℕ} (hi : i < n) :
    diagSolve n F y i = y i / F i 0 := by
  let P : ℕ → (ℕ → ℚ) → Prop := fun q z => ∀ i, (i < q → z i = y i / F i 0) ∧ (q ≤ i → z i = y i)
  have : P n (diagSolve n F y) := by
    unfold diagSolve
    refine forRange_inv P (Nat.zero_le n) (fun i => ⟨fun h => by omega, fun _ => rfl⟩) ?_
    intro q z _ _ hz i
    constructor
    · intro h
      unfold set1
      split_ifs with he
      · rw [he, (hz q).2 le_rfl]
      · exact (hz i).1 (by omega)
    · intro h
      unfold set1
      rw [if_neg (by omega)]
      exact (hz i).2 (by omega)
  exact (this i).1 hi

/-- The backward substitution solves `Lᵀ x = z`. -/
theorem backward_eqn (n m : ℕ) (F : ℕ → ℕ → ℚ) (z : ℕ → ℚ) {i : ℕ} (hi : i < n) :
    backward n m F z i
      = z i - ∑ j ∈ Ico 1 (min (n - 1 - i) m + 1), F i j * backward n m F z (i + j) := by
  let P : ℕ → (ℕ → ℚ) → Prop := fun q y => (∀ i', i' < n → n - 1 - q ≤ i' → y i' = z i'
        - ∑ j ∈ Ico 1 (min (n - 1 - i') m + 1), F i' j * y (i' + j)) ∧
        ∀ i', i' < n - 1 - q → y i' = z i'
  have : P (n - 1) (backward n m F z) := by
    unfold backward
    refine forRange_inv P (Nat.zero_le _) ⟨?_, fun _ _ => rfl⟩ ?_
    · intro i' h1 h2
      have : n - 1 - i' = 0 := by omega
      rw [this]; simp
    · intro q y _ h2 ⟨hy1, hy2⟩
      have hne : ∀ j, 1 ≤ j → n - 2 - q + j ≠ n - 2 - q := by intro j hj; omega
      simp only
      rw [sub_fold y (n - 2 - q) _ (fun j => F (n - 2 - q) j) (fun j => n - 2 - q + j)
        (by intro j h1 h2; omega)]
      constructor
      · intro i' h1 h3
        by_cases heq : i' = n - 2 - q
        · subst heq
          simp only [set1, if_true]
          rw [hy2 _ (by omega)]
          congr 1
          apply sum_congr rfl
          intro j hj
          have := mem_Ico.1 hj
          rw [if_neg (by omega)]
        · simp only [set1, if_neg heq]
          rw [hy1 i' h1 (by omega)]
          congr 1
          apply sum_congr rfl
          intro j hj
          rw [if_neg (by omega)]
      · intro i' h
        simp only [set1, if_neg (show ¬ i' = n - 2 - q by omega)]
        exact hy2 i' (by omega)
  exact this.1 i hi (by omega)

/-! ## Matrix form -/

/-- The unit lower triangular factor. -/
def Lmat (m : ℕ) (F : ℕ → ℕ → ℚ) (i k : ℕ) : ℚ :=
  if i = k then 1 else if k < i ∧ i - k ≤ m then F k (i - k) else 0

/-- The symmetric matrix stored in rotated form with `m` superdiagonals. -/
def dense (m : ℕ) (M : ℕ → ℕ → ℚ) (i j : ℕ) : ℚ :=
  if j ≤ i then (if i - j ≤ m then M j (i - j) else 0)
  else (if j - i ≤ m then M i (j - i) else 0)

theorem dense_symm (m : ℕ) (M : ℕ → ℕ → ℚ) (i j : ℕ) : dense m M i j = dense m M j i := by
  unfold dense
  rcases lt_trichotomy i j with h | h | h
  · rw [if_neg (Nat.not_le.2 h), if_pos h.le]
  · subst h; rfl
  · rw [if_pos h.le, if_neg (Nat.not_le.2 h)]

/-- `A = L D Lᵀ` on the leading block of size `K`, if the pivots before the last are non-zero. -/
theorem ldl_factor {n m : ℕ} (M : ℕ → ℕ → ℚ) {K : ℕ} (hK : K ≤ n)
    (hp : ∀ k, k + 1 < K → ldl n m M k 0 ≠ 0) {i j : ℕ} (hi : i < K) (hj : j < K) :
    dense m M i j = ∑ k ∈ range K, Lmat m (ldl n m M) i k * ldl n m M k 0 * Lmat m (ldl n m M) j k := by
  wlog hji : j ≤ i generalizing i j
  · rw [dense_symm, this hj hi (by omega)]
    exact sum_congr rfl fun k _ => by ring
  set F := ldl n m M with hF
  unfold dense
  rw [if_pos hji]
  by_cases hm : i - j ≤ m
  · rw [if_pos hm]
    have he := ldl_eqn n m M (r := j) (c := i - j) hm (by omega)
    rw [← hF] at he
    unfold Eqn at he
    rw [show j + (i - j) = i by omega] at he
    -- the sum over all k reduces to k ≤ j
    have hsplit : ∑ k ∈ range K, Lmat m F i k * F k 0 * Lmat m F j k
        = (∑ k ∈ Ico (i - m) j, F k (i - k) * F k (j - k) * F k 0) + Lmat m F i j * F j 0 := by
      have h1 : ∑ k ∈ range K, Lmat m F i k * F k 0 * Lmat m F j k
          = ∑ k ∈ range (j + 1), Lmat m F i k * F k 0 * Lmat m F j k := by
        symm
        apply sum_subset (range_subset_range.2 (by omega))
        intro k hk hk'
        have hk := mem_range.1 hk
        have hk' := mt mem_range.2 hk'
        have : Lmat m F j k = 0 := by
          unfold Lmat
          rw [if_neg (by omega), if_neg (by omega)]
        rw [this, mul_zero]
      rw [h1, sum_range_succ]
      have h2 : ∑ k ∈ range j, Lmat m F i k * F k 0 * Lmat m F j k
          = ∑ k ∈ Ico (i - m) j, Lmat m F i k * F k 0 * Lmat m F j k := by
        symm
        apply sum_subset
        · intro k hk; have := mem_Ico.1 hk; exact mem_range.2 (by omega)
        · intro k hk hk'
          have hk := mem_range.1 hk
          have hk' := mt mem_Ico.2 hk'
          have : Lmat m F i k = 0 := by
            unfold Lmat
            rw [if_neg (by omega), if_neg (by omega)]
          rw [this]; ring
      rw [h2]
      congr 1
      · apply sum_congr rfl
        intro k hk
        have hk := mem_Ico.1 hk
        unfold Lmat
        rw [if_neg (by omega), if_pos (by omega), if_neg (by omega), if_pos (by omega)]
        ring
      · have : Lmat m F j j = 1 := by unfold Lmat; simp
        rw [this, mul_one]
    rw [hsplit]
    rcases Nat.lt_or_eq_of_le hji with hlt | heq
    · have hL : Lmat m F i j = F j (i - j) := by
        unfold Lmat; rw [if_neg (by omega), if_pos (by omega)]
      rw [if_pos (by omega)] at he
      have hne := hp j (by omega)
      rw [hL, he]
      field_simp
      ring
    · subst heq
      have hL : Lmat m F j j = 1 := by unfold Lmat; simp
      rw [hL, one_mul]
      rw [if_neg (by omega), div_one] at he
      simp only [Nat.sub_self] at he ⊢
      linarith
  · rw [if_neg hm]
    symm
    apply sum_eq_zero
    intro k hk
    by_cases hkj : k ≤ j
    · have : Lmat m F i k = 0 := by unfold Lmat; rw [if_neg (by omega), if_neg (by omega)]
      rw [this]; ring
    · have : Lmat m F j k = 0 := by unfold Lmat; rw [if_neg (by omega), if_neg (by omega)]
      rw [this]; ring

theorem sum_lower (m : ℕ) (F : ℕ → ℕ → ℚ) (y : ℕ → ℚ) {n i : ℕ} (hi : i < n) :
    ∑ k ∈ range n, Lmat m F i k * y k
      = y i + ∑ j ∈ Ico 1 (min i m + 1), F (i - j) j * y (i - j) := by
  have h1 : ∑ k ∈ range n, Lmat m F i k * y k = ∑ k ∈ Ico (i - m) (i + 1), Lmat m F i k * y k := by
    symm
    apply sum_subset
    · intro k hk; have := mem_Ico.1 hk; exact mem_range.2 (by omega)
    · intro k _ hk
      have hk := mt mem_Ico.2 hk
      have : Lmat m F i k = 0 := by unfold Lmat; rw [if_neg (by omega), if_neg (by omega)]
      rw [this, zero_mul]
  rw [h1, sum_Ico_succ_top (by omega)]
  have h2 : Lmat m F i i = 1 := by unfold Lmat; simp
  rw [h2, one_mul, add_comm]
  congr 1
  apply sum_nbij' (fun k => i - k) (fun j => i - j)
  · intro k hk; have := mem_Ico.1 hk; exact mem_Ico.2 (by omega)
  · intro j hj; have := mem_Ico.1 hj; exact mem_Ico.2 (by omega)
  · intro k hk; have := mem_Ico.1 hk; omega
  · intro j hj; have := mem_Ico.1 hj; omega
  · intro k hk
    have := mem_Ico.1 hk
    unfold Lmat
    rw [if_neg (by omega), if_pos (by omega), show i - (i - k) = k by omega]

theorem sum_upper (m : ℕ) (F : ℕ → ℕ → ℚ) (x : ℕ → ℚ) {n i : ℕ} (hi : i < n) :
    ∑ k ∈ range n, Lmat m F k i * x k
      = x i + ∑ j ∈ Ico 1 (min (n - 1 - i) m + 1), F i j * x (i + j) := by
  have h1 : ∑ k ∈ range n, Lmat m F k i * x k
      = ∑ k ∈ Ico i (i + min (n - 1 - i) m + 1), Lmat m F k i * x k := by
    symm
    apply sum_subset
    · intro k hk; have := mem_Ico.1 hk; exact mem_range.2 (by omega)
    · intro k hk' hk
      have hk' := mem_range.1 hk'
      have hk := mt mem_Ico.2 hk
      have : Lmat m F k i = 0 := by unfold Lmat; rw [if_neg (by omega), if_neg (by omega)]
      rw [this, zero_mul]
  rw [h1, sum_eq_sum_Ico_succ_bot (by omega)]
  have h2 : Lmat m F i i = 1 := by unfold Lmat; simp
  rw [h2, one_mul]
  congr 1
  apply sum_nbij' (fun k => k - i) (fun j => i + j)
  · intro k hk; have := mem_Ico.1 hk; exact mem_Ico.2 (by omega)
  · intro j hj; have := mem_Ico.1 hj; exact mem_Ico.2 (by omega)
  · intro k hk; have := mem_Ico.1 hk; omega
  · intro j hj; omega
  · intro k hk
    have := mem_Ico.1 hk
    unfold Lmat
    rw [if_neg (by omega), if_pos (by omega), show i + (k - i) = k by omega]

/-- With non-zero pivots the kernel solves the system. -/
theorem kernel_solves {n m : ℕ} (M : ℕ → ℕ → ℚ) (b : ℕ → ℚ)
    (hp : ∀ k < n, ldl n m M k 0 ≠ 0) {i : ℕ} (hi : i < n) :
    ∑ j ∈ range n, dense m M i j * kernel n m M b j = b i := by
  set F := ldl n m M with hF
  set y := forward n m F b with hy
  set z := diagSolve n F y with hz
  set x := kernel n m M b with hx
  have hxe : x = backward n m F z := rfl
  have e1 : ∀ i < n, ∑ k ∈ range n, Lmat m F i k * y k = b i := by
    intro i hi
    rw [sum_lower m F y hi]
    have := forward_eqn n m F b hi
    rw [← hy] at this
    linarith
  have e2 : ∀ i < n, ∑ k ∈ range n, Lmat m F k i * x k = z i := by
    intro i hi
    rw [sum_upper m F x hi]
    have := backward_eqn n m F z hi
    rw [← hxe] at this
    linarith
  calc ∑ j ∈ range n, dense m M i j * x j
      = ∑ j ∈ range n, ∑ k ∈ range n, Lmat m F i k * F k 0 * Lmat m F j k * x j := by
        apply sum_congr rfl
        intro j hj
        rw [ldl_factor M le_rfl (fun k hk => hp k (by omega)) hi (mem_range.1 hj), sum_mul]
    _ = ∑ k ∈ range n, Lmat m F i k * F k 0 * ∑ j ∈ range n, Lmat m F j k * x j := by
        rw [sum_comm]
        apply sum_congr rfl
        intro k _
        rw [mul_sum]
        exact sum_congr rfl fun j _ => by ring
    _ = ∑ k ∈ range n, Lmat m F i k * y k := by
        apply sum_congr rfl
        intro k hk
        have hk := mem_range.1 hk
        rw [e2 k hk, hz, diagSolve_eq n F y hk, mul_assoc, mul_div_cancel₀ _ (hp k hk)]
    _ = b i := e1 i hi

/-- For a positive definite matrix all pivots are positive. -/
theorem pivots_pos {n m : ℕ} (M : ℕ → ℕ → ℚ)
    (hpd : ∀ x : ℕ → ℚ, (∃ i < n, x i ≠ 0) →
      0 < ∑ i ∈ range n, ∑ j ∈ range n, x i * dense m M i j * x j) :
    ∀ k < n, 0 < ldl n m M k 0 := by
  intro k
  induction k using Nat.strong_induction_on with
  | _ k ih =>
    intro hk
    set F := ldl n m M with hF
    set K := k + 1 with hKdef
    let e : ℕ → ℚ := fun i => if i = k then 1 else 0
    let x := backward K m F e
    let x' : ℕ → ℚ := fun i => if i < K then x i else 0
    have e2 : ∀ i < K, ∑ q ∈ range K, Lmat m F q i * x q = e i := by
      intro i hi
      rw [sum_upper m F x hi]
      have := backward_eqn K m F e hi
      linarith
    have hxk : x k = 1 := by
      have := backward_eqn K m F e (i := k) (by omega)
      rw [show K - 1 - k = 0 by omega] at this
      simpa [e, x] using this
    have hpos := hpd x' ⟨k, hk, by simp [x', hKdef, hxk]⟩
    have hred : ∑ i ∈ range n, ∑ j ∈ range n, x' i * dense m M i j * x' j
        = ∑ i ∈ range K, ∑ j ∈ range K, x i * dense m M i j * x j := by
      have hs : range K ⊆ range n := range_subset_range.2 (by omega)
      rw [← sum_subset hs]
      · apply sum_congr rfl
        intro i hi
        rw [← sum_subset hs]
        · apply sum_congr rfl
          intro j hj
          simp [x', mem_range.1 hi, mem_range.1 hj]
        · intro j _ hj
          simp [x', mt mem_range.2 hj]
      · intro i _ hi
        apply sum_eq_zero
        intro j _
        simp [x', mt mem_range.2 hi]
    rw [hred] at hpos
    have hval : ∑ i ∈ range K, ∑ j ∈ range K, x i * dense m M i j * x j = F k 0 := by
      calc ∑ i ∈ range K, ∑ j ∈ range K, x i * dense m M i j * x j
          = ∑ i ∈ range K, ∑ j ∈ range K, ∑ q ∈ range K,
              F q 0 * (Lmat m F i q * x i) * (Lmat m F j q * x j) := by
            apply sum_congr rfl; intro i hi
            apply sum_congr rfl; intro j hj
            rw [ldl_factor M (by omega) (fun q hq => (ih q (by omega) (by omega)).ne')
              (mem_range.1 hi) (mem_range.1 hj), mul_sum, sum_mul]
            exact sum_congr rfl fun q _ => by ring
        _ = ∑ q ∈ range K, F q 0 * (∑ i ∈ range K, Lmat m F i q * x i)
              * ∑ j ∈ range K, Lmat m F j q * x j := by
            have h3 : ∀ i ∈ range K, ∑ j ∈ range K, ∑ q ∈ range K,
                F q 0 * (Lmat m F i q * x i) * (Lmat m F j q * x j)
              = ∑ q ∈ range K, F q 0 * (Lmat m F i q * x i) * ∑ j ∈ range K, Lmat m F j q * x j := by
              intro i _
              rw [sum_comm]
              exact sum_congr rfl fun q _ => by rw [mul_sum]
            rw [sum_congr rfl h3, sum_comm]
            apply sum_congr rfl
            intro q _
            rw [← sum_mul, ← mul_sum]
        _ = ∑ q ∈ range K, F q 0 * e q * e q := by
            apply sum_congr rfl
            intro q hq
            rw [e2 q (mem_range.1 hq)]
        _ = F k 0 := by
            rw [sum_eq_single k]
            · simp [e]
            · intro q _ hq; simp [e, hq]
            · intro h; exact absurd (mem_range.2 (by omega)) h
    linarith

end Verif.BandSolve

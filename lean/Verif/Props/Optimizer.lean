import Verif.Lemmas.Optimizer2
import Verif.Props.GridSearch

/-!
# Budget pipeline: properties C11, C12, C14, C16 - C19, C21
-/

namespace Verif.Optimizer.Props

open Verif Verif.GridSearch Verif.GridSearch.Spec Verif.Optimizer Finset

/-! ### C17: the rounding step -/

/-- **C17.** The step is a power of ten.  It is 1 when the tolerance `budget * gtol` is below 1;
otherwise it is the smallest power of ten *above* the tolerance, so at most ten times it. -/
theorem round_factor_step (b g : ℚ) (rf : ℤ) (h : getRoundFactor b g = .ok rf) :
    (∃ k : ℕ, rf = -k ∧ stepSize rf = 10 ^ k) ∧
    (b * g < 1 → stepSize rf = 1) ∧
    (1 ≤ b * g → b * g < stepSize rf ∧ (stepSize rf : ℚ) ≤ 10 * (b * g)) := by
  unfold getRoundFactor at h
  simp only at h
  split_ifs at h with h1 h2 h3
  · cases h
    exact ⟨⟨0, by simp, by simp [stepSize]⟩, fun _ => by simp [stepSize], fun h => absurd h3 (by linarith)⟩
  · cases h
    have e : stepSize (-(Nat.log 10 ⌊b * g⌋₊ : ℤ) - 1) = 10 ^ (Nat.log 10 ⌊b * g⌋₊ + 1) := by
      unfold stepSize
      congr 1
      omega
    refine ⟨⟨Nat.log 10 ⌊b * g⌋₊ + 1, by push_cast; ring, e⟩, fun h => absurd h h3, fun h => ?_⟩
    rw [e]
    have hfl : ⌊b * g⌋₊ ≠ 0 := by
      have : 1 ≤ ⌊b * g⌋₊ := Nat.le_floor (by exact_mod_cast h)
      omega
    constructor
    · have h4 := Nat.lt_pow_succ_log_self (b := 10) (by norm_num) ⌊b * g⌋₊
      have h5 := Nat.lt_floor_add_one (b * g)
      have h6 : ⌊b * g⌋₊ + 1 ≤ 10 ^ (Nat.log 10 ⌊b * g⌋₊ + 1) := h4
      have h7 : ((⌊b * g⌋₊ + 1 : ℕ) : ℚ) ≤ ((10 ^ (Nat.log 10 ⌊b * g⌋₊ + 1) : ℕ) : ℚ) := by
        exact_mod_cast h6
      push_cast at h7 ⊢
      linarith
    · have h4 := Nat.pow_log_le_self 10 hfl
      have h5 := Nat.floor_le (show 0 ≤ b * g by linarith)
      have h6 : ((10 ^ Nat.log 10 ⌊b * g⌋₊ : ℕ) : ℚ) ≤ (⌊b * g⌋₊ : ℚ) := by exact_mod_cast h4
      push_cast at h6 ⊢
      rw [pow_succ]
      linarith

/-- **C17.** Invalid tolerances and budgets are rejected, all others accepted. -/
theorem round_factor_accepts (b g : ℚ) : (∃ rf, getRoundFactor b g = .ok rf) ↔ g < 1 ∧ 0 < b := by
  constructor
  · rintro ⟨rf, h⟩; exact (getRoundFactor_ok h).2
  · rintro ⟨h1, h2⟩
    unfold getRoundFactor
    simp only
    rw [if_neg (not_le.2 h1), if_neg (not_le.2 h2)]
    split_ifs <;> exact ⟨_, rfl⟩

example : getRoundFactor 15400 (1 / 100) = .ok (-3) ∧ stepSize (-3) = 1000 := by decide +kernel

/-- **C17 (negation of the documented guarantee).** The docstring promises
`budget - rounded_budget <= budget * gtol`.  With budget 15400 and `gtol = 0.01` the tolerance is
154 but the budget is rounded to 15000, off by 400. -/
theorem gtol_guarantee_fails : ∃ b g : ℚ, ∃ rf, getRoundFactor b g = .ok rf ∧
    b * g < b - npRound b rf := by
  refine ⟨15400, 1 / 100, -3, by decide +kernel, ?_⟩
  have : npRound 15400 (-3) = 15000 := by decide +kernel
  rw [this]; norm_num

/-! ### C16: bounds -/

/-- **C16.** For every accepted pair of constraints and every channel with a non-negative spend:
the bounds are multiples of the step, non-negative, enclose the rounded spend, and are within a
step (plus half a step times the upper constraint) of `(1 - lower) * spend` and
`(1 + upper) * spend`. -/
theorem bounds_correct (n : ℕ) (spend : ℕ → ℚ) (b g : ℚ) (rf : ℤ) (l u : List ℚ) (lo hi : ℕ → ℤ)
    (hrf : getRoundFactor b g = .ok rf)
    (h : getOptimizationBounds n spend rf l u = .ok (lo, hi)) (c : ℕ) (hc : c < n)
    (hsp : 0 ≤ spend c) :
    stepSize rf ∣ lo c ∧ stepSize rf ∣ hi c ∧ stepSize rf ∣ roundedSpend spend rf c ∧
    0 ≤ lo c ∧ lo c ≤ roundedSpend spend rf c ∧ roundedSpend spend rf c ≤ hi c ∧
    |(roundedSpend spend rf c : ℚ) - spend c| ≤ stepSize rf / 2 ∧
    |(lo c : ℚ) - (1 - constraintAt l c) * spend c| ≤ stepSize rf ∧
    |(hi c : ℚ) - (1 + constraintAt u c) * spend c| ≤
      stepSize rf + constraintAt u c * stepSize rf / 2 :=
  bounds_facts (getRoundFactor_ok hrf).1 h hc hsp

/-- **C16.** Constraints are accepted exactly when they are one value or one per channel, lower
ones in `[0, 1]`, upper ones non-negative. -/
theorem constraints_accepted_iff (n : ℕ) (l u : List ℚ) :
    validateSpendConstraints n l u = .ok () ↔
      (l.length = 1 ∨ l.length = n) ∧ (u.length = 1 ∨ u.length = n) ∧
      (∀ c ∈ l, 0 ≤ c ∧ c ≤ 1) ∧ (∀ c ∈ u, 0 ≤ c) := by
  constructor
  · exact validateSpendConstraints_ok
  · rintro ⟨h1, h2, h3, h4⟩
    unfold validateSpendConstraints
    rw [if_neg (by push Not; exact ⟨h1, h2⟩), if_neg (by push Not; exact h3),
      if_neg (by push Not; exact h4)]

example : getRoundFactor 40000 (1 / 1000) = .ok (-2) ∧
    (getOptimizationBounds 2 (fun c => if c = 0 then 12345 else 27655) (-2) [3 / 10] [3 / 10]).map
      (fun p => (p.1 0, p.2 0, p.1 1, p.2 1)) = .ok (8600, 16000, 19400, 36000) := by decide +kernel

/-! ### C18: the spend grid -/

/-- **C18.** Between bounds that are whole steps apart, column `c` of the created grid is exactly
`lo, lo + step, ..., hi` from the top and NaN below; the grid has as many rows as its longest
column. -/
theorem created_grid_columns (n : ℕ) (lo hi : ℕ → ℤ) (s : ℤ) (k : ℕ → ℕ) (hs : 0 < s)
    (h : ∀ c < n, hi c = lo c + k c * s) :
    ∃ rows cells, createSpendGrid n lo hi s = .ok (rows, cells) ∧
      (∀ c < n, k c < rows) ∧ (0 < n → ∃ c < n, rows = k c + 1) ∧
      ∀ c < n, (∀ r ≤ k c, cells r c = some ((lo c : ℚ) + r * s)) ∧
        (∀ r, k c < r → cells r c = none) ∧ cells (k c) c = some (hi c : ℚ) := by
  have hk : ∀ c < n, hi c - lo c = k c * s := fun c hc => by rw [h c hc]; ring
  refine ⟨_, _, createSpendGrid_ok hs hk, ?_, ?_, ?_⟩
  · intro c hc
    have : k c + 1 ≤ (range n).sup fun c => k c + 1 :=
      Finset.le_sup (f := fun c => k c + 1) (mem_range.2 hc)
    exact this
  · intro hn
    obtain ⟨c, hc, he⟩ := Finset.exists_mem_eq_sup (range n) ⟨0, mem_range.2 hn⟩ (fun c => k c + 1)
    exact ⟨c, mem_range.1 hc, he⟩
  · intro c hc
    simp only [arangeLen_mul hs (hk c hc)]
    refine ⟨fun r hr => ?_, fun r hr => ?_, ?_⟩
    · rw [if_pos (by omega)]; push_cast; rfl
    · rw [if_neg (by omega)]
    · rw [if_pos (by omega), h c hc]

example : ∀ c < 2, (fun c => if c = 0 then (16000 : ℤ) else 36000) c
    = (fun c => if c = 0 then (8600 : ℤ) else 19400) c + (if c = 0 then 74 else 166 : ℕ) * 100 := by
  decide

/-! ### C19: trimming -/

/-- **C19.** Trimming a grid with regular columns to bounds that lie on it (row `a c` to row `b c`)
never fails and keeps exactly the cells between the bounds, moved to the top, spend and outcome
still paired; below each column and nowhere else there is NaN, and no all-NaN row is left. -/
theorem trim_keeps_range (G : Grid) (s : ℤ) (K : ℕ → ℕ) (base : ℕ → ℤ) (f : ℕ → ℕ → ℚ)
    (lo hi : ℕ → ℤ) (a b : ℕ → ℕ) (hs : 0 < s) (hG : RegularBoth G s K base f)
    (hlo : ∀ c < G.cols, lo c = base c + a c * s)
    (hhi : ∀ c < G.cols, hi c = base c + b c * s) (hab : ∀ c < G.cols, a c ≤ b c)
    (hbK : ∀ c < G.cols, b c ≤ K c) :
    ∃ G', trimGrids G lo hi = .ok G' ∧ G'.cols = G.cols ∧
      (∀ c < G.cols, ∀ r < G'.rows, r ≤ b c - a c →
        G'.spend r c = G.spend (r + a c) c ∧ G'.out r c = G.out (r + a c) c) ∧
      (∀ c < G.cols, ∀ r < G'.rows, b c - a c < r → G'.spend r c = none ∧ G'.out r c = none) ∧
      (∀ r < G'.rows, ∃ c < G.cols, G'.spend r c ≠ none) ∧
      (∀ c < G.cols, G'.spend 0 c = some (lo c : ℚ) ∧ G'.spend (b c - a c) c = some (hi c : ℚ) ∧
        b c - a c < G'.rows) := by
  obtain ⟨G', h1, h2, h3⟩ := trimGrids_regular hs hG hlo hhi hab hbK
  refine ⟨G', h1, h2, ?_, ?_, ?_, ?_⟩
  · intro c hc r hr hrb
    have hc' : c < G'.cols := by rw [h2]; exact hc
    have e1 := hab c hc
    have e2 := hbK c hc
    rw [h3.reg.spend_eq c hc' r hrb, h3.reg.out_eq c hc' r hrb,
      hG.reg.spend_eq c hc (r + a c) (by omega), hG.reg.out_eq c hc (r + a c) (by omega), hlo c hc]
    refine ⟨?_, rfl⟩
    push_cast; congr 1; ring
  · intro c hc r hr hrb
    have hc' : c < G'.cols := by rw [h2]; exact hc
    exact ⟨h3.reg.spend_nan c hc' r hrb hr, h3.out_nan c hc' r hrb hr⟩
  · intro r hr
    rw [h3.rows_eq, Finset.lt_sup_iff] at hr
    obtain ⟨c, hc, hr⟩ := hr
    have hc' := mem_range.1 hc
    refine ⟨c, by rw [← h2]; exact hc', ?_⟩
    rw [h3.reg.spend_eq c hc' r (by omega)]
    simp
  · intro c hc
    have hc' : c < G'.cols := by rw [h2]; exact hc
    have e1 := hab c hc
    rw [h3.reg.spend_eq c hc' 0 (Nat.zero_le _), h3.reg.spend_eq c hc' _ le_rfl]
    refine ⟨by simp, ?_, h3.reg.K_lt c hc'⟩
    rw [hhi c hc, hlo c hc, Nat.cast_sub e1]
    push_cast; congr 1; ring

/-- A concrete grid: spends 0,10,..,40 and 20,30,40. -/
def demoGrid : Grid where
  rows := 5
  cols := 2
  spend := fun r c => if c = 0 then some (r * 10) else if r ≤ 2 then some (20 + r * 10) else none
  out := fun r c => if c = 0 then some (r * 3) else if r ≤ 2 then some (r * 2) else none

theorem demoGrid_regular : RegularBoth demoGrid 10 (fun c => if c = 0 then 4 else 2)
    (fun c => if c = 0 then 0 else 20) (fun c r => if c = 0 then (r : ℚ) * 3 else r * 2) := by
  refine ⟨⟨by norm_num, by decide, by decide, ?_, ?_, ?_⟩, ?_, by decide, by decide⟩
  · intro c hc r hr
    by_cases h : c = 0
    · simp [demoGrid, h]
    · simp [demoGrid, h] at hr ⊢; omega
  · intro c hc r hr
    by_cases h : c = 0
    · simp [demoGrid, h]
    · simp [demoGrid, h] at hr ⊢; omega
  · intro c hc r hr hr2
    have : r < 5 := hr2
    by_cases h : c = 0
    · simp [h] at hr; omega
    · simp [demoGrid, h] at hr ⊢; omega
  · intro c hc r hr hr2
    have : r < 5 := hr2
    by_cases h : c = 0
    · simp [h] at hr; omega
    · simp [demoGrid, h] at hr ⊢; omega

example : (trimGrids demoGrid (fun c => if c = 0 then 10 else 20) (fun _ => 30)).map
    (fun G => (G.rows, G.spend 0 0, G.spend 2 0, G.spend 2 1)) = .ok (3, some 10, some 30, none) := by
  decide +kernel

/-! ### C21: budget arguments -/

/-- **C21.** The argument check accepts exactly: a fixed budget (positive if given) with no target,
or a flexible budget with exactly one target and no budget. -/
theorem budget_arguments_accepted_iff (fixed : Bool) (budget roi mroi : Option ℚ) :
    validateBudget fixed budget roi mroi = .ok () ↔
      (fixed = true ∧ roi = none ∧ mroi = none ∧ ∀ b, budget = some b → 0 < b) ∨
      (fixed = false ∧ budget = none ∧ ((roi ≠ none ∧ mroi = none) ∨ (roi = none ∧ mroi ≠ none))) := by
  unfold validateBudget
  cases fixed <;> cases budget <;> cases roi <;> cases mroi <;> simp

/-! ### C11, C12, C14: the whole pipeline -/

/-- The share of the budget of channel `c`: the user's percentages, or the historical shares. -/
def shareOf (n : ℕ) (hist : ℕ → ℚ) (pct : Option (List ℚ)) (c : ℕ) : ℚ :=
  match pct with
  | some p => p.getD c 0
  | none => hist c / ∑ i ∈ range n, hist i

/-- The budget optimised for: the requested one, or the historical total. -/
def budgetOf (n : ℕ) (hist : ℕ → ℚ) (budget : Option ℚ) : ℚ :=
  budget.getD (∑ i ∈ range n, hist i)

theorem validatePct_share {n : ℕ} {hist : ℕ → ℚ} {pct : Option (List ℚ)} {share : ℕ → ℚ}
    (h : validatePctOfSpend n hist pct = .ok share) : share = shareOf n hist pct := by
  unfold validatePctOfSpend at h
  unfold shareOf
  cases pct with
  | none =>
    simp only at h ⊢
    split_ifs at h
    injection h with h
    rw [← h]
    funext c
    rw [sum_list_range]
  | some p =>
    simp only at h ⊢
    split_ifs at h
    injection h with h
    rw [← h]

theorem resolveBudget_eq {n : ℕ} {hist : ℕ → ℚ} {budget : Option ℚ}
    (h : ∀ b, budget = some b → 0 < b) :
    resolveBudget budget (histTotal n hist) = budgetOf n hist budget := by
  unfold resolveBudget budgetOf histTotal
  rw [sum_list_range]
  cases budget with
  | none => rfl
  | some b => simp only [Option.getD_some]; rw [if_neg (h b rfl).ne']

/-- What the optimiser relies on: non-negative historical spend and non-negative percentages. -/
def NonnegInputs (n : ℕ) (hist : ℕ → ℚ) (pct : Option (List ℚ)) : Prop :=
  (∀ c < n, 0 ≤ hist c) ∧ ∀ p, pct = some p → ∀ x ∈ p, 0 ≤ x

theorem shareOf_nonneg {n : ℕ} {hist : ℕ → ℚ} {pct : Option (List ℚ)} (h : NonnegInputs n hist pct)
    {share : ℕ → ℚ} (hs : validatePctOfSpend n hist pct = .ok share) :
    ∀ c < n, 0 ≤ share c := by
  intro c hc
  rw [validatePct_share hs]
  unfold shareOf
  cases pct with
  | none =>
    simp only
    apply div_nonneg (h.1 c hc)
    apply Finset.sum_nonneg
    intro i hi; exact h.1 i (mem_range.1 hi)
  | some p =>
    simp only
    by_cases hl : c < p.length
    · rw [getD_of_lt hl]; exact h.2 p rfl _ (List.getElem_mem _)
    · simp [List.getD, hl]

/-- The integer spends of a result. -/
def SpendIs (xs : List (Option ℤ)) (x : ℕ → ℤ) (n : ℕ) : Prop :=
  xs.length = n ∧ ∀ c < n, xs[c]? = some (some (x c))

/-- **C11 + C12 + C16 end to end, fixed budget.** Whatever the (finite) outcome surface, when
`BudgetOptimizer.optimize` with a fixed budget returns, then with `s` the step of the budget and
`gtol` (`round_factor_step` says how large it is):

* every channel's optimised spend is a non-negative multiple of `s` between the channel's bounds,
  i.e. between `(1 - lower) * budget * share - s` and `(1 + upper) * budget * share + s (1 + upper/2)`;
* the total optimised spend is at most the total of the non-optimised spends;
* each non-optimised spend is `budget * share` rounded to a multiple of `s`. -/
theorem fixed_budget_pipeline (n : ℕ) (hist : ℕ → ℚ) (outcome : ℕ → ℕ → ℚ) (budget : Option ℚ)
    (gtol : ℚ) (pct : Option (List ℚ)) (lower upper : Option (List ℚ)) (xs : List (Option ℤ))
    (non : List ℤ) (hn : 0 < n) (hin : NonnegInputs n hist pct)
    (h : budgetOptimize n hist outcome true budget none none gtol pct lower upper = .ok (xs, non)) :
    ∃ (rf s : ℤ) (x : ℕ → ℤ), getRoundFactor (budgetOf n hist budget) gtol = .ok rf ∧
      s = stepSize rf ∧ SpendIs xs x n ∧
      ∑ c ∈ range n, x c ≤ non.sum ∧ non.length = n ∧
      ∀ c < n, s ∣ x c ∧ 0 ≤ x c ∧
        (1 - constraintAt (lower.getD [3 / 10]) c) * (budgetOf n hist budget * shareOf n hist pct c)
          - s ≤ x c ∧
        (x c : ℚ) ≤ (1 + constraintAt (upper.getD [3 / 10]) c)
          * (budgetOf n hist budget * shareOf n hist pct c)
          + (s + constraintAt (upper.getD [3 / 10]) c * s / 2) ∧
        ∃ y : ℤ, non[c]? = some y ∧
          |(y : ℚ) - budgetOf n hist budget * shareOf n hist pct c| ≤ (s : ℚ) / 2 := by
  unfold budgetOptimize at h
  simp only [bind_ok, if_true] at h
  obtain ⟨u, h0, O, h1, req, h2, h3⟩ := h
  have hb : ∀ b, budget = some b → 0 < b := by
    have := (budget_arguments_accepted_iff true budget none none).1 (by cases u; exact h0)
    simpa using this
  have hreq : req = .fixed budget := by
    unfold chooseRequest at h2; simp at h2; exact h2.symm
  subst hreq
  obtain ⟨share, rf, lo, hi, k, G, p1, p2, p3, p4, p5, p6, p7, p8, p9⟩ :=
    pipeline (budget := budget) hn (fun share hs => shareOf_nonneg hin hs) rfl h1 h3
  obtain ⟨hrf, -, hbpos⟩ := getRoundFactor_ok p3
  have hshare := validatePct_share p1
  subst hshare
  rw [resolveBudget_eq hb] at p3 p4 p8 p9 hbpos
  have hspend : ∀ c < n, 0 ≤ budgetOf n hist budget * shareOf n hist pct c :=
    fun c hc => mul_nonneg hbpos.le (p2 c hc)
  have facts := fun c hc => bounds_facts hrf p4 (c := c) hc (hspend c hc)
  set s := stepSize rf with hs
  have hspos := stepSize_pos rf
  have h0f : FirstRowFinite G := fun c hc =>
    ⟨_, p7.reg.spend_eq c hc 0 (Nat.zero_le _)⟩
  obtain ⟨k', hk'⟩ := GridSearch.Props.spend_is_grid_value G _ xs h0f p8
  have hcell : ∀ c < n, ∃ r : ℕ, r ≤ k c ∧ xs[c]? = some (some (lo c + r * s)) := by
    intro c hc
    have hc' : c < G.cols := by rw [p6]; exact hc
    obtain ⟨hr, t, ht, hx⟩ := hk'.2 c hc'
    rcases spend_cases p7 hc' hr with ⟨g1, g2, -⟩ | ⟨g1, g2, -⟩
    · rw [g2] at ht
      injection ht with ht
      refine ⟨k' c, g1, ?_⟩
      rw [hx, ← ht, show ((lo c : ℚ) + (k' c : ℚ) * (stepSize rf : ℤ)) = ((lo c + k' c * stepSize rf : ℤ) : ℚ) by
        push_cast; ring, truncInt_intCast]
    · rw [g2] at ht; cases ht
  choose! r hr hxr using hcell
  have hsum : ∑ c ∈ range n, (lo c + r c * s) ≤ non.sum := by
    have hnn : NonnegSpends G := by
      intro q hq c hc t ht
      rcases spend_cases p7 hc hq with ⟨g1, g2, -⟩ | ⟨g1, g2, -⟩
      · rw [g2] at ht
        injection ht with ht
        rw [← ht]
        have : (0 : ℚ) ≤ lo c := by
          exact_mod_cast (facts c (by rw [← p6]; exact hc)).2.2.2.1
        have : (0 : ℚ) ≤ (q : ℚ) * (stepSize rf : ℤ) := by positivity
        linarith
      · rw [g2] at ht; cases ht
    have hfix := GridSearch.Props.fixed_budget_respected G _ xs h0f hnn (by
      intro s0 hs0
      have e : ∀ c < G.cols, s0 c = lo c := by
        intro c hc
        have := hs0 c hc
        rw [p7.reg.spend_eq c hc 0 (Nat.zero_le _)] at this
        injection this with this
        rw [← this]; simp
      rw [Finset.sum_congr rfl (fun c hc => e c (mem_range.1 hc)), p6]
      rw [show (∑ c ∈ range n, (lo c : ℚ)) = ((∑ c ∈ range n, lo c : ℤ) : ℚ) by push_cast; rfl]
      rw [sum_list_range]
      exact_mod_cast Finset.sum_le_sum fun c hc => (facts c (mem_range.1 hc)).2.2.2.2.1) p8
    have ht := total_choice hk' (s := fun c => lo c + k' c * (stepSize rf : ℤ)) (by
      intro c hc
      obtain ⟨hr, t, ht, hx⟩ := hk'.2 c hc
      rcases spend_cases p7 hc hr with ⟨g1, g2, -⟩ | ⟨g1, g2, -⟩
      · rw [g2]
      · rw [g2] at ht; cases ht)
    rw [ht, p6] at hfix
    rw [p9]
    have e2 : ∀ c ∈ range n, truncInt ((lo c : ℚ) + k' c * (stepSize rf : ℤ)) = lo c + r c * s := by
      intro c hc
      have hc := mem_range.1 hc
      have hc' : c < G.cols := by rw [p6]; exact hc
      obtain ⟨hr', t, ht, hx⟩ := hk'.2 c hc'
      have := hxr c hc
      rw [hx] at this
      rcases spend_cases p7 hc' hr' with ⟨g1, g2, -⟩ | ⟨g1, g2, -⟩
      · rw [g2] at ht
        injection ht with ht
        rw [← ht] at this
        simpa using this
      · rw [g2] at ht; cases ht
    rw [Finset.sum_congr rfl e2] at hfix
    exact_mod_cast hfix
  refine ⟨rf, s, fun c => lo c + r c * s, p3, hs, ⟨by rw [hk'.1, p6], hxr⟩, hsum,
    by rw [p9]; simp, ?_⟩
  intro c hc
  obtain ⟨f1, f2, f3, f4, f5, f6, f7, f8, f9⟩ := facts c hc
  have hle : lo c + r c * s ≤ hi c := by
    rw [p5 c hc]
    have : (r c : ℤ) ≤ k c := by exact_mod_cast hr c hc
    have : (r c : ℤ) * s ≤ k c * s := by gcongr
    linarith
  have hge : lo c ≤ lo c + r c * s := by
    have : 0 ≤ (r c : ℤ) * s := by positivity
    linarith
  have hle' : ((lo c + r c * s : ℤ) : ℚ) ≤ hi c := by exact_mod_cast hle
  have hge' : (lo c : ℚ) ≤ ((lo c + r c * s : ℤ) : ℚ) := by exact_mod_cast hge
  rw [abs_le] at f8 f9
  refine ⟨dvd_add f1 (Dvd.intro_left _ rfl), le_trans f4 hge, ?_, ?_, ?_⟩
  · have := f8.1; linarith
  · have := f9.2; linarith
  · refine ⟨_, ?_, f7⟩
    rw [p9]; simp [hc]

/-- A concrete run: three channels, historical spends 10.6, 10.6 and 10.8. -/
def demoHist (c : ℕ) : ℚ := if c = 0 then 53 / 5 else if c = 1 then 53 / 5 else 54 / 5

/-- A concave outcome surface. -/
def demoOutcome (r c : ℕ) : ℚ := r * (10 + 5 * c) - r * r

theorem demo_run : budgetOptimize 3 demoHist demoOutcome true none none none (1 / 10000) none none
    none = .ok ([some 9, some 11, some 13], [11, 11, 11]) := by decide +kernel

example : NonnegInputs 3 demoHist none ∧ (∃ r, budgetOptimize 3 demoHist demoOutcome true none none
    none (1 / 10000) none none none = .ok r) := by
  refine ⟨⟨?_, by simp⟩, _, demo_run⟩
  intro c _
  unfold demoHist
  split_ifs <;> norm_num

/-- **C11 (negation of the unrounded reading).** The optimised total can exceed the *requested*
budget, because every channel's share is rounded to the nearest step before the search: here the
historical budget is 32 and the optimised total is 33. -/
theorem optimized_total_can_exceed_budget : ∃ (hist : ℕ → ℚ) (outcome : ℕ → ℕ → ℚ) (a b c : ℤ)
    (non : List ℤ), budgetOptimize 3 hist outcome true none none none (1 / 10000) none none none
      = .ok ([some a, some b, some c], non) ∧ budgetOf 3 hist none < a + b + c := by
  refine ⟨demoHist, demoOutcome, 9, 11, 13, _, demo_run, ?_⟩
  simp only [budgetOf, Option.getD_none, Finset.sum_range_succ, Finset.sum_range_zero, demoHist]
  norm_num

/-- **C14 end to end.** If every channel's outcome column is concave and non-decreasing in the
grid, no other allocation on the optimiser's grid whose total is within the non-optimised total
has a larger outcome (up to 5e-9 per unit of spend moved).  Channel `c`'s outcome at spend
`lo c + r * s` is `outcome r c`. -/
theorem fixed_budget_optimal (n : ℕ) (hist : ℕ → ℚ) (outcome : ℕ → ℕ → ℚ) (budget : Option ℚ)
    (gtol : ℚ) (pct : Option (List ℚ)) (lower upper : Option (List ℚ)) (xs : List (Option ℤ))
    (non : List ℤ) (hn : 0 < n) (hin : NonnegInputs n hist pct)
    (hconc : ∀ c < n, ∀ r, outcome (r + 2) c - outcome (r + 1) c ≤ outcome (r + 1) c - outcome r c)
    (hmono : ∀ c < n, ∀ r, outcome r c ≤ outcome (r + 1) c)
    (h : budgetOptimize n hist outcome true budget none none gtol pct lower upper = .ok (xs, non)) :
    ∃ (rf s : ℤ) (lo hi : ℕ → ℤ) (k : ℕ → ℕ),
      getRoundFactor (budgetOf n hist budget) gtol = .ok rf ∧ s = stepSize rf ∧
      getOptimizationBounds n (fun c => budgetOf n hist budget * shareOf n hist pct c) rf
        (lower.getD [3 / 10]) (upper.getD [3 / 10]) = .ok (lo, hi) ∧
      (∀ c < n, xs[c]? = some (some (lo c + k c * s)) ∧ lo c + k c * s ≤ hi c) ∧
      ∀ l : ℕ → ℕ, (∀ c < n, lo c + l c * s ≤ hi c) → ∑ c ∈ range n, (lo c + l c * s) ≤ non.sum →
        ∑ c ∈ range n, outcome (l c) c ≤ ∑ c ∈ range n, outcome (k c) c +
          5 / 10 ^ 9 * ∑ c ∈ range n, |((lo c + l c * s : ℤ) : ℚ) - ((lo c + k c * s : ℤ) : ℚ)| := by
  unfold budgetOptimize at h
  simp only [bind_ok, if_true] at h
  obtain ⟨u, h0, O, h1, req, h2, h3⟩ := h
  have hb : ∀ b, budget = some b → 0 < b := by
    have := (budget_arguments_accepted_iff true budget none none).1 (by cases u; exact h0)
    simpa using this
  have hreq : req = .fixed budget := by
    unfold chooseRequest at h2; simp at h2; exact h2.symm
  subst hreq
  obtain ⟨share, rf, lo, hi, k, G, p1, p2, p3, p4, p5, p6, p7, p8, p9⟩ :=
    pipeline (budget := budget) hn (fun share hs => shareOf_nonneg hin hs) rfl h1 h3
  obtain ⟨hrf, -, hbpos⟩ := getRoundFactor_ok p3
  have hspend : ∀ c < n, 0 ≤ resolveBudget budget (histTotal n hist) * share c :=
    fun c hc => mul_nonneg hbpos.le (p2 c hc)
  have facts := fun c hc => bounds_facts hrf p4 (c := c) hc (hspend c hc)
  have hspos := stepSize_pos rf
  have hcc : Concave G.cols k (fun c r => outcome r c) :=
    fun c hc r _ => hconc c (by rw [← p6]; exact hc) r
  have hnd : Nondecreasing G.cols k (fun c r => outcome r c) :=
    fun c hc r _ => hmono c (by rw [← p6]; exact hc) r
  obtain ⟨kk, g1, g2, g3, g4⟩ := GridSearch.Props.greedy_optimal G _ _ k _ _ xs p7.reg hcc (by
    rw [p6, sum_list_range]
    push_cast
    apply Finset.sum_le_sum
    intro c hc
    exact_mod_cast (facts c (mem_range.1 hc)).2.2.2.2.1) p8
  rw [p6] at g2 g3 g4
  have key : ∀ c < n, ∀ l : ℕ, lo c + l * stepSize rf ≤ hi c ↔ l ≤ k c := by
    intro c hc l
    rw [p5 c hc]
    constructor
    · intro h
      have : (l : ℤ) * stepSize rf ≤ k c * stepSize rf := by linarith
      exact_mod_cast le_of_mul_le_mul_right this hspos
    · intro h
      have : (l : ℤ) * stepSize rf ≤ k c * stepSize rf := by gcongr
      linarith
  rw [validatePct_share p1, resolveBudget_eq hb] at p4
  rw [resolveBudget_eq hb] at p3
  refine ⟨rf, stepSize rf, lo, hi, kk, p3, rfl, p4, ?_, ?_⟩
  · intro c hc
    refine ⟨?_, (key c hc _).2 (g2 c hc)⟩
    obtain ⟨hr, t, ht, hx⟩ := g1.2 c (by rw [p6]; exact hc)
    rw [p7.reg.spend_eq c (by rw [p6]; exact hc) _ (g2 c hc)] at ht
    injection ht with ht
    rw [hx, ← ht, show ((lo c : ℚ) + (kk c : ℚ) * (stepSize rf : ℤ)) = ((lo c + kk c * stepSize rf : ℤ) : ℚ) by
      push_cast; ring, truncInt_intCast]
  · intro l hl hsum
    rw [p6] at hnd
    have := g4 l (fun c hc => (key c hc _).1 (hl c hc)) (Or.inr ⟨hnd, by
      rw [p9] at hsum
      have e : (∑ c ∈ range n, ((lo c : ℚ) + (l c : ℚ) * (stepSize rf : ℤ)))
          = ((∑ c ∈ range n, (lo c + l c * stepSize rf) : ℤ) : ℚ) := by push_cast; rfl
      rw [e]
      exact_mod_cast hsum⟩)
    push_cast
    exact this

example : (∀ c : ℕ, ∀ r : ℕ, (r : ℚ) * (100 + 5 * c) ≤ ((r + 1 : ℕ) : ℚ) * (100 + 5 * c)) ∧
    budgetOptimize 3 demoHist (fun r c => r * (100 + 5 * c)) true none none none (1 / 10000) none none
      none = .ok ([some 8, some 11, some 14], [11, 11, 11]) := by
  refine ⟨?_, by decide +kernel⟩
  intro c r
  push_cast
  nlinarith [(Nat.cast_nonneg c : (0 : ℚ) ≤ c)]

/-- **C12/C16 (no spurious failure).** With non-negative inputs, valid arguments and at least one
channel, the pipeline always returns a result: the grid it builds always covers the bounds it then
optimises over. -/
theorem pipeline_never_fails (n : ℕ) (hist : ℕ → ℚ) (outcome : ℕ → ℕ → ℚ) (fixed : Bool)
    (budget roi mroi : Option ℚ) (gtol : ℚ) (pct : Option (List ℚ)) (lower upper : Option (List ℚ))
    (req : Request) (hn : 0 < n) (hin : NonnegInputs n hist pct)
    (hargs : validateBudget fixed budget roi mroi = .ok ())
    (hreq : chooseRequest fixed budget roi mroi = .ok req)
    (hpct : ∃ share, validatePctOfSpend n hist pct = .ok share)
    (hgtol : gtol < 1) (hbud : 0 < budgetOf n hist budget)
    (hcon : validateSpendConstraints n (lower.getD [if fixed then 3 / 10 else 1])
      (upper.getD [if fixed then 3 / 10 else 1]) = .ok ()) :
    ∃ r, budgetOptimize n hist outcome fixed budget roi mroi gtol pct lower upper = .ok r := by
  obtain ⟨share, hshare⟩ := hpct
  have hargs' := (budget_arguments_accepted_iff _ _ _ _).1 hargs
  have hb : ∀ b, budget = some b → 0 < b := by
    rcases hargs' with h | h
    · exact h.2.2.2
    · intro b hb; rw [h.2.1] at hb; cases hb
  have hreqb : req.budget = budget := by
    unfold chooseRequest at hreq
    rcases hargs' with h | h
    · rw [h.1] at hreq; simp at hreq; rw [← hreq]; rfl
    · rw [h.1] at hreq
      simp only [Bool.false_eq_true, if_false] at hreq
      rw [h.2.1]
      cases roi with
      | none =>
        cases mroi with
        | none => simp at hreq
        | some t => simp at hreq; rw [← hreq]; rfl
      | some t =>
        simp only at hreq
        split_ifs at hreq
        · cases mroi with
          | none => simp at hreq
          | some t => simp at hreq; rw [← hreq]; rfl
        · injection hreq with hreq; rw [← hreq]; rfl
  obtain ⟨rf, hrf⟩ := (round_factor_accepts (budgetOf n hist budget) gtol).2 ⟨hgtol, hbud⟩
  have hres := resolveBudget_eq (n := n) (hist := hist) hb
  obtain ⟨hrf0, -, -⟩ := getRoundFactor_ok hrf
  have hbounds : ∃ lo hi, getOptimizationBounds n (fun c => budgetOf n hist budget * share c) rf
      (lower.getD [if fixed then 3 / 10 else 1]) (upper.getD [if fixed then 3 / 10 else 1])
      = .ok (lo, hi) := by
    unfold getOptimizationBounds
    rw [hcon]
    exact ⟨_, _, rfl⟩
  obtain ⟨lo, hi, hbo⟩ := hbounds
  have hspend : ∀ c < n, 0 ≤ budgetOf n hist budget * share c :=
    fun c hc => mul_nonneg hbud.le (shareOf_nonneg hin hshare c hc)
  have hspos := stepSize_pos rf
  have hk : ∀ c < n, ∃ k : ℕ, hi c - lo c = k * stepSize rf := by
    intro c hcn
    obtain ⟨h1, h2, -, -, h3, h4, -⟩ := bounds_facts hrf0 hbo hcn (hspend c hcn)
    exact exists_steps hspos h1 h2 (le_trans h3 h4)
  choose! k hk using hk
  obtain ⟨rows, cells, hgrid⟩ : ∃ rows cells,
      createSpendGrid n lo hi (stepSize rf) = .ok (rows, cells) := ⟨_, _, createSpendGrid_ok hspos hk⟩
  have hreg := regular_of_create hspos hn hk outcome hgrid
  obtain ⟨G', t1, t2, t3⟩ := trimGrids_regular hspos hreg (lo := lo) (hi := hi)
    (a := fun _ => 0) (b := k) (fun c hc => by simp)
    (fun c hc => by have := hk c hc; linarith) (fun c hc => Nat.zero_le _) (fun c hc => le_rfl)
  obtain ⟨xs, hxs, -⟩ := GridSearch.Props.search_terminates G'
    (resolveScenario n (roundedSpend (fun c => budgetOf n hist budget * share c) rf) req)
    t3.reg.rows_pos
  refine ⟨(xs, (List.range n).map (roundedSpend (fun c => budgetOf n hist budget * share c) rf)), ?_⟩
  unfold budgetOptimize
  simp only [bind_ok]
  have hO : createOptimizationGrid n hist outcome budget gtol pct
      (lower.getD [if fixed then 3 / 10 else 1]) (upper.getD [if fixed then 3 / 10 else 1]) = .ok
      { grid := { rows := rows, cols := n, spend := cells,
                  out := fun r c => (cells r c).map fun _ => outcome r c }, hist := hist, gtol := gtol, roundFactor := rf } := by
    unfold createOptimizationGrid
    simp only [bind_ok, hres]
    exact ⟨share, hshare, rf, hrf, (lo, hi), hbo, (rows, cells), hgrid, rfl⟩
  refine ⟨(), hargs, _, hO, req, hreq, ?_⟩
  · unfold optimize
    simp only [bind_ok, hres, hreqb, Option.getD_some]
    refine ⟨share, hshare, (lo, hi), hbo, rf, hrf, G', t1, ?_⟩
    rw [hxs]
    rfl

example : validateBudget false none (some 2) none = .ok () ∧
    chooseRequest false none (some 2) none = .ok (.roi 2) ∧
    validateSpendConstraints 3 [1] [1] = .ok () := ⟨rfl, by simp [chooseRequest], by decide +kernel⟩

/-- **C21 (finding).** A target ROI of exactly 0 passes the argument check but no scenario can be
built from it: the request fails after the grid has been created. -/
theorem target_roi_zero_rejected_late :
    validateBudget false none (some 0) none = .ok () ∧
      chooseRequest false none (some 0) none = .error .noTarget := ⟨rfl, rfl⟩

/-- **C16 (shares).** Percentages of spend are accepted exactly when there is one per channel and
they sum to one within 0.001, and are then used as given. -/
theorem pct_of_spend_accepted_iff (n : ℕ) (hist : ℕ → ℚ) (p : List ℚ) :
    ((∃ share, validatePctOfSpend n hist (some p) = .ok share) ↔
      p.length = n ∧ |p.sum - 1| ≤ 1 / 1000) ∧
    ∀ share, validatePctOfSpend n hist (some p) = .ok share →
      ∀ (c : ℕ) x, p[c]? = some x → share c = x := by
  have hm : |p.sum - 1| ≤ max (1 / 10 ^ 9 * max |p.sum| 1) (1 / 1000) ↔ |p.sum - 1| ≤ 1 / 1000 := by
    rw [le_max_iff, or_iff_right_iff_imp]
    intro h
    by_contra hc
    push Not at hc
    have h1 : |p.sum| ≤ |p.sum - 1| + 1 := by
      calc |p.sum| = |(p.sum - 1) + 1| := by ring_nf
        _ ≤ |p.sum - 1| + |1| := abs_add_le _ _
        _ = _ := by norm_num
    rcases le_total |p.sum| 1 with h2 | h2
    · rw [max_eq_right h2] at h; linarith
    · rw [max_eq_left h2] at h; linarith
  unfold validatePctOfSpend
  simp only [ne_eq, ite_not, hm]
  split_ifs with h1 h2
  · refine ⟨⟨fun _ => ⟨h1, h2⟩, fun _ => ⟨_, rfl⟩⟩, ?_⟩
    intro share hs c x hx
    cases hs
    simp [List.getD, hx]
  · exact ⟨⟨fun h => (by simp at h), fun h => absurd h.2 h2⟩, fun _ h => by cases h⟩
  · exact ⟨⟨fun h => (by simp at h), fun h => absurd h.1 h1⟩, fun _ h => by cases h⟩

/-- Without percentages the historical shares are used; they sum to one. -/
theorem historical_shares (n : ℕ) (hist : ℕ → ℚ) (share : ℕ → ℚ)
    (h : validatePctOfSpend n hist none = .ok share) :
    ((List.range n).map share).sum = 1 ∧
      ∀ c, share c * ((List.range n).map hist).sum = hist c := by
  unfold validatePctOfSpend at h
  simp only at h
  split_ifs at h with h0
  cases h
  constructor
  · rw [show (fun c => hist c / ((List.range n).map hist).sum)
      = fun c => hist c * (((List.range n).map hist).sum)⁻¹ from funext fun c => div_eq_mul_inv _ _,
      List.sum_map_mul_right]
    exact mul_inv_cancel₀ h0
  · intro c
    exact div_mul_cancel₀ _ h0

example : (∃ share, validatePctOfSpend 2 (fun _ => 1) (some [3 / 10, 7 / 10]) = .ok share) ∧
    ((validatePctOfSpend 2 (fun c => c + 1) none).map fun s => (s 0, s 1)) = .ok (1 / 3, 2 / 3) :=
  ⟨((pct_of_spend_accepted_iff _ _ _).1.2 ⟨rfl, by norm_num⟩), by decide +kernel⟩

/-- **C16 (defaults).** Omitting the spend constraints of `OptimizationGrid.optimize` means 30% either
way for a fixed budget, and 100% either way (spend may drop to zero or double) for a target. -/
theorem omitted_constraints (O : OptGrid) (pct : Option (List ℚ)) :
    (∀ b, optimize O (.fixed b) pct none none =
      optimize O (.fixed b) pct (some [3 / 10]) (some [3 / 10])) ∧
    (∀ t, optimize O (.roi t) pct none none = optimize O (.roi t) pct (some [1]) (some [1])) ∧
    (∀ t, optimize O (.mroi t) pct none none = optimize O (.mroi t) pct (some [1]) (some [1])) :=
  ⟨fun _ => rfl, fun _ => rfl, fun _ => rfl⟩

/-- **C16 (finding).** Percentages are documented as lying between 0 and 1, but only their sum is
checked: `[1.5, -0.5]` is accepted. -/
theorem negative_percentage_accepted :
    ∃ p : List ℚ, (∃ x ∈ p, x < 0) ∧ ∃ share, validatePctOfSpend 2 (fun _ => 1) (some p) = .ok share := by
  refine ⟨[3 / 2, -1 / 2], ⟨-1 / 2, by simp, by norm_num⟩, fun c => [3 / 2, -1 / 2].getD c 0, ?_⟩
  unfold validatePctOfSpend
  simp only
  rw [if_neg (by simp), if_neg]
  push Not
  norm_num

end Verif.Optimizer.Props

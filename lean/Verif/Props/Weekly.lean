import Verif.Lemmas.Weekly
import Verif.Props.Optimizer
import Verif.Props.Stabilize

/-!
# C74, C75: the weekly optimization grid

C74: the grid of a budget scenario looked up in the weekly grid has the spend levels of the ordinary
grid and outcomes interpolated in the totals of the period; what is checked and what is not.
C75: the multipliers, the outcomes and joining grids.
-/

namespace Verif.Weekly.Props

open Verif.Weekly Verif.Weekly.Spec Verif.Optimizer

/-! ### Interpolation -/

/-- **C74 (lookup).** Interpolation gives the values at the nodes, the points of the segment between
two neighbouring nodes, and the first and last values before and after all nodes. -/
theorem interp_meaning (l : List (ℚ × ℚ)) (h : Increasing l) :
    (∀ p ∈ l, interp l p.1 = p.2) ∧
    (∀ p q x, Neighbours l p q → p.1 ≤ x → x ≤ q.1 → OnSegment p q x (interp l x)) ∧
    (∀ p x, l.head? = some p → x ≤ p.1 → interp l x = p.2) ∧
    (∀ p x, l.getLast? = some p → p.1 ≤ x → interp l x = p.2) := by
  refine ⟨?_, ?_, ?_, ?_⟩
  · intro p hp
    obtain ⟨u, v, rfl⟩ := List.append_of_mem hp
    rw [interp_prefix h le_rfl, interp_le_first le_rfl]
  · intro p q x hn h1 h2
    obtain ⟨hpq, e⟩ := interp_neighbours h hn h1 h2
    refine ⟨h1, h2, ?_⟩
    rw [e]
    have : q.1 - p.1 ≠ 0 := by linarith
    field_simp
    ring
  · intro p x hp hx
    cases l with
    | nil => simp at hp
    | cons a l =>
      obtain rfl : a = p := by simpa using hp
      exact interp_le_first hx
  · intro p x hp hx
    exact interp_after h hp hx

/-- **C74 (lookup).** If the values at the nodes come from a function that never decreases, so does the
interpolation, and between neighbours both stay between the values of the two nodes. -/
theorem interp_error (f : ℚ → ℚ) (hf : Monotone f) (xs : List ℚ) (h : xs.Pairwise (· < ·))
    {p q : ℚ} (hn : Neighbours xs p q) {x : ℚ} (h1 : p ≤ x) (h2 : x ≤ q) :
    f p ≤ interp (xs.map fun x => (x, f x)) x ∧ interp (xs.map fun x => (x, f x)) x ≤ f q ∧
    |interp (xs.map fun x => (x, f x)) x - f x| ≤ f q - f p := by
  have hi : Increasing (xs.map fun x => (x, f x)) := List.pairwise_map.2 h
  have hn' : Neighbours (xs.map fun x => (x, f x)) (p, f p) (q, f q) := by
    obtain ⟨u, v, rfl⟩ := hn
    exact ⟨u.map fun x => (x, f x), v.map fun x => (x, f x), by simp⟩
  obtain ⟨hpq, e⟩ := interp_neighbours hi hn' h1 h2
  simp only at hpq e
  rw [e]
  have hd : 0 < q - p := by linarith
  have hfpq := hf hpq.le
  have a1 : 0 ≤ (f q - f p) / (q - p) * (x - p) :=
    mul_nonneg (div_nonneg (by linarith) hd.le) (by linarith)
  have a2 : (f q - f p) / (q - p) * (x - p) ≤ f q - f p := by
    rw [div_mul_eq_mul_div, div_le_iff₀ hd]
    exact mul_le_mul_of_nonneg_left (by linarith) (by linarith)
  have b1 := hf h1
  have b2 := hf h2
  refine ⟨by linarith, by linarith, ?_⟩
  rw [abs_le]
  constructor <;> linarith

/-- **C74 (lookup).** The interpolation of a response with diminishing returns never overstates it. -/
theorem interp_concave (f : ℚ → ℚ) (hf : AboveChords f) (xs : List ℚ) (h : xs.Pairwise (· < ·))
    {p q : ℚ} (hn : Neighbours xs p q) {x : ℚ} (h1 : p ≤ x) (h2 : x ≤ q) :
    interp (xs.map fun x => (x, f x)) x ≤ f x := by
  have hi : Increasing (xs.map fun x => (x, f x)) := List.pairwise_map.2 h
  have hn' : Neighbours (xs.map fun x => (x, f x)) (p, f p) (q, f q) := by
    obtain ⟨u, v, rfl⟩ := hn
    exact ⟨u.map fun x => (x, f x), v.map fun x => (x, f x), by simp⟩
  obtain ⟨hpq, e⟩ := interp_neighbours hi hn' h1 h2
  simp only at hpq e
  rw [e]
  have hd : 0 < q - p := by linarith
  have := hf p x q h1 h2
  have : (f q - f p) / (q - p) * (x - p) ≤ f x - f p := by
    rw [div_mul_eq_mul_div, div_le_iff₀ hd]
    exact this
  linarith

/-- A curve with diminishing returns, and the nodes 0, 1, 3 around 2. -/
example : AboveChords (fun x => 10 * x - x * x) ∧
    interp ([0, 1, 3].map fun x : ℚ => (x, 10 * x - x * x)) 2 = 15 ∧
    (10 * 2 - 2 * 2 : ℚ) = 16 ∧ Neighbours [0, 1, (3 : ℚ)] 1 3 := by
  refine ⟨?_, by decide +kernel, by norm_num, [0], [], rfl⟩
  intro x y z h1 h2
  simp only
  have := mul_nonneg (mul_nonneg (sub_nonneg.2 h1) (sub_nonneg.2 (h1.trans h2))) (sub_nonneg.2 h2)
  nlinarith

theorem interp_zipIdx_sum (ms : List ℚ) (n : ℕ) (f g : ℕ → ℚ) (x : ℚ) :
    interp ((ms.zipIdx n).map fun m => (m.1, f m.2 + g m.2)) x
      = interp ((ms.zipIdx n).map fun m => (m.1, f m.2)) x
        + interp ((ms.zipIdx n).map fun m => (m.1, g m.2)) x := by
  induction ms generalizing n with
  | nil => simp [interp]
  | cons a ms ih =>
    cases ms with
    | nil => simp [interp]
    | cons b ms =>
      have ih := ih (n + 1)
      simp only [List.zipIdx_cons, List.map_cons, interp] at ih ⊢
      split_ifs with h1 h2
      · rfl
      · ring
      · exact ih

theorem interp_zipIdx_zero (ms : List ℚ) (n : ℕ) (x : ℚ) :
    interp ((ms.zipIdx n).map fun m => (m.1, (0 : ℚ))) x = 0 := by
  induction ms generalizing n with
  | nil => simp [interp]
  | cons a ms ih =>
    cases ms with
    | nil => simp [interp]
    | cons b ms =>
      have ih := ih (n + 1)
      simp only [List.zipIdx_cons, List.map_cons, interp] at ih ⊢
      split_ifs with h1 h2
      · rfl
      · ring
      · exact ih

/-- The interpolated outcome of one week. -/
def weekOutcome (w : Weekly) (p : ℤ × (ℕ → ℕ → ℚ)) (c : ℕ) (x : ℚ) : ℚ :=
  interp (w.settings.multipliers.zipIdx.map fun m => (m.1, p.2 c m.2)) x

/-- **C74 (period).** The outcome looked up for a period is the sum of the outcomes looked up for its
weeks. -/
theorem period_is_sum_of_weeks (w : Weekly) (a b : ℤ) (c : ℕ) (x : ℚ) :
    interp (w.nodes a b c) x = periodTotal (w.outcome.map fun p => (p.1, weekOutcome w p c x)) a b := by
  unfold Weekly.nodes Weekly.selected periodTotal
  rw [List.filter_map, List.map_map]
  simp only [Function.comp_def]
  generalize (w.outcome.filter fun p => decide (a ≤ p.1 ∧ p.1 ≤ b)) = l
  induction l with
  | nil => simp [interp_zipIdx_zero]
  | cons p l ih =>
    simp only [List.map_cons, List.sum_cons]
    rw [← ih]
    exact interp_zipIdx_sum w.settings.multipliers 0 (fun m => p.2 c m)
      (fun m => (l.map fun p => p.2 c m).sum) x

/-- **C74 (period).** So periods add up: the outcome from `a` to `e` is the outcome from `a` to `b` plus
the outcome after `b`; and the same holds for historical spend. -/
theorem periods_add (w : Weekly) (a b e : ℤ) (hab : a ≤ b + 1) (hbe : b ≤ e) (c : ℕ) (x : ℚ) :
    interp (w.nodes a e c) x = interp (w.nodes a b c) x + interp (w.nodes (b + 1) e c) x ∧
    w.hist a e c = w.hist a b c + w.hist (b + 1) e c := by
  have key : ∀ {α : Type} (l : List (ℤ × α)) (f : ℤ × α → ℚ),
      ((l.filter fun p => decide (a ≤ p.1 ∧ p.1 ≤ e)).map f).sum
        = ((l.filter fun p => decide (a ≤ p.1 ∧ p.1 ≤ b)).map f).sum
          + ((l.filter fun p => decide (b + 1 ≤ p.1 ∧ p.1 ≤ e)).map f).sum := by
    intro α l f
    induction l with
    | nil => simp
    | cons p l ih =>
      simp only [List.filter_cons, decide_eq_true_eq]
      by_cases h1 : a ≤ p.1 ∧ p.1 ≤ b
      · have h2 : a ≤ p.1 ∧ p.1 ≤ e := by omega
        have h3 : ¬ (b + 1 ≤ p.1 ∧ p.1 ≤ e) := by omega
        rw [if_pos h1, if_pos h2, if_neg h3, List.map_cons, List.map_cons, List.sum_cons,
          List.sum_cons, ih]
        ring
      · by_cases h3 : b + 1 ≤ p.1 ∧ p.1 ≤ e
        · have h2 : a ≤ p.1 ∧ p.1 ≤ e := by omega
          rw [if_neg h1, if_pos h2, if_pos h3, List.map_cons, List.map_cons, List.sum_cons,
            List.sum_cons, ih]
          ring
        · have h2 : ¬ (a ≤ p.1 ∧ p.1 ≤ e) := by omega
          rw [if_neg h1, if_neg h2, if_neg h3, ih]
  constructor
  · rw [period_is_sum_of_weeks, period_is_sum_of_weeks, period_is_sum_of_weeks]
    exact key _ _
  · exact key _ _

/-! ### The grid of a scenario -/

/-- What happens in `to_optimization_grid`. -/
theorem toGrid_cases {w : Weekly} {jax : Bool} {start stop : Option ℤ} {budget : Option ℚ}
    {lower upper : Option (List ℚ)} {r : Option OptGrid}
    (h : w.toGrid jax start stop budget lower upper = .ok r) :
    (w.validDates start stop = false ∧ r = none) ∨
    (w.validDates start stop = true ∧ ∃ share rf lo hi,
      validatePctOfSpend w.settings.channels.length (w.hist (w.first start) (w.last stop)) none
        = .ok share ∧
      getRoundFactor (budget.getD (histTotal w.settings.channels.length
        (w.hist (w.first start) (w.last stop)))) (1 / 10000) = .ok rf ∧
      getOptimizationBounds w.settings.channels.length
        (fun c => budget.getD (histTotal w.settings.channels.length
          (w.hist (w.first start) (w.last stop))) * share c) rf
        (lower.getD [w.settings.limits.variation]) (upper.getD [w.settings.limits.variation])
        = .ok (lo, hi) ∧
      ((w.boundsCovered lo hi (w.hist (w.first start) (w.last stop)) rf = false ∧ r = none) ∨
       (w.boundsCovered lo hi (w.hist (w.first start) (w.last stop)) rf = true ∧
        ∃ rows cells, createSpendGrid w.settings.channels.length lo hi (stepSize rf)
            = .ok (rows, cells) ∧
          r = some {
            grid := { rows := rows, cols := w.settings.channels.length, spend := cells,
                      out := w.outcomeGrid jax (w.first start) (w.last stop) rows cells }
            hist := w.hist (w.first start) (w.last stop)
            gtol := 1 / 10000
            roundFactor := rf }))) := by
  unfold Weekly.toGrid at h
  by_cases hd : w.validDates start stop = false
  · rw [if_pos hd] at h
    cases h
    exact Or.inl ⟨hd, rfl⟩
  · right
    rw [if_neg hd] at h
    refine ⟨by simpa using hd, ?_⟩
    cases h1 : validatePctOfSpend w.settings.channels.length
        (w.hist (w.first start) (w.last stop)) none with
    | error e => simp [h1, bind, Except.bind] at h
    | ok share =>
      cases h2 : getRoundFactor (budget.getD (histTotal w.settings.channels.length
          (w.hist (w.first start) (w.last stop)))) (1 / 10000) with
      | error e => simp only [h1, h2, bind, Except.bind] at h; cases h
      | ok rf =>
        cases h3 : getOptimizationBounds w.settings.channels.length
            (fun c => budget.getD (histTotal w.settings.channels.length
              (w.hist (w.first start) (w.last stop))) * share c) rf
            (lower.getD [w.settings.limits.variation]) (upper.getD [w.settings.limits.variation]) with
        | error e => simp only [h1, h2, h3, bind, Except.bind] at h; cases h
        | ok b =>
          obtain ⟨lo, hi⟩ := b
          refine ⟨share, rf, lo, hi, rfl, rfl, h3, ?_⟩
          simp only [h1, h2, h3, bind, Except.bind] at h
          by_cases hb : w.boundsCovered lo hi (w.hist (w.first start) (w.last stop)) rf = false
          · rw [if_pos hb] at h
            cases h
            exact Or.inl ⟨hb, rfl⟩
          · right
            rw [if_neg hb] at h
            refine ⟨by simpa using hb, ?_⟩
            cases h4 : createSpendGrid w.settings.channels.length lo hi (stepSize rf) with
            | error e => simp [h4] at h
            | ok g =>
              obtain ⟨rows, cells⟩ := g
              rw [h4] at h
              cases h
              exact ⟨rows, cells, rfl, rfl⟩

/-- **C74 (same grid).** The grid of a scenario has the spend levels, the historical spend and the
rounding of the grid that `create_optimization_grid` makes from the spend of the period, for every
budget but zero. -/
theorem same_spend_levels (w : Weekly) (jax : Bool) (start stop : Option ℤ) (budget : Option ℚ)
    (lower upper : Option (List ℚ)) (O : OptGrid) (hb : budget ≠ some 0)
    (h : w.toGrid jax start stop budget lower upper = .ok (some O)) (outcome : ℕ → ℕ → ℚ) :
    ∃ O', createOptimizationGrid w.settings.channels.length (w.hist (w.first start) (w.last stop))
        outcome budget (1 / 10000) none (lower.getD [w.settings.limits.variation])
        (upper.getD [w.settings.limits.variation]) = .ok O' ∧
      O'.grid.rows = O.grid.rows ∧ O'.grid.cols = O.grid.cols ∧ O'.grid.spend = O.grid.spend ∧
      O'.hist = O.hist ∧ O'.gtol = O.gtol ∧ O'.roundFactor = O.roundFactor := by
  rcases toGrid_cases h with ⟨_, h⟩ | ⟨_, share, rf, lo, hi, h1, h2, h3, h4⟩
  · cases h
  rcases h4 with ⟨_, h4⟩ | ⟨_, rows, cells, h5, h6⟩
  · cases h4
  have hr : ∀ t, resolveBudget budget t = budget.getD t := by
    intro t
    unfold resolveBudget
    cases budget with
    | none => rfl
    | some b =>
      have : b ≠ 0 := fun e => hb (by rw [e])
      exact if_neg this
  cases h6
  unfold createOptimizationGrid
  simp only [hr, h1, h2, h3, h5, bind, Except.bind, pure, Except.pure]
  exact ⟨_, rfl, rfl, rfl, rfl, rfl, rfl, rfl⟩

/-- **C74 (outcome).** Without reach and frequency channels, the outcome at a spend level is the
interpolated outcome of the period at the ratio of this spend to the historical spend; it is zero for
a channel without historical spend. -/
theorem scenario_outcome (w : Weekly) (jax : Bool) (start stop : Option ℤ) (budget : Option ℚ)
    (lower upper : Option (List ℚ)) (O : OptGrid)
    (h : w.toGrid jax start stop budget lower upper = .ok (some O)) (r c : ℕ)
    (hc : c < w.settings.channels.length - w.settings.rfChannels) :
    (O.hist c ≠ 0 → ∀ s, O.grid.spend r c = some s → O.grid.out r c = some
      (periodTotal (w.outcome.map fun p => (p.1, weekOutcome w p c (s / O.hist c)))
        (w.first start) (w.last stop))) ∧
    (O.hist c ≠ 0 → O.grid.spend r c = none → O.grid.out r c = none) ∧
    (O.hist c = 0 → O.grid.out r c = some 0) ∧
    O.hist c = periodTotal (w.spend.map fun p => (p.1, p.2 c)) (w.first start) (w.last stop) := by
  rcases toGrid_cases h with ⟨_, h⟩ | ⟨_, share, rf, lo, hi, h1, h2, h3, h4⟩
  · cases h
  rcases h4 with ⟨_, h4⟩ | ⟨_, rows, cells, h5, h6⟩
  · cases h4
  cases h6
  have ho : w.outcomeGrid jax (w.first start) (w.last stop) rows cells r c
      = w.outcomeCell (w.first start) (w.last stop) cells r c := by
    unfold Weekly.outcomeGrid
    by_cases h0 : w.settings.rfChannels = 0
    · rw [if_pos h0]
    · have hs : ¬ (Stabilize.sliceStart w.settings.channels.length w.settings.rfChannels ≤ c ∧
          c < w.settings.channels.length) := by
        unfold Stabilize.sliceStart
        rw [if_neg h0]
        omega
      rw [if_neg h0]
      cases jax
      · simp only [Bool.false_eq_true, if_false, Stabilize.tfStabilize, Stabilize.overwrite, if_neg hs]
      · simp only [if_true, Stabilize.jaxStabilize, Stabilize.overwrite, if_neg hs]
  simp only [ho]
  unfold Weekly.outcomeCell
  refine ⟨?_, ?_, ?_, ?_⟩
  · intro h0 s hs
    rw [if_neg h0, hs, Option.map_some, period_is_sum_of_weeks]
  · intro h0 hs
    rw [if_neg h0, hs]
    rfl
  · intro h0
    rw [if_pos h0]
  · unfold Weekly.hist periodTotal
    rw [List.filter_map, List.map_map]
    rfl

/-- **C74 (refusal).** If nothing is wrong with the request itself, there is no grid exactly if a given
date is not a week of the grid, or the bounds of some channel are not covered. -/
theorem no_grid_iff (w : Weekly) (jax : Bool) (start stop : Option ℤ) (budget : Option ℚ)
    (lower upper : Option (List ℚ)) (r : Option OptGrid)
    (h : w.toGrid jax start stop budget lower upper = .ok r) :
    r = none ↔ (∃ s, start = some s ∧ s ∉ w.time) ∨ (∃ e, stop = some e ∧ e ∉ w.time) ∨
      ∃ share rf lo hi,
        validatePctOfSpend w.settings.channels.length (w.hist (w.first start) (w.last stop)) none
          = .ok share ∧
        getRoundFactor (budget.getD (histTotal w.settings.channels.length
          (w.hist (w.first start) (w.last stop)))) (1 / 10000) = .ok rf ∧
        getOptimizationBounds w.settings.channels.length
          (fun c => budget.getD (histTotal w.settings.channels.length
            (w.hist (w.first start) (w.last stop))) * share c) rf
          (lower.getD [w.settings.limits.variation]) (upper.getD [w.settings.limits.variation])
          = .ok (lo, hi) ∧
        w.boundsCovered lo hi (w.hist (w.first start) (w.last stop)) rf = false := by
  have hv : w.validDates start stop = false ↔
      (∃ s, start = some s ∧ s ∉ w.time) ∨ ∃ e, stop = some e ∧ e ∉ w.time := by
    unfold Weekly.validDates
    cases start <;> cases stop <;> simp [or_iff_not_imp_left]
  rcases toGrid_cases h with ⟨h1, rfl⟩ | ⟨h0, share, rf, lo, hi, h1, h2, h3, h4⟩
  · simp only [true_iff]
    rcases hv.1 h1 with h | h
    · exact Or.inl h
    · exact Or.inr (Or.inl h)
  · rcases h4 with ⟨h4, rfl⟩ | ⟨h4, rows, cells, h5, rfl⟩
    · simp only [true_iff]
      exact Or.inr (Or.inr ⟨share, rf, lo, hi, h1, h2, h3, h4⟩)
    · simp only [reduceCtorEq, false_iff]
      have hn : ¬ w.validDates start stop = false := by rw [h0]; simp
      rintro (h | h | ⟨share', rf', lo', hi', e1, e2, e3, e4⟩)
      · exact hn (hv.2 (Or.inl h))
      · exact hn (hv.2 (Or.inr h))
      · rw [h1] at e1
        rw [h2] at e2
        cases e1
        cases e2
        rw [h3] at e3
        cases e3
        rw [h4] at e4
        cases e4

/-! ### What is covered -/

theorem covered_iff (mults : List ℚ) (rounded rf lo hi : ℤ) (hrf : rf ≤ 0) (a b : ℚ)
    (ha : mults.head? = some a) (hb : mults.getLast? = some b) :
    channelCovered mults rounded rf lo hi = true ↔
      rounded = 0 ∨ (rint (a * rounded / stepSize rf) * stepSize rf ≤ lo ∧
        hi ≤ rint (b * rounded / stepSize rf) * stepSize rf) := by
  unfold channelCovered
  by_cases h : rounded = 0
  · simp [h]
  · rw [if_neg h, ha, hb]
    simp only [trunc_npRound hrf, Bool.and_eq_true, Bool.not_eq_true', decide_eq_false_iff_not,
      not_lt, h, false_or]

theorem rint_step (x : ℚ) {rf : ℤ} :
    x - (stepSize rf : ℚ) / 2 ≤ (rint (x / stepSize rf) * stepSize rf : ℤ) ∧
    ((rint (x / stepSize rf) * stepSize rf : ℤ) : ℚ) ≤ x + (stepSize rf : ℚ) / 2 := by
  have hs : (0 : ℚ) < stepSize rf := by exact_mod_cast stepSize_pos rf
  have h1 := rint_le (x / stepSize rf)
  have h2 := le_rint (x / stepSize rf)
  have e : x / stepSize rf * stepSize rf = x := by field_simp
  have h1' := mul_le_mul_of_nonneg_right h1 hs.le
  have h2' := mul_le_mul_of_nonneg_right h2 hs.le
  push_cast
  constructor <;> nlinarith

/-- **C74 (coverage).** If a grid is returned, the spend levels of a channel whose historical spend does
not round to zero lie between the smallest and the largest multiple of its historical spend, but for
rounding: at most `(m + 1) / 2` steps beyond, where `m` is the multiplier. -/
theorem levels_covered (w : Weekly) (jax : Bool) (start stop : Option ℤ) (budget : Option ℚ)
    (lower upper : Option (List ℚ)) (O : OptGrid)
    (h : w.toGrid jax start stop budget lower upper = .ok (some O)) (a b : ℚ)
    (ha : w.settings.multipliers.head? = some a) (hb : w.settings.multipliers.getLast? = some b)
    (ha0 : 0 ≤ a) (hb0 : 0 ≤ b) (c : ℕ) (hc : c < w.settings.channels.length)
    (hr : roundedSpend O.hist O.roundFactor c ≠ 0) (r : ℕ) (s : ℚ) (hs : O.grid.spend r c = some s) :
    a * O.hist c - (a + 1) / 2 * stepSize O.roundFactor ≤ s ∧
    s ≤ b * O.hist c + (b + 1) / 2 * stepSize O.roundFactor := by
  rcases toGrid_cases h with ⟨_, h⟩ | ⟨_, share, rf, lo, hi, h1, h2, h3, h4⟩
  · cases h
  rcases h4 with ⟨_, h4⟩ | ⟨hcov, rows, cells, h5, h6⟩
  · cases h4
  cases h6
  simp only at hr hs ⊢
  have hrf := (getRoundFactor_ok h2).1
  have hstep : (0 : ℚ) < stepSize rf := by exact_mod_cast stepSize_pos rf
  have hcc : channelCovered w.settings.multipliers
      (roundedSpend (w.hist (w.first start) (w.last stop)) rf c) rf (lo c) (hi c) = true := by
    unfold Weekly.boundsCovered at hcov
    exact List.all_eq_true.1 hcov c (List.mem_range.2 hc)
  rw [covered_iff _ _ _ _ _ hrf a b ha hb] at hcc
  obtain ⟨c1, c2⟩ := hcc.resolve_left hr
  obtain ⟨_, hlo, hhi⟩ := getOptimizationBounds_ok h3
  -- the level is between the bounds
  have hlev : (lo c : ℚ) ≤ s ∧ s ≤ hi c := by
    unfold createSpendGrid at h5
    simp only at h5
    split_ifs at h5 with hsh
    cases h5
    simp only at hs
    split_ifs at hs with hlt
    cases hs
    have hpos := stepSize_pos rf
    refine ⟨?_, ?_⟩
    · have : lo c ≤ lo c + r * stepSize rf := by
        have : 0 ≤ (r : ℤ) * stepSize rf := by positivity
        linarith
      exact_mod_cast this
    · have d1 : stepSize rf ∣ lo c := by
        rw [hlo]; simp only [trunc_npRound hrf]; exact dvd_mul_left _ _
      have d2 : stepSize rf ∣ hi c := by
        rw [hhi]; simp only [trunc_npRound hrf]; exact dvd_mul_left _ _
      obtain ⟨x, hx⟩ := d1
      obtain ⟨y, hy⟩ := d2
      unfold arangeLen at hlt
      rw [hx, hy] at hlt
      have e : -(stepSize rf * y + stepSize rf - stepSize rf * x)
          = stepSize rf * (-(y + 1 - x)) := by ring
      rw [e, Int.mul_ediv_cancel_left _ hpos.ne'] at hlt
      have : (r : ℤ) ≤ y - x := by omega
      have : lo c + r * stepSize rf ≤ hi c := by
        rw [hx, hy]
        nlinarith
      exact_mod_cast this
  have hR := rint_step (w.hist (w.first start) (w.last stop) c) (rf := rf)
  have hRe : roundedSpend (w.hist (w.first start) (w.last stop)) rf c
      = rint (w.hist (w.first start) (w.last stop) c / stepSize rf) * stepSize rf :=
    trunc_npRound hrf _
  rw [← hRe] at hR
  have e1 := (rint_step (a * roundedSpend (w.hist (w.first start) (w.last stop)) rf c) (rf := rf)).1
  have e2 := (rint_step (b * roundedSpend (w.hist (w.first start) (w.last stop)) rf c) (rf := rf)).2
  have c1' : ((rint (a * roundedSpend (w.hist (w.first start) (w.last stop)) rf c / stepSize rf)
      * stepSize rf : ℤ) : ℚ) ≤ lo c := by exact_mod_cast c1
  have c2' : (hi c : ℚ) ≤ ((rint (b * roundedSpend (w.hist (w.first start) (w.last stop)) rf c
      / stepSize rf) * stepSize rf : ℤ) : ℚ) := by exact_mod_cast c2
  constructor
  · nlinarith [mul_le_mul_of_nonneg_left hR.1 ha0, hlev.1]
  · nlinarith [mul_le_mul_of_nonneg_left hR.2 hb0, hlev.2]

/-- **C74 (coverage).** The historical budget with constraints no larger than those the multipliers
reach is always covered. -/
theorem historical_budget_covered (w : Weekly) (jax : Bool) (start stop : Option ℤ)
    (lower upper : Option (List ℚ)) (r : Option OptGrid) (hdates : w.validDates start stop = true)
    (h : w.toGrid jax start stop none lower upper = .ok r) (a b : ℚ)
    (ha : w.settings.multipliers.head? = some a) (hb : w.settings.multipliers.getLast? = some b)
    (hnn : ∀ c, 0 ≤ w.hist (w.first start) (w.last stop) c)
    (hl : ∀ x ∈ lower.getD [w.settings.limits.variation], x ≤ 1 - a)
    (hu : ∀ x ∈ upper.getD [w.settings.limits.variation], x ≤ b - 1) : r ≠ none := by
  rcases toGrid_cases h with ⟨h0, _⟩ | ⟨_, share, rf, lo, hi, h1, h2, h3, h4⟩
  · rw [hdates] at h0; cases h0
  rcases h4 with ⟨h4, _⟩ | ⟨_, rows, cells, _, rfl⟩
  · exfalso
    revert h4
    simp only [Bool.eq_false_iff]; simp only [ne_eq, imp_false, not_not]
    have hrf := (getRoundFactor_ok h2).1
    obtain ⟨hv, hlo, hhi⟩ := getOptimizationBounds_ok h3
    obtain ⟨v1, v2, _, _⟩ := validateSpendConstraints_ok hv
    have hsh : ∀ c, (none : Option ℚ).getD (histTotal w.settings.channels.length
        (w.hist (w.first start) (w.last stop))) * share c = w.hist (w.first start) (w.last stop) c := by
      intro c
      have hpos := (getRoundFactor_ok h2).2.2
      simp only [Option.getD_none] at hpos ⊢
      unfold validatePctOfSpend at h1
      simp only at h1
      split_ifs at h1 with hz
      cases h1
      simp only
      rw [← mul_div_assoc]
      exact mul_div_cancel_left₀ _ hpos.ne'
    unfold Weekly.boundsCovered
    rw [List.all_eq_true]
    intro c hc
    have hc := List.mem_range.1 hc
    rw [covered_iff _ _ _ _ _ hrf a b ha hb]
    right
    rw [hlo, hhi]
    simp only [hsh]
    have hR : 0 ≤ roundedSpend (w.hist (w.first start) (w.last stop)) rf c :=
      truncInt_nonneg (npRound_nonneg _ (hnn c))
    have hR' : (0 : ℚ) ≤ roundedSpend (w.hist (w.first start) (w.last stop)) rf c := by
      exact_mod_cast hR
    have hre : roundedSpend (fun c => w.hist (w.first start) (w.last stop) c) rf c
      = roundedSpend (w.hist (w.first start) (w.last stop)) rf c := rfl
    rw [trunc_npRound hrf, trunc_npRound hrf]
    have hspos := stepSize_pos rf
    have hspos' : (0 : ℚ) < stepSize rf := by exact_mod_cast hspos
    constructor
    · refine mul_le_mul_of_nonneg_right (rint_mono ?_) hspos.le
      refine div_le_div_of_nonneg_right (mul_le_mul_of_nonneg_right ?_ hR') hspos'.le
      refine le_max_of_le_left ?_
      have := hl _ (constraintAt_mem v1 hc)
      linarith
    · refine mul_le_mul_of_nonneg_right (rint_mono ?_) hspos.le
      refine div_le_div_of_nonneg_right (mul_le_mul_of_nonneg_right ?_ hR') hspos'.le
      have := hu _ (constraintAt_mem v2 hc)
      linarith
  · simp

/-! ### Multipliers -/

theorem lt_count (l : Limits) (hs : 0 < l.step) (k : ℕ) :
    k < l.count ↔ l.lower + k * l.step < l.upper + l.step / 2 := by
  unfold Limits.count
  rw [Int.lt_toNat, Int.lt_ceil, lt_div_iff₀ hs]
  push_cast
  constructor <;> intro h <;> linarith

/-- **C75 (multipliers).** The multipliers are the values `lower + k · step` up to half a step beyond
`upper`, rounded to six decimals, in strictly increasing order. -/
theorem multipliers_meaning (l : Limits) (hs : 0 < l.step) :
    l.multipliers.Pairwise (· < ·) ∧
    ∀ x, x ∈ l.multipliers ↔
      ∃ k : ℕ, l.lower + k * l.step < l.upper + l.step / 2 ∧ x = npRound (l.lower + k * l.step) 6 := by
  unfold Limits.multipliers
  constructor
  · have h1 := List.pairwise_insertionSort (fun a b : ℚ => a ≤ b)
      (((List.range l.count).map fun k : ℕ => npRound (l.lower + k * l.step) 6).dedup)
    have h2 : ((((List.range l.count).map fun k : ℕ =>
        npRound (l.lower + k * l.step) 6).dedup).insertionSort (· ≤ ·)).Nodup :=
      (List.perm_insertionSort _ _).nodup_iff.2 (List.nodup_dedup _)
    exact (h1.and h2).imp fun h => lt_of_le_of_ne h.1 h.2
  · intro x
    rw [List.mem_insertionSort, List.mem_dedup, List.mem_map]
    constructor
    · rintro ⟨k, hk, rfl⟩
      exact ⟨k, (lt_count l hs k).1 (List.mem_range.1 hk), rfl⟩
    · rintro ⟨k, hk, rfl⟩
      exact ⟨k, List.mem_range.2 ((lt_count l hs k).2 hk), rfl⟩

theorem head_of_min {l : List ℚ} (h : l.Pairwise (· < ·)) {x : ℚ} (hx : x ∈ l)
    (hmin : ∀ y ∈ l, x ≤ y) : l.head? = some x := by
  cases l with
  | nil => simp at hx
  | cons a l =>
    have h1 := (List.pairwise_cons.1 h).1
    rcases List.mem_cons.1 hx with rfl | hx
    · rfl
    · exact absurd (hmin a (by simp)) (not_le.2 (h1 x hx))

theorem last_of_max {l : List ℚ} (h : l.Pairwise (· < ·)) {x : ℚ} (hx : x ∈ l)
    (hmax : ∀ y ∈ l, y ≤ x) : l.getLast? = some x := by
  rcases List.eq_nil_or_concat l with rfl | ⟨u, a, rfl⟩
  · simp at hx
  · rw [List.concat_eq_append] at *
    have h1 := (List.pairwise_append.1 h).2.2
    rcases List.mem_append.1 hx with hx | hx
    · exact absurd (hmax a (by simp)) (not_le.2 (h1 x hx a (by simp)))
    · obtain rfl : x = a := by simpa using hx
      simp

/-- **C75 (multipliers).** The first multiplier is `lower`, rounded to six decimals, and the last one is
within half a step of `upper`, but for this rounding; it is `upper`, rounded, if a whole number of
steps leads there. -/
theorem multipliers_ends (l : Limits) (hs : 0 < l.step) (h : l.lower ≤ l.upper) :
    l.multipliers.head? = some (npRound l.lower 6) ∧
    (∃ b, l.multipliers.getLast? = some b ∧ |b - l.upper| ≤ l.step / 2 + 1 / 2000000) ∧
    (∀ k : ℕ, l.upper = l.lower + k * l.step → l.multipliers.getLast? = some (npRound l.upper 6)) := by
  obtain ⟨hp, hm⟩ := multipliers_meaning l hs
  have hlast : ∀ k : ℕ, l.lower + k * l.step < l.upper + l.step / 2 →
      l.upper + l.step / 2 ≤ l.lower + (k + 1 : ℕ) * l.step →
      l.multipliers.getLast? = some (npRound (l.lower + k * l.step) 6) := by
    intro k h1 h2
    refine last_of_max hp ((hm _).2 ⟨k, h1, rfl⟩) ?_
    intro y hy
    obtain ⟨j, hj, rfl⟩ := (hm y).1 hy
    apply npRound_mono
    have : (j : ℚ) * l.step < ((k + 1 : ℕ) : ℚ) * l.step := by linarith
    have := lt_of_mul_lt_mul_right this hs.le
    have : j ≤ k := by
      have : j < k + 1 := by exact_mod_cast this
      omega
    have : (j : ℚ) ≤ k := by exact_mod_cast this
    nlinarith
  refine ⟨?_, ?_, ?_⟩
  · refine head_of_min hp ((hm _).2 ⟨0, ?_, by simp⟩) ?_
    · simp only [Nat.cast_zero, zero_mul, add_zero]; linarith
    · intro y hy
      obtain ⟨j, hj, rfl⟩ := (hm y).1 hy
      apply npRound_mono
      have : (0 : ℚ) ≤ j * l.step := by positivity
      linarith
  · have hpos : 0 < l.count := (lt_count l hs 0).2 (by simp only [Nat.cast_zero, zero_mul]; linarith)
    obtain ⟨k, hk⟩ : ∃ k, l.count = k + 1 := ⟨l.count - 1, by omega⟩
    have h1 := (lt_count l hs k).1 (by omega)
    have h2 : l.upper + l.step / 2 ≤ l.lower + (k + 1 : ℕ) * l.step := by
      by_contra hn
      have := (lt_count l hs (k + 1)).2 (not_le.1 hn)
      omega
    refine ⟨_, hlast k h1 h2, ?_⟩
    have hr := abs_npRound_sub (l.lower + k * l.step) 6
    have e6 : (1 : ℚ) / 2 / (10 : ℚ) ^ (6 : ℤ) = 1 / 2000000 := by norm_num
    rw [e6, abs_le] at hr
    push_cast at h2
    rw [abs_le]
    constructor
    · linarith [hr.1]
    · linarith [hr.2]
  · intro k hk
    rw [hk]
    refine hlast k (by linarith) ?_
    push_cast
    linarith

/-- The default step: 25300 steps of the default limits, and the limits are 0.07 and 2.6. -/
example :
    let l : Limits := ⟨9 / 10, 1, 3 / 10, defaultStep (9 / 10)⟩
    0 < l.step ∧ l.lower ≤ l.upper ∧ l.upper = l.lower + (253000 : ℕ) * l.step ∧
      l.multipliers.head? = some (7 / 100) ∧ l.multipliers.getLast? = some (26 / 10) := by
  have hs : (0 : ℚ) < (⟨9 / 10, 1, 3 / 10, defaultStep (9 / 10)⟩ : Limits).step := by
    norm_num [defaultStep]
  have hle : (⟨9 / 10, 1, 3 / 10, defaultStep (9 / 10)⟩ : Limits).lower
      ≤ (⟨9 / 10, 1, 3 / 10, defaultStep (9 / 10)⟩ : Limits).upper := by
    norm_num [Limits.lower, Limits.upper]
  have hk : (⟨9 / 10, 1, 3 / 10, defaultStep (9 / 10)⟩ : Limits).upper
      = (⟨9 / 10, 1, 3 / 10, defaultStep (9 / 10)⟩ : Limits).lower
        + (253000 : ℕ) * (⟨9 / 10, 1, 3 / 10, defaultStep (9 / 10)⟩ : Limits).step := by
    norm_num [Limits.lower, Limits.upper, defaultStep]
  obtain ⟨h1, _, h3⟩ := multipliers_ends _ hs hle
  have e1 : npRound (⟨9 / 10, 1, 3 / 10, defaultStep (9 / 10)⟩ : Limits).lower 6 = 7 / 100 := by
    decide +kernel
  have e2 : npRound (⟨9 / 10, 1, 3 / 10, defaultStep (9 / 10)⟩ : Limits).upper 6 = 26 / 10 := by
    decide +kernel
  refine ⟨hs, hle, hk, ?_, ?_⟩
  · rw [h1, e1]
  · rw [h3 _ hk, e2]

/-! ### Outcomes -/

/-- **C75 (outcomes).** The outcome at a multiplier is the expected change of the outcome, summed over
geos, when every unit of the channel is multiplied instead of removed: the difference of the
transformed media times the coefficient, in units of the KPI or of revenue.  The mean of the KPI has no
influence. -/
theorem cell_meaning (s : Source) (m : ℚ) (t c : ℕ) :
    s.cell m t c = ((List.range s.geos).map fun g => ((List.range s.draws).map fun d =>
      (if s.useKpi then 1 else s.revenue g t) *
        ((s.transformed d m g t c - s.transformed d 0 g t c) * s.beta d g c * s.kpiStd * s.pop g)).sum
          / s.draws).sum := by
  unfold Source.cell
  congr 1
  refine List.map_congr_left fun g _ => ?_
  congr 2
  refine List.map_congr_left fun d _ => ?_
  unfold Source.incremental Source.inverse
  cases s.useKpi
  · simp only [Bool.false_eq_true, if_false]
    ring
  · simp only [if_true]
    ring

/-- **C75 (outcomes).** Nothing is gained at multiplier zero. -/
theorem cell_zero (s : Source) (t c : ℕ) : s.cell 0 t c = 0 := by
  rw [cell_meaning]
  simp

/-- **C75 (outcomes).** The size of the batches does not matter, even if it is not positive. -/
theorem outcomes_any_batch (s : Source) (batchSize : ℤ) (mults : List ℚ) :
    s.outcomes batchSize mults = mults.map s.cell := by
  unfold Source.outcomes
  rw [← List.map_flatten, batches_flatten _ _ _ (by omega) le_rfl]

/-- **C75 (outcomes).** A new grid has an entry for each selected week, in this order, in both arrays: the
outcome at each multiplier and the spend of this week of the data. -/
theorem create_meaning (settings : Settings) (s : Source) (batchSize : ℤ) (dates : List ℤ)
    (selected : Option (List ℤ)) (spend : ℕ → ℕ → ℚ)
    (hsel : ∀ d ∈ selected.getD dates, d ∈ dates) :
    let w := create settings s batchSize dates selected spend
    w.time = selected.getD dates ∧ w.spend.map Prod.fst = selected.getD dates ∧ w.settings = settings ∧
    (∀ p ∈ w.outcome, ∃ t, dates[t]? = some p.1 ∧
      ∀ (c k : ℕ) (m : ℚ), settings.multipliers[k]? = some m → p.2 c k = s.cell m t c) ∧
    (∀ p ∈ w.spend, ∃ t, dates[t]? = some p.1 ∧ ∀ c, p.2 c = spend t c) := by
  have hidx : ∀ d ∈ selected.getD dates, dates[dates.idxOf d]? = some d := by
    intro d hdm
    rw [List.getElem?_eq_getElem (List.idxOf_lt_length_of_mem (hsel d hdm))]
    simp
  refine ⟨?_, ?_, rfl, ?_, ?_⟩
  · simp [create, Weekly.time, Function.comp_def]
  · simp [create, Function.comp_def]
  · intro p hp
    obtain ⟨d, hdm, rfl⟩ := List.mem_map.1 hp
    refine ⟨dates.idxOf d, hidx d hdm, ?_⟩
    intro c k m hm
    simp only [outcomes_any_batch, List.getElem?_map, hm, Option.map_some, Option.getD_some]
  · intro p hp
    obtain ⟨d, hdm, rfl⟩ := List.mem_map.1 hp
    exact ⟨dates.idxOf d, hidx d hdm, fun c => rfl⟩

/-- **C75 (limits).** The three limits are accepted exactly if the decrease is at least 0 and less than 1
and the others are not negative. -/
theorem limits_accepted_iff (decrease increase variation : ℚ) :
    checkLimits decrease increase variation = .ok () ↔
      0 ≤ decrease ∧ decrease < 1 ∧ 0 ≤ increase ∧ 0 ≤ variation := by
  unfold checkLimits
  by_cases h1 : 0 ≤ decrease ∧ decrease < 1
  · rw [if_neg (not_not.2 h1)]
    by_cases h2 : increase < 0
    · rw [if_pos h2]
      simp only [reduceCtorEq, false_iff]
      rintro ⟨_, _, a, _⟩
      linarith
    · rw [if_neg h2]
      by_cases h3 : variation < 0
      · rw [if_pos h3]
        simp only [reduceCtorEq, false_iff]
        rintro ⟨_, _, _, a⟩
        linarith
      · rw [if_neg h3]
        exact iff_of_true rfl ⟨h1.1, h1.2, not_lt.1 h2, not_lt.1 h3⟩
  · rw [if_pos h1]
    simp only [reduceCtorEq, false_iff]
    rintro ⟨a, b, _⟩
    exact h1 ⟨a, b⟩

/-! ### Joining -/

/-- The weeks `s, s + 7, s + 14, …`. -/
def consecutive (s : ℤ) (n : ℕ) : List ℤ := (List.range n).map fun i : ℕ => s + 7 * i

theorem consecutive_succ (s : ℤ) (n : ℕ) : consecutive s (n + 1) = s :: consecutive (s + 7) n := by
  unfold consecutive
  rw [List.range_succ_eq_map, List.map_cons, List.map_map]
  simp only [Nat.cast_zero, mul_zero, add_zero, List.cons.injEq, true_and]
  refine List.map_congr_left fun i _ => ?_
  simp only [Function.comp, Nat.succ_eq_add_one, Nat.cast_add, Nat.cast_one]
  ring

theorem consecutive_lt (s : ℤ) (n : ℕ) : (consecutive s n).Pairwise (· < ·) := by
  unfold consecutive
  rw [List.pairwise_map]
  refine List.pairwise_lt_range.imp fun {i j} h => ?_
  have : (i : ℤ) < j := by exact_mod_cast h
  omega

theorem contiguous_iff (a : ℤ) (l : List ℤ) :
    contiguous (a :: l) = true ↔ a :: l = consecutive a (l.length + 1) := by
  induction l generalizing a with
  | nil => simp [contiguous, consecutive]
  | cons b l ih =>
    rw [consecutive_succ]
    simp only [contiguous, Bool.and_eq_true, decide_eq_true_eq, ih, List.cons.injEq, true_and,
      List.length_cons]
    constructor
    · rintro ⟨h, e⟩
      have : b = a + 7 := by omega
      rw [e, this]
    · intro h
      have : b = a + 7 := by
        rw [consecutive_succ] at h
        exact (List.cons.inj h).1
      subst this
      exact ⟨by omega, h⟩

theorem firstDifferent_none (first : Settings) (i : ℕ) (l : List Weekly) :
    firstDifferent first i l = none ↔ ∀ g ∈ l, g.settings = first := by
  induction l generalizing i with
  | nil => simp [firstDifferent]
  | cons g l ih =>
    by_cases h : g.settings = first
    · simp [firstDifferent, h, ih]
    · simp [firstDifferent, h]

/-- What happens when several grids are joined. -/
theorem combine_ok_cases (g1 g2 : Weekly) (rest : List Weekly) (w : Weekly) :
    combine (g1 :: g2 :: rest) = .ok w ↔
      (∀ g ∈ g2 :: rest, g.settings = g1.settings) ∧
      (((g1 :: g2 :: rest).flatMap Weekly.outcome).map Prod.fst).Nodup ∧
      contiguous (isel (((g1 :: g2 :: rest).flatMap Weekly.outcome).map Prod.fst)
        (argsort (((g1 :: g2 :: rest).flatMap Weekly.outcome).map Prod.fst))) = true ∧
      w = ⟨g1.settings,
        isel ((g1 :: g2 :: rest).flatMap Weekly.outcome)
          (argsort (((g1 :: g2 :: rest).flatMap Weekly.outcome).map Prod.fst)),
        isel ((g1 :: g2 :: rest).flatMap Weekly.spend)
          (argsort (((g1 :: g2 :: rest).flatMap Weekly.outcome).map Prod.fst))⟩ := by
  cases hf : firstDifferent g1.settings 1 (g2 :: rest) with
  | some i =>
    simp only [combine, hf, reduceCtorEq, false_iff]
    rintro ⟨h, _⟩
    rw [(firstDifferent_none _ _ _).2 h] at hf
    cases hf
  | none =>
    have h1 := (firstDifferent_none _ _ _).1 hf
    simp only [combine, hf]
    by_cases h2 : (((g1 :: g2 :: rest).flatMap Weekly.outcome).map Prod.fst).Nodup
    · rw [if_neg (not_not.2 h2)]
      by_cases h3 : contiguous (isel (((g1 :: g2 :: rest).flatMap Weekly.outcome).map Prod.fst)
        (argsort (((g1 :: g2 :: rest).flatMap Weekly.outcome).map Prod.fst))) = false
      · rw [if_pos h3]
        simp only [reduceCtorEq, false_iff]
        rintro ⟨_, _, h, _⟩
        rw [h3] at h
        cases h
      · rw [if_neg h3]
        constructor
        · intro h
          cases h
          exact ⟨h1, h2, by simpa using h3, rfl⟩
        · rintro ⟨_, _, _, rfl⟩
          rfl
    · rw [if_pos h2]
      simp only [reduceCtorEq, false_iff]
      rintro ⟨_, h, _⟩
      exact h2 h

theorem isel_argsort_le (l : List ℤ) : (isel l (argsort l)).Pairwise (· ≤ ·) := by
  have := isel_sorted l id
  simpa using this

theorem sorted_unique {l l' : List ℤ} (h : l.Pairwise (· ≤ ·)) (h' : l'.Pairwise (· ≤ ·))
    (hp : l.Perm l') : l = l' :=
  hp.eq_of_pairwise (fun a b _ _ h1 h2 => le_antisymm h1 h2) h h'

/-- **C75 (joining).** Two or more grids with at least one week can be joined exactly if their settings
agree (limits, step, channels, multipliers, frequency and kind of outcome) and together their weeks
are consecutive weeks, each once. -/
theorem combine_accepts_iff (g1 g2 : Weekly) (rest : List Weekly) (hne : g1.outcome ≠ []) :
    (∃ w, combine (g1 :: g2 :: rest) = .ok w) ↔
      (∀ g ∈ g2 :: rest, g.settings = g1.settings) ∧
      ∃ s n, ((g1 :: g2 :: rest).flatMap Weekly.time).Perm (consecutive s n) := by
  have htime : (g1 :: g2 :: rest).flatMap Weekly.time
      = ((g1 :: g2 :: rest).flatMap Weekly.outcome).map Prod.fst := by
    rw [List.map_flatMap]
    rfl
  rw [htime]
  have hne' : ((g1 :: g2 :: rest).flatMap Weekly.outcome).map Prod.fst ≠ [] := by
    simp [hne]
  generalize hT : ((g1 :: g2 :: rest).flatMap Weekly.outcome).map Prod.fst = T at *
  have hperm : (isel T (argsort T)).Perm T := isel_perm _ (argsort_perm _)
  constructor
  · rintro ⟨w, h⟩
    rw [combine_ok_cases, hT] at h
    refine ⟨h.1, ?_⟩
    obtain ⟨_, _, hc, _⟩ := h
    cases hl : isel T (argsort T) with
    | nil =>
      rw [hl] at hperm
      exact absurd hperm.nil_eq.symm hne'
    | cons a l =>
      rw [hl] at hc hperm
      rw [contiguous_iff] at hc
      exact ⟨a, l.length + 1, by rw [← hc]; exact hperm.symm⟩
  · rintro ⟨h1, s, n, hp⟩
    refine ⟨_, (combine_ok_cases _ _ _ _).2 ⟨h1, ?_, ?_, rfl⟩⟩
    · rw [hT, hp.nodup_iff]
      exact (consecutive_lt s n).imp fun h => h.ne
    · rw [hT]
      have e : isel T (argsort T) = consecutive s n :=
        sorted_unique (isel_argsort_le T) ((consecutive_lt s n).imp fun h => h.le) (hperm.trans hp)
      rw [e]
      cases n with
      | zero => simp [consecutive, contiguous]
      | succ n =>
        have hlen : (consecutive (s + 7) n).length = n := by simp [consecutive]
        rw [consecutive_succ, contiguous_iff, hlen, consecutive_succ]

/-- Both arrays of a grid have the same weeks. -/
def Aligned (w : Weekly) : Prop := w.spend.map Prod.fst = w.time

theorem aligned_keys (l : List Weekly) (ha : ∀ g ∈ l, Aligned g) :
    (l.flatMap Weekly.spend).map Prod.fst = (l.flatMap Weekly.outcome).map Prod.fst := by
  induction l with
  | nil => rfl
  | cons g l ih =>
    simp only [List.flatMap_cons, List.map_append]
    rw [ih fun g hg => ha g (List.mem_cons_of_mem _ hg)]
    congr 1
    exact ha g (by simp)

theorem argsort_keys {α : Type} (l : List (ℤ × α)) :
    (argsort (l.map Prod.fst)).Perm (List.range l.length) := by
  have := argsort_perm (l.map Prod.fst)
  rwa [List.length_map] at this

/-- **C75 (joining).** The joined grid has the weeks of the parts with their outcomes and spends, nothing
else, in order of time in both arrays, and the settings of the parts. -/
theorem combine_result (g1 g2 : Weekly) (rest : List Weekly) (w : Weekly)
    (ha : ∀ g ∈ g1 :: g2 :: rest, Aligned g) (h : combine (g1 :: g2 :: rest) = .ok w) :
    w.settings = g1.settings ∧ w.time.Pairwise (· < ·) ∧ Aligned w ∧
    (∀ p, p ∈ w.outcome ↔ ∃ g ∈ g1 :: g2 :: rest, p ∈ g.outcome) ∧
    (∀ p, p ∈ w.spend ↔ ∃ g ∈ g1 :: g2 :: rest, p ∈ g.spend) := by
  obtain ⟨_, hn, _, rfl⟩ := (combine_ok_cases _ _ _ _).1 h
  have hk := aligned_keys _ ha
  generalize hO : (g1 :: g2 :: rest).flatMap Weekly.outcome = O at *
  generalize hS : (g1 :: g2 :: rest).flatMap Weekly.spend = S at *
  have hperm : (isel O (argsort (O.map Prod.fst))).Perm O :=
    isel_perm _ (argsort_keys O)
  have hperm' : (isel S (argsort (O.map Prod.fst))).Perm S := by
    rw [← hk]
    exact isel_perm _ (argsort_keys S)
  have hs := isel_sorted O Prod.fst
  have hs' := isel_sorted S Prod.fst
  rw [hk] at hs'
  refine ⟨rfl, ?_, ?_, ?_, ?_⟩
  · have hn' : ((isel O (argsort (O.map Prod.fst))).map Prod.fst).Nodup :=
      (hperm.map _).nodup_iff.2 hn
    exact (hs.and hn').imp fun h => lt_of_le_of_ne h.1 h.2
  · refine sorted_unique hs' hs ?_
    exact ((hperm'.map _).trans (by rw [hk])).trans (hperm.map _).symm
  · intro p
    simp only
    rw [hperm.mem_iff, ← hO, List.mem_flatMap]
  · intro p
    simp only
    rw [hperm'.mem_iff, ← hS, List.mem_flatMap]

/-- **C75 (joining).** A period of the joined grid has the total of its parts: historical spend and
outcome at every multiplier. -/
theorem combine_period (g1 g2 : Weekly) (rest : List Weekly) (w : Weekly)
    (ha : ∀ g ∈ g1 :: g2 :: rest, Aligned g) (h : combine (g1 :: g2 :: rest) = .ok w) (a b : ℤ)
    (c : ℕ) :
    w.hist a b c = ((g1 :: g2 :: rest).map fun g => g.hist a b c).sum ∧
    ∀ x, interp (w.nodes a b c) x = ((g1 :: g2 :: rest).map fun g => interp (g.nodes a b c) x).sum := by
  obtain ⟨hset, hn, _, hw⟩ := (combine_ok_cases _ _ _ _).1 h
  have hset' : ∀ g ∈ g1 :: g2 :: rest, g.settings = g1.settings := by
    intro g hg
    rcases List.mem_cons.1 hg with rfl | hg
    · rfl
    · exact hset g hg
  have hk := aligned_keys _ ha
  have hperm : w.outcome.Perm ((g1 :: g2 :: rest).flatMap Weekly.outcome) := by
    rw [hw]
    exact isel_perm _ (argsort_keys _)
  have hperm' : w.spend.Perm ((g1 :: g2 :: rest).flatMap Weekly.spend) := by
    rw [hw, ← hk]
    exact isel_perm _ (argsort_keys _)
  have hws : w.settings = g1.settings := by rw [hw]
  have key : ∀ {α : Type} (l : List Weekly) (part : Weekly → List α) (keep : α → Bool) (f : α → ℚ),
      (((l.flatMap part).filter keep).map f).sum
        = (l.map fun g => (((part g).filter keep).map f).sum).sum := by
    intro α l part keep f
    induction l with
    | nil => rfl
    | cons g l ih =>
      simp only [List.flatMap_cons, List.filter_append, List.map_append, List.sum_append,
        List.map_cons, List.sum_cons, ih]
  constructor
  · unfold Weekly.hist
    rw [((hperm'.filter _).map _).sum_eq, key]
  · intro x
    rw [period_is_sum_of_weeks]
    unfold periodTotal
    rw [List.filter_map, List.map_map, ((hperm.filter _).map _).sum_eq, key]
    congr 1
    refine List.map_congr_left fun g hg => ?_
    rw [period_is_sum_of_weeks]
    unfold periodTotal
    rw [List.filter_map, List.map_map]
    congr 1
    refine List.map_congr_left fun p _ => ?_
    simp only [Function.comp, weekOutcome, hws, hset' g hg]

/-- **C75 (joining).** The order in which the grids are given does not matter. -/
theorem combine_any_order (l l' : List Weekly) (hp : l.Perm l') (h2 : 2 ≤ l.length)
    (ha : ∀ g ∈ l, Aligned g) (w : Weekly) (h : combine l = .ok w) : combine l' = .ok w := by
  obtain ⟨g1, g2, rest, rfl⟩ : ∃ g1 g2 rest, l = g1 :: g2 :: rest := by
    match l, h2 with
    | g1 :: g2 :: rest, _ => exact ⟨g1, g2, rest, rfl⟩
  obtain ⟨k1, k2, rest', rfl⟩ : ∃ g1 g2 rest, l' = g1 :: g2 :: rest := by
    have := hp.length_eq
    match l', (by omega : 2 ≤ l'.length) with
    | g1 :: g2 :: rest, _ => exact ⟨g1, g2, rest, rfl⟩
  obtain ⟨hset, hn, hc, hw⟩ := (combine_ok_cases _ _ _ _).1 h
  have hset' : ∀ g ∈ g1 :: g2 :: rest, g.settings = g1.settings := by
    intro g hg
    rcases List.mem_cons.1 hg with rfl | hg
    · rfl
    · exact hset g hg
  have hk1 : k1.settings = g1.settings := hset' k1 (hp.mem_iff.2 (by simp))
  have hpO : ((g1 :: g2 :: rest).flatMap Weekly.outcome).Perm
      ((k1 :: k2 :: rest').flatMap Weekly.outcome) := hp.flatMap_right _
  have hpS : ((g1 :: g2 :: rest).flatMap Weekly.spend).Perm
      ((k1 :: k2 :: rest').flatMap Weekly.spend) := hp.flatMap_right _
  have kS := aligned_keys _ ha
  have kS' := aligned_keys (k1 :: k2 :: rest') fun g hg => ha g (hp.mem_iff.2 hg)
  have uniq : ∀ {α : Type} (A B : List (ℤ × α)), A.Perm B → (A.map Prod.fst).Nodup →
      isel A (argsort (A.map Prod.fst)) = isel B (argsort (B.map Prod.fst)) := by
    intro α A B hAB hA
    have p1 : (isel A (argsort (A.map Prod.fst))).Perm A :=
      isel_perm _ (argsort_keys A)
    have p2 : (isel B (argsort (B.map Prod.fst))).Perm B :=
      isel_perm _ (argsort_keys B)
    have s1 := List.pairwise_map.1 (isel_sorted A Prod.fst)
    have s2 := List.pairwise_map.1 (isel_sorted B Prod.fst)
    refine ((p1.trans hAB).trans p2.symm).eq_of_pairwise ?_ s1 s2
    intro x y hx hy h1 h2
    have hx' := p1.mem_iff.1 hx
    have hy' := hAB.mem_iff.2 (p2.mem_iff.1 hy)
    exact List.inj_on_of_nodup_map hA hx' hy' (le_antisymm h1 h2)
  have eO := uniq _ _ hpO hn
  have eS := uniq _ _ hpS (by rw [kS]; exact hn)
  rw [kS, kS'] at eS
  have eT : isel (((g1 :: g2 :: rest).flatMap Weekly.outcome).map Prod.fst)
      (argsort (((g1 :: g2 :: rest).flatMap Weekly.outcome).map Prod.fst))
      = isel (((k1 :: k2 :: rest').flatMap Weekly.outcome).map Prod.fst)
      (argsort (((k1 :: k2 :: rest').flatMap Weekly.outcome).map Prod.fst)) :=
    sorted_unique (isel_argsort_le _) (isel_argsort_le _)
      (((isel_perm _ (argsort_perm _)).trans (hpO.map _)).trans
        (isel_perm _ (argsort_perm _)).symm)
  refine (combine_ok_cases _ _ _ _).2 ⟨?_, (hpO.map _).nodup_iff.1 hn, ?_, ?_⟩
  · intro g hg
    rw [hk1]
    exact hset' g (hp.mem_iff.2 (List.mem_cons_of_mem _ hg))
  · rw [← eT]
    exact hc
  · rw [hw, hk1, eO, eS]

/-! ### Proportional outcomes -/

/-- **C74 (lookup).** On a straight line the interpolation is exact between the first and last node. -/
theorem interp_linear (l : List (ℚ × ℚ)) (h : Increasing l) (α β : ℚ)
    (hl : ∀ p ∈ l, p.2 = α * p.1 + β) (p q : ℚ × ℚ) (hp : l.head? = some p)
    (hq : l.getLast? = some q) (x : ℚ) (h1 : p.1 ≤ x) (h2 : x ≤ q.1) :
    interp l x = α * x + β := by
  have hne : l ≠ [] := by rintro rfl; simp at hp
  rcases position l h hne x with ⟨p', hp', hx⟩ | ⟨q', hq', hx⟩ | ⟨u, v, hn, hu, hv⟩
  · rw [hp] at hp'
    cases hp'
    have e : x = p.1 := le_antisymm hx h1
    have hm : p ∈ l := List.mem_of_mem_head? (by rw [hp]; rfl)
    rw [e, (interp_meaning l h).1 p hm, hl p hm]
  · rw [hq] at hq'
    cases hq'
    have e : x = q.1 := le_antisymm h2 hx
    have hm : q ∈ l := List.mem_of_getLast? hq
    rw [e, (interp_meaning l h).1 q hm, hl q hm]
  · obtain ⟨hlt, e⟩ := interp_neighbours h hn hu hv
    obtain ⟨a, b, rfl⟩ := hn
    rw [e, hl u (by simp), hl v (by simp)]
    have : v.1 - u.1 ≠ 0 := by linarith
    field_simp
    ring

/-- **C74 (outcome).** For a reach and frequency channel whose outcome in the period is proportional to
the multiplier, the outcome at each spend level is proportional to the spend, with the return on
the historical spend, on both backends: the correction for rounding errors changes nothing. -/
theorem proportional_outcome (w : Weekly) (jax : Bool) (start stop : Option ℤ) (budget : Option ℚ)
    (lower upper : Option (List ℚ)) (O : OptGrid)
    (h : w.toGrid jax start stop budget lower upper = .ok (some O)) (c : ℕ)
    (hc1 : w.settings.channels.length - w.settings.rfChannels ≤ c)
    (hc2 : c < w.settings.channels.length) (hrf : 0 < w.settings.rfChannels)
    (hm : w.settings.multipliers.Pairwise (· < ·)) (a b ρ : ℚ)
    (ha : w.settings.multipliers.head? = some a) (hb : w.settings.multipliers.getLast? = some b)
    (ha0 : 0 ≤ a) (hh : 0 < O.hist c) (hρ : 0 ≤ ρ)
    (hprop : ∀ (k : ℕ) (m : ℚ), w.settings.multipliers[k]? = some m →
      periodTotal (w.outcome.map fun p => (p.1, p.2 c k)) (w.first start) (w.last stop) = ρ * m)
    (hlev : ∀ r s, O.grid.spend r c = some s → a * O.hist c ≤ s ∧ s ≤ b * O.hist c)
    (r : ℕ) (hr : r < O.grid.rows) :
    O.grid.out r c = (O.grid.spend r c).map fun s => ρ / O.hist c * s := by
  rcases toGrid_cases h with ⟨_, h⟩ | ⟨_, share, rf, lo, hi, h1, h2, h3, h4⟩
  · cases h
  rcases h4 with ⟨_, h4⟩ | ⟨hcov, rows, cells, h5, h6⟩
  · cases h4
  cases h6
  simp only at hh hlev hr ⊢
  -- the nodes of the channel
  have hnodes : ∀ p ∈ w.nodes (w.first start) (w.last stop) c, p.2 = ρ * p.1 + 0 := by
    intro p hp
    obtain ⟨⟨m, k⟩, hmk, rfl⟩ := List.mem_map.1 hp
    have hk : w.settings.multipliers[k]? = some m := by
      have := List.mk_mem_zipIdx_iff_getElem?.1 hmk
      exact this
    rw [add_zero, ← hprop k m hk]
    unfold periodTotal Weekly.selected
    rw [List.filter_map, List.map_map]
    rfl
  have hfst : (w.nodes (w.first start) (w.last stop) c).map Prod.fst = w.settings.multipliers := by
    unfold Weekly.nodes
    rw [List.map_map]
    exact List.zipIdx_map_fst 0 _
  have hinc : Increasing (w.nodes (w.first start) (w.last stop) c) := by
    rw [← hfst] at hm
    exact List.pairwise_map.1 hm
  obtain ⟨p, hp, hpa⟩ : ∃ p, (w.nodes (w.first start) (w.last stop) c).head? = some p ∧ p.1 = a := by
    rw [← hfst, List.head?_map] at ha
    exact Option.map_eq_some_iff.1 ha
  obtain ⟨q, hq, hqb⟩ : ∃ q, (w.nodes (w.first start) (w.last stop) c).getLast? = some q ∧
      q.1 = b := by
    rw [← hfst, List.getLast?_map] at hb
    exact Option.map_eq_some_iff.1 hb
  have hcell : ∀ i, w.outcomeCell (w.first start) (w.last stop) cells i c
      = (cells i c).map fun s => ρ / w.hist (w.first start) (w.last stop) c * s := by
    intro i
    unfold Weekly.outcomeCell
    rw [if_neg hh.ne']
    cases hs : cells i c with
    | none => rfl
    | some s =>
      obtain ⟨l1, l2⟩ := hlev i s hs
      simp only [Option.map_some]
      rw [interp_linear _ hinc ρ 0 hnodes p q hp hq _ (by rw [hpa, le_div_iff₀ hh]; exact l1)
        (by rw [hqb, div_le_iff₀ hh]; exact l2)]
      congr 1
      rw [add_zero]
      ring
  -- the spend column
  have hpos : (0 : ℚ) < stepSize rf := by exact_mod_cast stepSize_pos rf
  have hk0 : arangeLen (lo c) (hi c) (stepSize rf) ≤ rows ∧ ∀ i, cells i c
      = if i < arangeLen (lo c) (hi c) (stepSize rf) then
          some ((lo c + i * stepSize rf : ℤ) : ℚ) else none := by
    unfold createSpendGrid at h5
    simp only at h5
    split_ifs at h5 with hsh
    cases h5
    push Not at hsh
    exact ⟨hsh c hc2, fun i => rfl⟩
  have hcol : Stabilize.Spec.SpendColumn rows (arangeLen (lo c) (hi c) (stepSize rf))
      (fun i => ((lo c + i * stepSize rf : ℤ) : ℚ)) (cells · c) := by
    refine ⟨hk0.1, ?_, ?_, ?_⟩
    · intro i hi
      rw [hk0.2, if_pos hi]
    · intro i hi _
      rw [hk0.2, if_neg (by omega)]
    · intro i j hij _
      have : (i : ℚ) < j := by exact_mod_cast hij
      push_cast
      nlinarith
  have hnn : ∀ i < arangeLen (lo c) (hi c) (stepSize rf),
      (0 : ℚ) ≤ ((lo c + i * stepSize rf : ℤ) : ℚ) := by
    intro i hi
    have := (hlev i _ (by rw [hk0.2, if_pos hi])).1
    have h0 := mul_nonneg ha0 hh.le
    linarith
  have hroi : Stabilize.Spec.ConstantRoi rows (arangeLen (lo c) (hi c) (stepSize rf))
      (fun i => ((lo c + i * stepSize rf : ℤ) : ℚ)) (ρ / w.hist (w.first start) (w.last stop) c)
      (fun i => w.outcomeCell (w.first start) (w.last stop) cells i c) := by
    refine ⟨?_, ?_⟩
    · intro i hi
      simp only
      rw [hcell, hk0.2, if_pos hi]
      rfl
    · intro i hi _
      simp only
      rw [hcell, hk0.2, if_neg (by omega)]
      rfl
  have hst := Stabilize.Props.proportional_unchanged (n := w.settings.rfChannels)
    (C := w.settings.channels.length) (j := c) (spend := cells)
    (outcome := w.outcomeCell (w.first start) (w.last stop) cells) hrf hc1 hc2 hcol hnn
    (div_nonneg hρ hh.le) hroi hr
  unfold Weekly.outcomeGrid
  rw [if_neg hrf.ne']
  cases jax
  · simp only [Bool.false_eq_true, if_false]
    rw [hst.2, hcell]
  · simp only [if_true]
    rw [hst.1, hcell]

/-! ### A concrete grid -/

/-- Settings with `m` channels and the multipliers of the limits. -/
def demoSettings (l : Limits) (channels : List String) (rf : ℕ) : Settings :=
  ⟨l, false, true, rf, false, none, none, channels, l.multipliers⟩

/-- Transformed media equal to the factor: the outcome of a week is the multiplier. -/
def demoSource : Source where
  draws := 2
  geos := 1
  transformed := fun _ m _ _ _ => m
  beta := fun _ _ _ => 1
  kpiStd := 1
  kpiMean := 5
  pop := fun _ => 1
  revenuePerKpi := none
  useKpi := false

/-- A grid with the given spend in each of its weeks. -/
def demoWeekly (l : Limits) (channels : List String) (rf : ℕ) (dates : List ℤ) (spend : List ℚ) :
    Weekly :=
  create (demoSettings l channels rf) demoSource 10 dates none fun _ c => spend.getD c 0

/-- The spend and outcome in one cell of a returned grid. -/
def look (r c : ℕ) : Except Optimizer.Err (Option OptGrid) → Option (Num × Num)
  | .ok (some O) => some (O.grid.spend r c, O.grid.out r c)
  | _ => none

theorem of_look {r c : ℕ} {x : Except Optimizer.Err (Option OptGrid)} {s y : Num}
    (h : look r c x = some (s, y)) :
    ∃ O, x = .ok (some O) ∧ O.grid.spend r c = s ∧ O.grid.out r c = y := by
  match x, h with
  | .ok (some O), h =>
    refine ⟨O, rfl, ?_⟩
    simp only [look, Option.some.injEq, Prod.mk.injEq] at h
    exact h

/-- Two weeks of two channels, the second with reach and frequency; the level below the historical
spend of both weeks by 160 has 0.84 of the outcome of the two weeks. -/
example :
    look 40 0 ((demoWeekly ⟨0, 0, 3 / 10, 1 / 10⟩ ["a", "b"] 1 [0, 7] [500, 500]).toGrid false none
      none none none none) = some (some 740, some (74 / 50)) ∧
    look 40 1 ((demoWeekly ⟨0, 0, 3 / 10, 1 / 10⟩ ["a", "b"] 1 [0, 7] [500, 500]).toGrid true none
      none none none none) = some (some 740, some (74 / 50)) ∧
    (demoWeekly ⟨0, 0, 3 / 10, 1 / 10⟩ ["a", "b"] 1 [0, 7] [500, 500]).settings.multipliers
      = [7 / 10, 8 / 10, 9 / 10, 1, 11 / 10, 12 / 10, 13 / 10] := by
  decide +kernel

/-- Joining two grids, given in the wrong order. -/
example :
    (combine [demoWeekly ⟨0, 0, 3 / 10, 1 / 10⟩ ["a"] 0 [14, 21] [500],
      demoWeekly ⟨0, 0, 3 / 10, 1 / 10⟩ ["a"] 0 [0, 7] [300]]).map
        (fun w => (w.time, w.spend.map fun p => (p.1, p.2 0), w.hist 7 14 0))
      = .ok ([0, 7, 14, 21], [(0, 300), (7, 300), (14, 500), (21, 500)], 800) := by
  decide +kernel

/-! ### Findings -/

/-- **C74 (finding).** A channel whose historical spend rounds to zero is not checked against the
multipliers.  Its only spend level is zero, and the outcome found there is that of the smallest
multiplier: an outcome for no spend.  Spend is 40 of 100000, rounded to hundreds. -/
theorem outcome_without_spend : ∃ (w : Weekly) (O : OptGrid) (y : ℚ),
    w.toGrid false none none none none none = .ok (some O) ∧
    O.grid.spend 0 0 = some 0 ∧ O.grid.out 0 0 = some y ∧ 0 < y ∧
    w = demoWeekly ⟨0, 0, 3 / 10, 1 / 10⟩ ["a", "b"] 0 [0] [40, 99960] ∧
    demoSource.cell 0 0 0 = 0 := by
  obtain ⟨O, h1, h2, h3⟩ := of_look (r := 0) (c := 0) (s := some 0) (y := some (7 / 10))
    (x := (demoWeekly ⟨0, 0, 3 / 10, 1 / 10⟩ ["a", "b"] 0 [0] [40, 99960]).toGrid false none none
      none none none) (by decide +kernel)
  exact ⟨_, O, 7 / 10, h1, h2, h3, by norm_num, rfl, cell_zero _ _ _⟩

/-- **C74 (finding).** The check compares with the rounded historical spend, the lookup divides by the
exact one, so a spend level beyond the largest multiplier is accepted and given the outcome of the
largest multiplier: 100 for a historical spend of 60, with multipliers up to 1.3. -/
theorem outcome_cut_off : ∃ (w : Weekly) (O : OptGrid),
    w.toGrid false none none none none none = .ok (some O) ∧
    w.settings.multipliers.getLast? = some (13 / 10) ∧ w.hist 0 0 0 = 60 ∧
    O.grid.spend 0 0 = some 100 ∧ O.grid.out 0 0 = some (13 / 10) ∧
    w = demoWeekly ⟨0, 0, 3 / 10, 1 / 10⟩ ["a", "b"] 0 [0] [60, 99940] ∧
    demoSource.cell (100 / 60) 0 0 = 100 / 60 := by
  obtain ⟨O, h1, h2, h3⟩ := of_look (r := 0) (c := 0) (s := some 100) (y := some (13 / 10))
    (x := (demoWeekly ⟨0, 0, 3 / 10, 1 / 10⟩ ["a", "b"] 0 [0] [60, 99940]).toGrid false none none
      none none none) (by decide +kernel)
  exact ⟨_, O, h1, by decide +kernel, by decide +kernel, h2, h3, rfl, by decide +kernel⟩

/-- No grid is returned. -/
def refused : Except Optimizer.Err (Option OptGrid) → Bool
  | .ok none => true
  | _ => false

/-- **C74 (finding).** A scenario within the limits the grid was made for can be refused because of
rounding: a grid for budgets up to twice the historical one and constraints of 30 percent, asked for
twice the budget and 30 percent. -/
theorem refused_within_limits :
    refused ((demoWeekly ⟨0, 1, 3 / 10, 1 / 10⟩ ["a", "b"] 0 [0] [104 / 10, 896 / 10]).toGrid false
      none none (some 200) (some [3 / 10]) (some [3 / 10])) = true ∧
    (demoWeekly ⟨0, 1, 3 / 10, 1 / 10⟩ ["a", "b"] 0 [0] [104 / 10, 896 / 10]).settings.multipliers.getLast?
      = some (⟨0, 1, 3 / 10, 1 / 10⟩ : Limits).upper := by
  decide +kernel

/-- **C74 (finding).** The same happens with a step that does not lead to the upper limit in a whole
number of steps: the last multiplier is then below it. -/
theorem refused_because_of_step :
    refused ((demoWeekly ⟨9 / 10, 1, 3 / 10, 1 / 10⟩ ["a"] 0 [0] [1000]).toGrid false none none
      (some 2000) (some [3 / 10]) (some [3 / 10])) = true ∧
    (demoWeekly ⟨9 / 10, 1, 3 / 10, 1 / 10⟩ ["a"] 0 [0] [1000]).settings.multipliers.getLast?
      = some (257 / 100) ∧
    (⟨9 / 10, 1, 3 / 10, 1 / 10⟩ : Limits).upper = 26 / 10 := by
  decide +kernel

/-- **C75 (finding).** A variation above one is accepted and gives negative multipliers. -/
theorem negative_multipliers :
    checkLimits 0 0 2 = .ok () ∧ (⟨0, 0, 2, 1 / 2⟩ : Limits).multipliers.head? = some (-1) := by
  constructor
  · exact (limits_accepted_iff 0 0 2).2 (by norm_num)
  · decide +kernel

/-- **C75 (finding).** The weeks of a single grid are not checked when it is joined with nothing. -/
theorem single_grid_unchecked :
    (combine [demoWeekly ⟨0, 0, 3 / 10, 1 / 10⟩ ["a"] 0 [0, 21] [500]]).map Weekly.time
      = .ok [0, 21] ∧ contiguous [0, 21] = false := by
  decide +kernel

end Verif.Weekly.Props

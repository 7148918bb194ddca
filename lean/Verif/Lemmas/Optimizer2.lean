import Verif.Lemmas.Optimizer

/-! The public pipeline, unfolded. -/

namespace Verif.Optimizer

open Verif Verif.GridSearch Verif.GridSearch.Spec Finset

theorem bind_ok {ε α β : Type} {x : Except ε α} {f : α → Except ε β} {b : β} :
    (x >>= f) = .ok b ↔ ∃ a, x = .ok a ∧ f a = .ok b := by
  cases x <;> simp [bind, Except.bind]

/-- The steps of grid-row numbers between two bounds. -/
theorem exists_steps {s lo hi : ℤ} (hs : 0 < s) (h1 : s ∣ lo) (h2 : s ∣ hi) (hle : lo ≤ hi) :
    ∃ k : ℕ, hi - lo = k * s := by
  obtain ⟨a, rfl⟩ := h1
  obtain ⟨b, rfl⟩ := h2
  have : a ≤ b := le_of_mul_le_mul_left hle hs
  refine ⟨(b - a).toNat, ?_⟩
  rw [Int.toNat_of_nonneg (by omega)]
  ring

theorem createOptimizationGrid_ok {n : ℕ} {hist : ℕ → ℚ} {outcome : ℕ → ℕ → ℚ}
    {budget : Option ℚ} {gtol : ℚ} {pct : Option (List ℚ)} {lower upper : List ℚ} {O : OptGrid}
    (h : createOptimizationGrid n hist outcome budget gtol pct lower upper = .ok O) :
    ∃ share rf lo hi rows cells, validatePctOfSpend n hist pct = .ok share ∧
      getRoundFactor (resolveBudget budget (histTotal n hist)) gtol = .ok rf ∧
      getOptimizationBounds n (fun c => resolveBudget budget (histTotal n hist) * share c) rf
        lower upper = .ok (lo, hi) ∧
      createSpendGrid n lo hi (stepSize rf) = .ok (rows, cells) ∧
      O = { grid := { rows := rows, cols := n, spend := cells,
                      out := fun r c => (cells r c).map fun _ => outcome r c },
            hist := hist, gtol := gtol, roundFactor := rf } := by
  unfold createOptimizationGrid at h
  simp only [bind_ok] at h
  obtain ⟨share, h1, rf, h2, ⟨lo, hi⟩, h3, ⟨rows, cells⟩, h4, h5⟩ := h
  injection h5 with h5
  exact ⟨share, rf, lo, hi, rows, cells, h1, h2, h3, h4, h5.symm⟩

theorem optimize_ok {O : OptGrid} {req : Request} {pct lower upper : Option (List ℚ)}
    {xs : List (Option ℤ)} {non : List ℤ} (h : optimize O req pct lower upper = .ok (xs, non)) :
    ∃ share lo hi rf' G', validatePctOfSpend O.grid.cols O.hist pct = .ok share ∧
      getOptimizationBounds O.grid.cols
        (fun c => resolveBudget req.budget (histTotal O.grid.cols O.hist) * share c) O.roundFactor
        (lower.getD [req.defaultConstraint]) (upper.getD [req.defaultConstraint]) = .ok (lo, hi) ∧
      getRoundFactor (resolveBudget req.budget (histTotal O.grid.cols O.hist)) O.gtol = .ok rf' ∧
      trimGrids O.grid lo hi = .ok G' ∧
      gridSearch G' (resolveScenario O.grid.cols
        (roundedSpend (fun c => resolveBudget req.budget (histTotal O.grid.cols O.hist) * share c)
          O.roundFactor) req) = .ok xs ∧
      non = (List.range O.grid.cols).map
        (roundedSpend (fun c => resolveBudget req.budget (histTotal O.grid.cols O.hist) * share c)
          O.roundFactor) := by
  unfold optimize at h
  simp only [bind_ok] at h
  obtain ⟨share, h1, ⟨lo, hi⟩, h2, rf', h3, G', h4, h5⟩ := h
  cases hg : gridSearch G' (resolveScenario O.grid.cols
        (roundedSpend (fun c => resolveBudget req.budget (histTotal O.grid.cols O.hist) * share c)
          O.roundFactor) req) with
  | error e => rw [hg] at h5; cases h5
  | ok ys =>
    rw [hg] at h5
    injection h5 with h5
    injection h5 with h5 h6
    subst h5
    exact ⟨share, lo, hi, rf', G', h1, h2, h3, h4, hg, h6.symm⟩

/-- The grid built by the pipeline is regular between the bounds. -/
theorem created_regular {n : ℕ} {spend : ℕ → ℚ} {rf : ℤ} {l u : List ℚ} {lo hi : ℕ → ℤ}
    {rows : ℕ} {cells : ℕ → ℕ → Num} (outcome : ℕ → ℕ → ℚ) (hn : 0 < n)
    (hrf : rf ≤ 0) (hsp : ∀ c < n, 0 ≤ spend c)
    (h : getOptimizationBounds n spend rf l u = .ok (lo, hi))
    (hc : createSpendGrid n lo hi (stepSize rf) = .ok (rows, cells)) :
    ∃ k : ℕ → ℕ, (∀ c < n, hi c - lo c = k c * stepSize rf) ∧
    RegularBoth { rows := rows, cols := n, spend := cells,
                  out := fun r c => (cells r c).map fun _ => outcome r c } (stepSize rf) k lo
      (fun c r => outcome r c) := by
  have hs := stepSize_pos rf
  have : ∀ c < n, ∃ k : ℕ, hi c - lo c = k * stepSize rf := by
    intro c hcn
    obtain ⟨h1, h2, -, -, h3, h4, -⟩ := bounds_facts hrf h hcn (hsp c hcn)
    exact exists_steps hs h1 h2 (le_trans h3 h4)
  choose! k hk using this
  exact ⟨k, hk, regular_of_create hs hn hk outcome hc⟩

theorem sum_list_range {M : Type} [AddCommMonoid M] (n : ℕ) (g : ℕ → M) :
    ((List.range n).map g).sum = ∑ c ∈ range n, g c := by
  induction n with
  | zero => simp
  | succ n ih => rw [List.range_succ, Finset.sum_range_succ, ← ih]; simp

/-- One run of the whole pipeline with a non-negative allocation: the search ran on the regular
grid between the bounds, with the bounds, budget and step of the request. -/
theorem pipeline {n : ℕ} {hist : ℕ → ℚ} {outcome : ℕ → ℕ → ℚ} {budget : Option ℚ} {gtol : ℚ}
    {pct : Option (List ℚ)} {lower upper : List ℚ} {O : OptGrid} {req : Request}
    {xs : List (Option ℤ)} {non : List ℤ} (hn : 0 < n)
    (hshare : ∀ share, validatePctOfSpend n hist pct = .ok share → ∀ c < n, 0 ≤ share c)
    (hreq : resolveBudget req.budget (histTotal n hist) = resolveBudget budget (histTotal n hist))
    (h1 : createOptimizationGrid n hist outcome budget gtol pct lower upper = .ok O)
    (h2 : optimize O req pct (some lower) (some upper) = .ok (xs, non)) :
    ∃ (share : ℕ → ℚ) (rf : ℤ) (lo hi : ℕ → ℤ) (k : ℕ → ℕ) (G : Grid),
      validatePctOfSpend n hist pct = .ok share ∧ (∀ c < n, 0 ≤ share c) ∧
      getRoundFactor (resolveBudget budget (histTotal n hist)) gtol = .ok rf ∧
      getOptimizationBounds n (fun c => resolveBudget budget (histTotal n hist) * share c) rf
        lower upper = .ok (lo, hi) ∧
      (∀ c < n, hi c = lo c + k c * stepSize rf) ∧
      G.cols = n ∧ RegularBoth G (stepSize rf) k lo (fun c r => outcome r c) ∧
      gridSearch G (resolveScenario n (roundedSpend
        (fun c => resolveBudget budget (histTotal n hist) * share c) rf) req) = .ok xs ∧
      non = (List.range n).map (roundedSpend
        (fun c => resolveBudget budget (histTotal n hist) * share c) rf) := by
  obtain ⟨share, rf, lo, hi, rows, cells, p1, p2, p3, p4, rfl⟩ := createOptimizationGrid_ok h1
  obtain ⟨share', lo', hi', rf', G', q1, q2, q3, q4, q5, q6⟩ := optimize_ok h2
  simp only at q1 q2 q3 q4 q5 q6
  rw [p1] at q1
  injection q1 with q1
  subst q1
  rw [hreq] at q2 q5 q6
  simp only [Option.getD_some] at q2
  rw [p3] at q2
  injection q2 with q2
  injection q2 with e1 e2
  subst e1 e2
  obtain ⟨hrf, -, hb⟩ := getRoundFactor_ok p2
  have hsh := hshare share p1
  obtain ⟨k, hk, hreg⟩ := created_regular outcome hn hrf
    (fun c hc => mul_nonneg hb.le (hsh c hc)) p3 p4
  obtain ⟨G'', t1, t2, t3⟩ := trimGrids_regular (stepSize_pos rf) hreg (lo := lo) (hi := hi)
    (a := fun _ => 0) (b := k) (fun c hc => by simp)
    (fun c hc => by have := hk c hc; linarith) (fun c hc => Nat.zero_le _) (fun c hc => le_rfl)
  rw [q4] at t1
  injection t1 with t1
  subst t1
  refine ⟨share, rf, lo, hi, k, G', p1, hsh, p2, p3, fun c hc => by have := hk c hc; linarith,
    t2, by simpa using t3, q5, q6⟩

end Verif.Optimizer

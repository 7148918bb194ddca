import Verif.Spec.GridReuse
import Verif.Props.Optimizer
import Mathlib.Data.List.Sort
import Mathlib.Data.String.Basic

/-!
# C20: which optimisation grid is used
-/

namespace Verif.GridReuse.Props

open Verif Verif.Optimizer Verif.GridSearch Verif.GridReuse.Spec Finset

theorem geosKey_eq_iff (a b : Option (List String)) :
    geosKey a = geosKey b ↔ (a.getD []).Perm (b.getD []) := by
  unfold geosKey
  constructor
  · intro h
    have h1 := List.perm_insertionSort (· ≤ ·) (a.getD [])
    have h2 := List.perm_insertionSort (· ≤ ·) (b.getD [])
    exact (h1.symm.trans (by rw [h])).trans h2
  · intro h
    apply List.Perm.eq_of_pairwise (le := (· ≤ ·))
    · intro x y _ _ h1 h2; exact le_antisymm h1 h2
    · exact List.pairwise_insertionSort _ _
    · exact List.pairwise_insertionSort _ _
    · exact (List.perm_insertionSort _ _).trans (h.trans (List.perm_insertionSort _ _).symm)

theorem sameSettings_iff (w : World) (a : Settings) (g : SavedGrid) :
    sameSettings w a g = true ↔ SameSettings w a g.settings g.channels := by
  unfold sameSettings
  simp only [Bool.and_eq_true, beq_iff_eq]
  rw [geosKey_eq_iff]
  constructor
  · rintro ⟨⟨⟨⟨⟨⟨⟨h1, h2⟩, h3⟩, h4⟩, h5⟩, h6⟩, h7⟩, h8⟩
    exact ⟨h1, h2, h3, h4, h5, h6, h7, h8⟩
  · rintro ⟨h1, h2, h3, h4, h5, h6, h7, h8⟩
    exact ⟨⟨⟨⟨⟨⟨⟨h1, h2⟩, h3⟩, h4⟩, h5⟩, h6⟩, h7⟩, h8⟩

theorem mem_column (G : Grid) (c : ℕ) (s : ℚ) :
    s ∈ (List.range G.rows).filterMap (G.spend · c) ↔ ∃ r < G.rows, G.spend r c = some s := by
  simp

theorem boundsCovered_iff (G : Grid) (lo hi : ℕ → ℤ) :
    boundsCovered G lo hi = true ↔ Covers G lo hi := by
  unfold boundsCovered Covers
  rw [List.all_eq_true]
  simp only [List.mem_range]
  apply forall₂_congr
  intro c _
  unfold colMin colMax
  set l := (List.range G.rows).filterMap (G.spend · c) with hl
  have hm : ∀ s, s ∈ l ↔ ∃ r < G.rows, G.spend r c = some s := mem_column G c
  by_cases h0 : l = []
  · have hn : ∀ r < G.rows, G.spend r c = none := by
      intro r hr
      by_contra hne
      obtain ⟨s, hs⟩ := Option.ne_none_iff_exists'.1 hne
      have := (hm s).2 ⟨r, hr, hs⟩
      rw [h0] at this
      simp at this
    simp [h0]
    exact .inl hn
  · obtain ⟨mn, hmn⟩ : ∃ m, l.min? = some m := by
      cases h : l.min? with
      | none => exact absurd (List.min?_eq_none_iff.1 h) h0
      | some m => exact ⟨m, rfl⟩
    obtain ⟨mx, hmx⟩ : ∃ m, l.max? = some m := by
      cases h : l.max? with
      | none => exact absurd (List.max?_eq_none_iff.1 h) h0
      | some m => exact ⟨m, rfl⟩
    have h1 := List.min?_eq_some_iff.1 hmn
    have h2 := List.max?_eq_some_iff.1 hmx
    rw [hmn, hmx]
    simp only [Bool.and_eq_true, Bool.not_eq_true', decide_eq_false_iff_not, not_lt]
    have hne : ¬ ∀ r < G.rows, G.spend r c = none := by
      intro h
      obtain ⟨r, hr, hs⟩ := (hm mn).1 h1.1
      rw [h r hr] at hs
      cases hs
    constructor
    · rintro ⟨a, b⟩
      right
      obtain ⟨r, hr, hs⟩ := (hm mn).1 h1.1
      obtain ⟨r', hr', hs'⟩ := (hm mx).1 h2.1
      exact ⟨⟨r, hr, mn, hs, a⟩, ⟨r', hr', mx, hs', b⟩⟩
    · rintro (h | ⟨⟨r, hr, s, hs, a⟩, ⟨r', hr', s', hs', b⟩⟩)
      · exact absurd h hne
      · exact ⟨(h1.2 s ((hm s).2 ⟨r, hr, hs⟩)).trans a, b.trans (h2.2 s' ((hm s').2 ⟨r', hr', hs'⟩))⟩

/-- **C20.** A supplied grid is used exactly when it was made with the settings of the request and
covers the bounds of the request, where the bounds are computed from the budget, percentages and
constraints of the request on the step of the grid, with the spend of *all* geos as the historical
spend.  (Percentages, constraints and tolerance must themselves be acceptable.) -/
theorem grid_used_iff (w : World) (a : Ask) (g : SavedGrid) :
    validateGrid w a g = .ok true ↔
      SameSettings w a.settings g.settings g.channels ∧
      ∃ share lo hi rf,
        validatePctOfSpend g.channels.length (w.hist none a.settings.startDate a.settings.endDate)
          a.pct = .ok share ∧
        getOptimizationBounds g.channels.length
          (fun c => resolveBudget a.budget (histTotal g.channels.length
            (w.hist none a.settings.startDate a.settings.endDate)) * share c)
          g.opt.roundFactor (a.constraint a.lower) (a.constraint a.upper) = .ok (lo, hi) ∧
        Covers g.opt.grid lo hi ∧
        getRoundFactor (resolveBudget a.budget (histTotal g.channels.length
            (w.hist none a.settings.startDate a.settings.endDate))) a.gtol = .ok rf := by
  unfold validateGrid
  by_cases hs : sameSettings w a.settings g = true
  · rw [if_pos hs]
    rw [sameSettings_iff] at hs
    simp only [hs, true_and, bind_ok, Prod.exists]
    constructor
    · rintro ⟨share, h1, lo, hi, h2, h3⟩
      by_cases hc : boundsCovered g.opt.grid lo hi = true
      · rw [if_pos hc] at h3
        obtain ⟨rf, h4, -⟩ := bind_ok.1 h3
        exact ⟨share, lo, hi, rf, h1, h2, (boundsCovered_iff _ _ _).1 hc, h4⟩
      · rw [if_neg hc] at h3
        cases h3
    · rintro ⟨share, lo, hi, rf, h1, h2, h3, h4⟩
      refine ⟨share, h1, lo, hi, h2, ?_⟩
      rw [if_pos ((boundsCovered_iff _ _ _).2 h3)]
      exact bind_ok.2 ⟨rf, h4, rfl⟩
  · rw [if_neg hs]
    rw [sameSettings_iff] at hs
    simp [hs]

/-- **C20.** A grid made with other settings is never used: it is rejected without an error, and the
result is the one without a grid. -/
theorem other_settings_rejected (w : World) (a : Ask) (g : SavedGrid)
    (h : ¬ SameSettings w a.settings g.settings g.channels) :
    optimizeFull w a (some g) = optimizeFull w a none := by
  have hs : ¬ sameSettings w a.settings g = true := by rwa [sameSettings_iff]
  have e : validateGrid w a g = .ok false := by unfold validateGrid; rw [if_neg hs]
  have : chooseGrid w a (some g) = chooseGrid w a none := by
    simp only [chooseGrid, e, lift]
    rfl
  unfold optimizeFull
  rw [this]

/-- **C20.** Whenever the supplied grid is rejected the result is the one without a grid; whenever it
is used the result is that of searching the supplied grid. -/
theorem grid_decides (w : World) (a : Ask) (g : SavedGrid) :
    (validateGrid w a g = .ok false → optimizeFull w a (some g) = optimizeFull w a none) ∧
    (validateGrid w a g = .ok true →
      chooseGrid w a (some g) = .ok g) := by
  constructor
  · intro e
    have : chooseGrid w a (some g) = chooseGrid w a none := by
      simp only [chooseGrid, e, lift]
      rfl
    unfold optimizeFull
    rw [this]
  · intro e
    simp only [chooseGrid, e, lift]
    rfl

theorem createGrid_ok {w : World} {a : Ask} {g : SavedGrid} (h : createGrid w a = .ok g) :
    g.settings = a.settings ∧ g.channels = w.channels ∧
    createOptimizationGrid w.channels.length
      (w.hist a.settings.selectedGeos a.settings.startDate a.settings.endDate)
      (w.outcome a.settings) a.budget a.gtol a.pct (a.constraint a.lower) (a.constraint a.upper)
      = .ok g.opt := by
  unfold createGrid at h
  split_ifs at h with h0
  obtain ⟨O, h1, h2⟩ := bind_ok.1 h
  cases h2
  refine ⟨rfl, rfl, ?_⟩
  cases hO : createOptimizationGrid w.channels.length
      (w.hist a.settings.selectedGeos a.settings.startDate a.settings.endDate)
      (w.outcome a.settings) a.budget a.gtol a.pct (a.constraint a.lower) (a.constraint a.upper) with
  | error e => rw [hO] at h1; cases h1
  | ok O' => rw [hO] at h1; cases h1; rfl

/-- **C20.** A grid created for a request is used for that request, if no geos are selected and spend
and percentages are not negative. -/
theorem own_grid_used (w : World) (a : Ask) (g : SavedGrid) (hg : a.settings.selectedGeos = none)
    (hn : 0 < w.channels.length)
    (hin : Optimizer.Props.NonnegInputs w.channels.length
      (w.hist none a.settings.startDate a.settings.endDate) a.pct)
    (h : createGrid w a = .ok g) : validateGrid w a g = .ok true := by
  obtain ⟨h1, h2, h3⟩ := createGrid_ok h
  rw [hg] at h3
  obtain ⟨share, rf, lo, hi, rows, cells, p1, p2, p3, p4, p5⟩ := createOptimizationGrid_ok h3
  rw [grid_used_iff]
  refine ⟨?_, share, lo, hi, rf, ?_⟩
  · rw [h1, h2]
    exact ⟨rfl, rfl, rfl, rfl, rfl, rfl, rfl, .refl _⟩
  · rw [h2, p5]
    refine ⟨p1, p3, ?_, p2⟩
    obtain ⟨hrf, -, hb⟩ := getRoundFactor_ok p2
    obtain ⟨k, hk, hreg⟩ := created_regular (w.outcome a.settings) hn hrf
      (fun c hc => mul_nonneg hb.le (Optimizer.Props.shareOf_nonneg hin p1 c hc)) p3 p4
    rw [← boundsCovered_iff]
    refine boundsCovered_regular (stepSize_pos rf) hreg (a := fun _ => 0) (b := k) ?_ ?_ ?_
    · intro c _; simp
    · intro c hc; have := hk c hc; linarith
    · intro c _; exact le_rfl

/-! ### Witnesses -/

/-- Plain settings. -/
def plain (geos : Option (List String)) : Settings where
  usePosterior := true
  useKpi := false
  useOptimalFrequency := true
  maxFrequency := none
  startDate := none
  endDate := none
  selectedGeos := geos

/-- A request for a fixed budget with default constraints. -/
def ask (geos : Option (List String)) (budget : Option ℚ) (pct : Option (List ℚ)) (gtol : ℚ) : Ask where
  settings := plain geos
  fixedBudget := true
  budget := budget
  targetRoi := none
  targetMroi := none
  pct := pct
  lower := none
  upper := none
  gtol := gtol

/-- Two channels; over all geos they spend 10 each, in geo "g1" 8 and 2.  `p` and `q` are the returns
on the two channels. -/
def world (p q : ℚ) : World where
  channels := ["tv", "radio"]
  firstDate := 0
  lastDate := 10
  hist := fun geos _ _ c => match geos with
    | none => 10
    | some _ => if c = 0 then 8 else 2
  outcome := fun _ r c => if c = 0 then p * r else q * r

example : (createGrid (world 1 2) (ask none none none (1 / 100))).toOption.isSome ∧
    ((createGrid (world 1 2) (ask none none none (1 / 100))).bind fun g =>
      lift (validateGrid (world 1 2) (ask none none none (1 / 100)) g)) = .ok true ∧
    ((createGrid (world 1 2) (ask none none none (1 / 100))).bind fun g =>
      lift (validateGrid (world 1 2) (ask none (some 100) none (1 / 100)) g)) = .ok false := by
  decide +kernel

theorem createGrid_some {w : World} {a : Ask} (h : (createGrid w a).toOption.isSome = true) :
    ∃ g, createGrid w a = .ok g := by
  cases e : createGrid w a with
  | error e' => rw [e] at h; cases h
  | ok g => exact ⟨g, rfl⟩

theorem validate_of_bind {w w' : World} {a a' : Ask} {g : SavedGrid} {b : Bool}
    (hg : createGrid w a = .ok g)
    (h : ((createGrid w a).bind fun g => lift (validateGrid w' a' g)) = .ok b) :
    validateGrid w' a' g = .ok b := by
  rw [hg] at h
  simp only [Except.bind] at h
  cases h3 : validateGrid w' a' g with
  | error e => rw [h3] at h; cases h
  | ok x => rw [h3] at h; simpa [lift] using h

/-- **C20 (negation, selected geos).** With selected geos a grid can be rejected by the very request it
was created for: the bounds are checked with the spend of all geos. -/
theorem own_grid_rejected : ∃ w a g, createGrid w a = .ok g ∧ validateGrid w a g = .ok false := by
  obtain ⟨g, hg⟩ := createGrid_some (w := world 1 2) (a := ask (some ["g1"]) none none (1 / 100))
    (by decide +kernel)
  exact ⟨_, _, g, hg, validate_of_bind hg (by decide +kernel)⟩

/-- **C20 (negation, selected geos).** A grid for selected geos can also be accepted and then refused
by the search, so that the request fails although it succeeds without the grid. -/
theorem accepted_grid_fails : ∃ w a a' g, createGrid w a' = .ok g ∧ validateGrid w a g = .ok true ∧
    (∃ e, optimizeFull w a (some g) = .error e) ∧ ∃ r, optimizeFull w a none = .ok r := by
  obtain ⟨g, hg⟩ := createGrid_some (w := world 1 2)
    (a := ask (some ["g1"]) (some 20) (some [1 / 2, 1 / 2]) (1 / 100)) (by decide +kernel)
  refine ⟨_, ask (some ["g1"]) (some 20) none (1 / 100), _, g, hg,
    validate_of_bind hg (by decide +kernel), ?_, ?_⟩
  · refine ⟨.opt .notCovered, ?_⟩
    have h2 : (createGrid (world 1 2)
        (ask (some ["g1"]) (some 20) (some [1 / 2, 1 / 2]) (1 / 100))).bind (fun g =>
        optimizeFull (world 1 2) (ask (some ["g1"]) (some 20) none (1 / 100)) (some g))
        = .error (.opt .notCovered) := by decide +kernel
    rw [hg] at h2
    exact h2
  · have : (optimizeFull (world 1 2) (ask (some ["g1"]) (some 20) none (1 / 100))
        none).toOption.isSome := by decide +kernel
    cases h : optimizeFull (world 1 2) (ask (some ["g1"]) (some 20) none (1 / 100)) none with
    | error e => rw [h] at this; cases this
    | ok r => exact ⟨r, rfl⟩

/-- **C20 (negation, new data).** The data of the request are not compared with the data the grid was
made from: only the dates and the total spend by channel matter.  So a grid made from other media data
(here: other returns) can be used, and gives another allocation than the request deserves. -/
theorem stale_grid_used : ∃ w w' a g r r', createGrid w' a = .ok g ∧ validateGrid w a g = .ok true ∧
    optimizeFull w a (some g) = .ok r ∧ optimizeFull w a none = .ok r' ∧ r ≠ r' := by
  obtain ⟨g, hg⟩ := createGrid_some (w := world 2 1) (a := ask none none none (1 / 100))
    (by decide +kernel)
  refine ⟨world 1 2, _, _, g, ([some 13, some 7], [10, 10]), ([some 7, some 13], [10, 10]), hg,
    validate_of_bind hg (by decide +kernel), ?_, by decide +kernel, by decide⟩
  have h2 : (createGrid (world 2 1) (ask none none none (1 / 100))).bind (fun g =>
      optimizeFull (world 1 2) (ask none none none (1 / 100)) (some g))
      = .ok ([some 13, some 7], [10, 10]) := by decide +kernel
  rw [hg] at h2
  exact h2

/-- **C20.** Two worlds with the same channels, first and last date and total spend give the same
verdict on every grid and request: nothing else of the data is looked at. -/
theorem verdict_ignores_data (w w' : World) (a : Ask) (g : SavedGrid) (h1 : w.channels = w'.channels)
    (h2 : w.firstDate = w'.firstDate) (h3 : w.lastDate = w'.lastDate)
    (h4 : w.hist none = w'.hist none) : validateGrid w a g = validateGrid w' a g := by
  unfold validateGrid sameSettings
  rw [h1, h2, h3, h4]

/-- **C20.** Neither does the verdict depend on the tolerance of the request, as long as it is below
one: a grid with a coarser step than the request asks for is used. -/
theorem verdict_ignores_tolerance (w : World) (a : Ask) (g : SavedGrid) (t : ℚ) (ha : a.gtol < 1)
    (ht : t < 1) : validateGrid w { a with gtol := t } g = .ok true ↔ validateGrid w a g = .ok true := by
  have e : ∀ b, (∃ rf, getRoundFactor b t = .ok rf) ↔ ∃ rf, getRoundFactor b a.gtol = .ok rf := by
    intro b
    rw [Optimizer.Props.round_factor_accepts, Optimizer.Props.round_factor_accepts]
    simp [ha, ht]
  rw [grid_used_iff, grid_used_iff]
  apply and_congr_right
  intro _
  constructor
  · rintro ⟨share, lo, hi, rf, p1, p2, p3, p4⟩
    obtain ⟨rf', p5⟩ := (e _).1 ⟨rf, p4⟩
    exact ⟨share, lo, hi, rf', p1, p2, p3, p5⟩
  · rintro ⟨share, lo, hi, rf, p1, p2, p3, p4⟩
    obtain ⟨rf', p5⟩ := (e _).2 ⟨rf, p4⟩
    exact ⟨share, lo, hi, rf', p1, p2, p3, p5⟩

end Verif.GridReuse.Props

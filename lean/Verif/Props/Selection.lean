import Verif.Spec.Selection
import Mathlib.Data.List.Sort
import Mathlib.Algebra.BigOperators.Ring.Finset
import Mathlib.Tactic.Linarith
import Mathlib.Tactic.NormNum

/-!
# C36: selecting and aggregating geos and times
-/

namespace Verif.Selection.Props

open Verif.Selection Verif.Selection.Spec Finset

/-- **C36 (geos accepted).** A geo selection is accepted exactly when all its names are geos. -/
theorem geos_accepted_iff (geos : List String) (sel : Option (List String)) :
    (∃ r, resolveGeos geos sel = .ok r) ↔ ∀ l, sel = some l → ∀ n ∈ l, n ∈ geos := by
  cases sel with
  | none => simp [resolveGeos]
  | some l =>
    simp only [resolveGeos]
    split_ifs with h
    · simp only [reduceCtorEq, exists_false, Option.some.injEq, forall_eq', false_iff]
      simp only [List.any_eq_true, Bool.not_eq_true', List.contains_eq_mem, decide_eq_false_iff_not]
        at h
      obtain ⟨n, hn, h⟩ := h
      exact fun h' => h (h' n hn)
    · simp only [List.any_eq_true, Bool.not_eq_true', List.contains_eq_mem, decide_eq_false_iff_not,
        not_exists, not_and, not_not] at h
      simpa using h

/-- **C36 (geo indices).** The resolved indices are exactly the selected geos, each once, in the
order of the data, whatever the order and repetitions of the request. -/
theorem geo_indices_exact (geos : List String) (sel : Option (List String))
    (r : Option (List ℕ)) (h : resolveGeos geos sel = .ok r) :
    (axis geos.length r).Pairwise (· < ·) ∧
    ∀ g, g ∈ axis geos.length r ↔ g < geos.length ∧ geoSelected geos sel g := by
  cases sel with
  | none =>
    simp only [resolveGeos, Except.ok.injEq] at h
    subst h
    exact ⟨List.pairwise_lt_range, by simp [axis, geoSelected]⟩
  | some l =>
    simp only [resolveGeos] at h
    split_ifs at h
    simp only [Except.ok.injEq] at h
    subst h
    refine ⟨List.pairwise_lt_range.filter _, fun g => ?_⟩
    simp only [axis, List.mem_filter, List.mem_range, geoSelected, List.contains_eq_mem,
      decide_eq_true_eq]
    refine and_congr_right fun hg => ?_
    rw [List.getD_eq_getElem?_getD, List.getElem?_eq_getElem hg]
    simp

theorem mem_strs {l : List Item} {s : String} : s ∈ strs l ↔ Item.str s ∈ l := by
  unfold strs
  rw [List.mem_filterMap]
  constructor
  · rintro ⟨a, ha, h⟩
    cases a <;> simp at h
    subst h; exact ha
  · intro h
    exact ⟨_, h, rfl⟩

/-- **C36 (times accepted).** A time selection is accepted exactly when it is empty, or a list of
flags with one flag per time, or a list of dates each being one of the times. -/
theorem times_accepted_iff (norm : String → Option String) (times : List String) (n : ℕ)
    (hnorm : ∀ t ∈ times, (norm t).isSome) (sel : List Item) :
    (∃ r, resolveTimes norm times n (some sel) = .ok r) ↔
      sel = [] ∨ ((∀ i ∈ sel, ∃ b, i = .flag b) ∧ sel.length = n) ∨
      (∀ i ∈ sel, ∃ s, i = .str s ∧ (norm s).isSome ∧ ∃ t ∈ times, norm s = norm t) := by
  have hb : isBoolList sel = true ↔ ∀ i ∈ sel, ∃ b, i = .flag b := by
    unfold isBoolList
    rw [List.all_eq_true]
    refine forall₂_congr fun i _ => ?_
    cases i <;> simp
  have hs : isStrList sel = true ↔ ∀ i ∈ sel, ∃ s, i = .str s := by
    unfold isStrList
    rw [List.all_eq_true]
    refine forall₂_congr fun i _ => ?_
    cases i <;> simp
  have hsub : isNormalizedSubset norm (strs sel) times = true ↔
      ∀ s, Item.str s ∈ sel → (norm s).isSome ∧ ∃ t ∈ times, norm s = norm t := by
    unfold isNormalizedSubset
    simp only [Bool.and_eq_true, List.all_eq_true, List.any_eq_true, beq_iff_eq, mem_strs]
    exact ⟨fun h s hs => ⟨h.1.1 s hs, h.2 s hs⟩,
      fun h => ⟨⟨fun s hs => (h s hs).1, hnorm⟩, fun s hs => (h s hs).2⟩⟩
  have key : (∃ r, resolveTimes norm times n (some sel) = .ok r) ↔
      validateTimes norm times n sel = .ok () := by
    simp only [resolveTimes]
    cases hv : validateTimes norm times n sel with
    | error e => simp
    | ok u =>
      simp only [iff_true]
      split_ifs <;> exact ⟨_, rfl⟩
  rw [key]
  unfold validateTimes
  by_cases h0 : sel = []
  · subst h0; simp
  have h0' : sel.isEmpty = false := by simpa using h0
  rw [h0']
  simp only [Bool.false_eq_true, if_false, h0, false_or]
  by_cases h1 : isBoolList sel = true
  · rw [if_pos h1]
    have h2 : ¬ ∀ i ∈ sel, ∃ s, i = Item.str s ∧ (norm s).isSome ∧ ∃ t ∈ times, norm s = norm t := by
      intro h
      obtain ⟨i, hi⟩ := List.exists_mem_of_ne_nil sel h0
      obtain ⟨s, hs, _⟩ := h i hi
      obtain ⟨b, hb⟩ := hb.1 h1 i hi
      rw [hs] at hb; cases hb
    have h3 := hb.1 h1
    split_ifs with h4
    · simp [h2, h4]
    · simp only [ne_eq, not_not] at h4
      simp only [h4, and_true, true_iff]
      exact .inl h3
  · rw [if_neg h1]
    have h1' : ¬ ∀ i ∈ sel, ∃ b, i = Item.flag b := fun h => h1 (hb.2 h)
    simp only [h1', false_and, false_or]
    by_cases h2 : isStrList sel = true
    · rw [if_pos h2]
      have h3 := hs.1 h2
      split_ifs with h4
      · simp only [reduceCtorEq, false_iff]
        intro h
        simp only [Bool.not_eq_true'] at h4
        have : isNormalizedSubset norm (strs sel) times = true := hsub.2 fun s hs => by
          obtain ⟨s', e, h⟩ := h _ hs
          cases e; exact h
        rw [this] at h4; cases h4
      · simp only [Bool.not_eq_true', Bool.not_eq_false] at h4
        simp only [true_iff]
        intro i hi
        obtain ⟨s, rfl⟩ := h3 i hi
        exact ⟨s, rfl, hsub.1 h4 s hi⟩
    · rw [if_neg h2]
      simp only [reduceCtorEq, false_iff]
      intro h
      exact h2 (hs.2 fun i hi => by obtain ⟨s, e, _⟩ := h i hi; exact ⟨s, e⟩)

/-- **C36 (time indices).** An accepted time selection resolves to exactly the selected times, each
once, in the order of the data. -/
theorem time_indices_exact (norm : String → Option String) (times : List String)
    (sel : Option (List Item)) (r : Option (List ℕ))
    (h : resolveTimes norm times times.length sel = .ok r) :
    (axis times.length r).Pairwise (· < ·) ∧
    ∀ t, t ∈ axis times.length r ↔ t < times.length ∧ timeSelected norm times sel t := by
  cases sel with
  | none =>
    simp only [resolveTimes, Except.ok.injEq] at h
    subst h
    exact ⟨List.pairwise_lt_range, by simp [axis, timeSelected]⟩
  | some l =>
    unfold resolveTimes at h
    simp only at h
    cases hv : validateTimes norm times times.length l with
    | error e => rw [hv] at h; cases h
    | ok u =>
      rw [hv] at h
      simp only at h
      split_ifs at h with h1 h2
      · simp only [Except.ok.injEq] at h
        subst h
        refine ⟨List.pairwise_lt_range.filter _, fun t => ?_⟩
        simp only [axis, List.mem_filter, List.mem_range, timeSelected, List.any_eq_true, beq_iff_eq,
          mem_strs]
        refine and_congr_right fun ht => ?_
        have hno : l[t]? ≠ some (Item.flag true) := by
          intro e
          have := List.all_eq_true.1 h1 _ (List.mem_of_getElem? e)
          simp at this
        rw [List.getD_eq_getElem?_getD, List.getElem?_eq_getElem ht]
        simp only [hno, false_or, Option.getD_some, Option.some.injEq, exists_eq_left']
      · simp only [Except.ok.injEq] at h
        subst h
        have hlen : l.length = times.length := by
          unfold validateTimes at hv
          split_ifs at hv with a c
          · have : l = [] := by simpa using a
            subst this
            simp [isStrList] at h1
          · simpa using c
        refine ⟨List.pairwise_lt_range.filter _, fun t => ?_⟩
        simp only [axis, List.mem_filter, List.mem_range, timeSelected, beq_iff_eq, hlen]
        refine and_congr_right fun ht => ?_
        have hno : ∀ s, Item.str s ∉ l := by
          intro s e
          have := List.all_eq_true.1 h2 _ e
          simp at this
        rw [List.getD_eq_getElem?_getD, List.getElem?_eq_getElem (by omega)]
        simp [hno]
      · exfalso
        unfold validateTimes at hv
        rw [if_neg h2, if_neg h1] at hv
        split_ifs at hv with a
        have : l = [] := by simpa using a
        subst this
        simp [isStrList] at h1

theorem sum_sorted (n : ℕ) (l : List ℕ) (P : ℕ → Prop) [DecidablePred P]
    (hp : l.Pairwise (· < ·)) (hm : ∀ i, i ∈ l ↔ i < n ∧ P i) (f : ℕ → ℝ) :
    (l.map f).sum = ∑ i ∈ range n with P i, f i := by
  have hn : l.Nodup := hp.imp (fun h => h.ne)
  have e : (range n).filter P = l.toFinset := by
    ext i; simp [hm]
  rw [e, List.sum_toFinset _ hn]

/-- The value of the fully aggregated tensor. -/
theorem aggregate_all (x : ℕ → ℕ → ℝ) (nG nT : ℕ) (gi ti : Option (List ℕ)) :
    filterAggregate x nG nT gi ti true true
      = [[((axis nG gi).map fun g => ((axis nT ti).map fun t => x g t).sum).sum]] := by
  unfold filterAggregate
  simp [List.map_map, Function.comp_def]

open Classical in
/-- **C36 (aggregation).** For any accepted selections the aggregated result is the sum over the
selected geos and the selected times, each counted once. -/
theorem aggregate_selected (norm : String → Option String) (geos times : List String)
    (gsel : Option (List String)) (tsel : Option (List Item)) (gi ti : Option (List ℕ))
    (hg : resolveGeos geos gsel = .ok gi)
    (ht : resolveTimes norm times times.length tsel = .ok ti) (x : ℕ → ℕ → ℝ) :
    filterAggregate x geos.length times.length gi ti true true
      = [[∑ g ∈ range geos.length with geoSelected geos gsel g,
          ∑ t ∈ range times.length with timeSelected norm times tsel t, x g t]] := by
  obtain ⟨hg1, hg2⟩ := geo_indices_exact geos gsel gi hg
  obtain ⟨ht1, ht2⟩ := time_indices_exact norm times tsel ti ht
  rw [aggregate_all]
  rw [sum_sorted geos.length _ (geoSelected geos gsel) hg1 hg2]
  congr 2
  apply Finset.sum_congr rfl
  intro g _
  exact sum_sorted times.length _ (timeSelected norm times tsel) ht1 ht2 _

/-- **C36 (no aggregation).** Without aggregation the result is the table of the selected cells, rows
in the order of the geos of the data and columns in the order of its times; aggregating one axis sums
exactly that axis of the table. -/
theorem unaggregated_is_table (x : ℕ → ℕ → ℝ) (nG nT : ℕ) (gi ti : Option (List ℕ)) :
    filterAggregate x nG nT gi ti false false
      = (axis nG gi).map (fun g => (axis nT ti).map fun t => x g t) ∧
    filterAggregate x nG nT gi ti false true
      = (axis nG gi).map (fun g => [((axis nT ti).map fun t => x g t).sum]) ∧
    filterAggregate x nG nT gi ti true false
      = [(axis nT ti).map fun t => ((axis nG gi).map fun g => x g t).sum] := by
  refine ⟨by simp [filterAggregate], by simp [filterAggregate, Function.comp_def], ?_⟩
  simp only [filterAggregate, if_true, Bool.false_eq_true, if_false]
  congr 1
  apply List.ext_getElem
  · simp
  · intro i h1 h2
    simp only [List.length_map, List.length_range] at h1
    simp [List.map_map, Function.comp_def, List.getD_eq_getElem?_getD, h1]

open Classical in
/-- **C36 (additivity).** If a selection of geos is split into two selections with no geo in common,
the aggregated results add up. -/
theorem aggregate_additive (norm : String → Option String) (geos times : List String)
    (a b : List String) (hab : ∀ n ∈ a, n ∉ b) (tsel : Option (List Item))
    (x : ℕ → ℕ → ℝ) (ga gb gab ti : Option (List ℕ))
    (ha : resolveGeos geos (some a) = .ok ga) (hb : resolveGeos geos (some b) = .ok gb)
    (hc : resolveGeos geos (some (a ++ b)) = .ok gab)
    (ht : resolveTimes norm times times.length tsel = .ok ti) :
    ∃ u v, filterAggregate x geos.length times.length ga ti true true = [[u]] ∧
      filterAggregate x geos.length times.length gb ti true true = [[v]] ∧
      filterAggregate x geos.length times.length gab ti true true = [[u + v]] := by
  refine ⟨_, _, aggregate_selected norm geos times _ tsel ga ti ha ht x,
    aggregate_selected norm geos times _ tsel gb ti hb ht x, ?_⟩
  rw [aggregate_selected norm geos times _ tsel gab ti hc ht x]
  congr 2
  rw [← Finset.sum_union]
  · apply Finset.sum_congr _ fun _ _ => rfl
    ext g
    simp only [Finset.mem_filter, Finset.mem_range, Finset.mem_union]
    simp only [geoSelected, List.mem_append]
    constructor
    · rintro ⟨h, n, h1 | h1, h2⟩
      · exact .inl ⟨h, n, h1, h2⟩
      · exact .inr ⟨h, n, h1, h2⟩
    · rintro (⟨h, n, h1, h2⟩ | ⟨h, n, h1, h2⟩)
      · exact ⟨h, n, .inl h1, h2⟩
      · exact ⟨h, n, .inr h1, h2⟩
  · rw [Finset.disjoint_left]
    intro g h1 h2
    rw [Finset.mem_filter] at h1 h2
    simp only [geoSelected] at h1 h2
    obtain ⟨_, n, hn, e⟩ := h1
    obtain ⟨_, m, hm, e'⟩ := h2
    rw [e] at e'
    cases e'
    exact hab n hn hm

/-- The hypotheses are met: a request out of order with a repetition. -/
example : resolveGeos ["a", "b", "c"] (some ["c", "a", "c"]) = .ok (some [0, 2]) ∧
    resolveGeos ["a", "b", "c"] (some ["d"]) = .error .unknownGeo ∧
    resolveTimes some ["2024-01-01", "2024-01-08"] 2 (some [.str "2024-01-08"]) = .ok (some [1]) ∧
    resolveTimes some ["2024-01-01", "2024-01-08"] 2 (some [.flag true, .flag false])
      = .ok (some [0]) ∧
    resolveTimes some ["2024-01-01", "2024-01-08"] 2 (some [.flag true])
      = .error .flagCount ∧
    resolveTimes some ["2024-01-01"] 1 (some [.flag true, .str "x"]) = .error .mixedList := by
  decide +kernel

end Verif.Selection.Props

import Verif.Model.Labels
import Verif.Spec.Labels
import Verif.Props.Selection

/-!
# C37: per-geo and per-time results carry the right labels-/

namespace Verif.Labels.Props

open Verif.Labels Verif.Selection Verif.Selection.Spec Verif.Labels.Spec

theorem names_map (names : List String) (idx : List ℕ) (h : ∀ p ∈ idx, p < names.length) :
    Names names idx (idx.map fun p => names.getD p "") := by
  refine ⟨by simp, fun i p hp => ?_⟩
  have hl := h p (List.mem_of_getElem? hp)
  refine ⟨names[p], List.getElem?_eq_getElem hl, ?_⟩
  simp [hp, List.getElem?_eq_getElem hl]

theorem map_range_getD (names : List String) :
    (List.range names.length).map (fun p => names.getD p "") = names := by
  apply List.ext_getElem
  · simp
  · intro i h1 h2
    simp [List.getElem?_eq_getElem h2]

theorem filter_eq_map (names : List String) (q : String → Bool) :
    names.filter q = ((List.range names.length).filter fun i => q (names.getD i "")).map
      fun p => names.getD p "" := by
  conv_lhs => rw [← map_range_getD names]
  rw [List.filter_map]
  rfl

theorem axis_lt_geos {geos : List String} {sel : Option (List String)} {r : Option (List ℕ)}
    (h : resolveGeos geos sel = .ok r) : ∀ p ∈ axis geos.length r, p < geos.length := fun p hp =>
  ((Selection.Props.geo_indices_exact geos sel r h).2 p).1 hp |>.1

/-- **C37 (incremental outcome, geos).** Each row of `incremental_outcome_xr` is labelled with the geo
it was computed for, whatever the order and repetitions of the selection. -/
theorem xr_geo_labels (geos : List String) (sel : Option (List String)) (r : Option (List ℕ))
    (h : resolveGeos geos sel = .ok r) :
    Names geos (axis geos.length r) (xrGeoLabels geos sel) := by
  have : xrGeoLabels geos sel = (axis geos.length r).map fun p => geos.getD p "" := by
    cases sel with
    | none =>
      simp only [resolveGeos, Except.ok.injEq] at h
      subst h
      exact (map_range_getD geos).symm
    | some l =>
      simp only [resolveGeos] at h
      split_ifs at h
      simp only [Except.ok.injEq] at h
      subst h
      exact filter_eq_map geos _
  rw [this]
  exact names_map _ _ (axis_lt_geos h)

theorem mask_eq_map (times : List String) (l : List Item) (h : l.length = times.length) :
    (times.zip l).filterMap (fun p => if p.2 = .flag true then some p.1 else none)
      = ((List.range l.length).filter fun i => l.getD i .other == .flag true).map
        fun p => times.getD p "" := by
  have e : times.zip l = (List.range l.length).map fun i => (times.getD i "", l.getD i .other) := by
    apply List.ext_getElem
    · simp [h]
    · intro i h1 h2
      simp only [List.length_zip] at h1
      simp only [List.getElem_zip, List.getElem_map, List.getElem_range, List.getD_eq_getElem?_getD]
      rw [List.getElem?_eq_getElem (by omega), List.getElem?_eq_getElem (by omega)]
      rfl
  rw [e, List.filterMap_map, ← List.filterMap_eq_filter, List.map_filterMap]
  apply List.filterMap_congr
  intro i _
  simp only [Function.comp, Option.guard]
  by_cases hc : l.getD i .other = .flag true
  · simp only [hc, if_true, beq_self_eq_true, Option.map_some]
  · simp [hc]

/-- **C37 (incremental outcome, times).** If `incremental_outcome_xr` labels the times at all, each
entry is labelled with the time it was computed for. -/
theorem xr_time_labels (norm : String → Option String) (times : List String)
    (sel : Option (List Item)) (r : Option (List ℕ))
    (h : resolveTimes norm times times.length sel = .ok r) (labels : List String)
    (hl : xrTimeLabels times sel (axis times.length r).length = some labels) :
    Names times (axis times.length r) labels := by
  have hlt : ∀ p ∈ axis times.length r, p < times.length := fun p hp =>
    ((Selection.Props.time_indices_exact norm times sel r h).2 p).1 hp |>.1
  suffices labels = (axis times.length r).map fun p => times.getD p "" by
    rw [this]; exact names_map _ _ hlt
  cases sel with
  | none =>
    simp only [resolveTimes, Except.ok.injEq] at h
    subst h
    simp only [xrTimeLabels] at hl
    split_ifs at hl
    simp only [Option.some.injEq] at hl
    rw [← hl]
    exact (map_range_getD times).symm
  | some l =>
    simp only [xrTimeLabels] at hl
    unfold resolveTimes at h
    simp only at h
    cases hv : validateTimes norm times times.length l with
    | error e => rw [hv] at h; cases h
    | ok u =>
      rw [hv] at h
      simp only at h
      by_cases h1 : isStrList l = true
      · rw [if_pos h1] at h hl
        simp only [Except.ok.injEq] at h
        subst h
        split_ifs at hl with hlen
        simp only [Option.some.injEq] at hl
        subst hl
        simp only [axis] at hlen ⊢
        rw [filter_eq_map times] at hlen ⊢
        refine List.Sublist.eq_of_length (List.Sublist.map _ ?_) (by simpa using hlen)
        refine List.monotone_filter_right _ fun i => ?_
        simp only [List.contains_eq_mem, decide_eq_true_eq, List.any_eq_true, beq_iff_eq]
        intro hi
        exact ⟨_, hi, rfl⟩
      · rw [if_neg h1] at h hl
        have hlen : l.length = times.length := by
          unfold validateTimes at hv
          rw [if_neg h1] at hv
          split_ifs at hv with a b c
          · have : l = [] := by simpa using a
            subst this
            simp [isStrList] at h1
          · simpa using c
        rw [if_pos hlen.symm] at hl
        simp only [Option.some.injEq] at hl
        subst hl
        split_ifs at h with h2
        · simp only [Except.ok.injEq] at h
          subst h
          exact mask_eq_map times l hlen
        · exfalso
          unfold validateTimes at hv
          rw [if_neg h2, if_neg h1] at hv
          split_ifs at hv with a
          have : l = [] := by simpa using a
          subst this
          simp [isStrList] at h1

/-- **C37 (summary metrics, times).** Each entry of `summary_metrics` is labelled with the time it was
computed for. -/
theorem summary_time_labels (norm : String → Option String) (times : List String)
    (sel : Option (List Item)) (r : Option (List ℕ))
    (h : resolveTimes norm times times.length sel = .ok r) :
    Names times (axis times.length r) (summaryTimeLabels times r) := by
  have hlt : ∀ p ∈ axis times.length r, p < times.length := fun p hp =>
    ((Selection.Props.time_indices_exact norm times sel r h).2 p).1 hp |>.1
  cases r with
  | none =>
    simp only [summaryTimeLabels]
    conv_rhs => rw [← map_range_getD times]
    exact names_map _ _ hlt
  | some idx => exact names_map _ _ hlt

theorem filter_of_sublist {l geos : List String} (hs : l.Sublist geos) (hn : geos.Nodup) :
    geos.filter (fun g => l.contains g) = l := by
  induction hs with
  | slnil => rfl
  | @cons l₁ l₂ a hs ih =>
    rw [List.nodup_cons] at hn
    rw [List.filter_cons_of_neg, ih hn.2]
    simpa using fun h => hn.1 (hs.subset h)
  | @cons_cons l₁ l₂ a hs ih =>
    rw [List.nodup_cons] at hn
    rw [List.filter_cons_of_pos (by simp)]
    congr 1
    conv_rhs => rw [← ih hn.2]
    apply List.filter_congr
    intro x hx
    have : x ≠ a := fun e => hn.1 (e ▸ hx)
    simp [this]

/-- **C37 (summary metrics, geos, in the order of the data).** If the selected geos are given without
repetition in the order of the data, the rows of `summary_metrics` and `baseline_summary_metrics` are
labelled with the geos they were computed for. -/
theorem summary_geo_labels (geos : List String) (hn : geos.Nodup) (sel : Option (List String))
    (hs : ∀ l, sel = some l → l.Sublist geos) (r : Option (List ℕ))
    (h : resolveGeos geos sel = .ok r) :
    Names geos (axis geos.length r) (summaryGeoLabels geos sel) := by
  have e : summaryGeoLabels geos sel = xrGeoLabels geos sel := by
    cases sel with
    | none => rfl
    | some l => exact (filter_of_sublist (hs l rfl) hn).symm
  rw [e]
  exact xr_geo_labels geos sel r h

/-- **C37 fails in general.** With the geos of the selection in another order than that of the data
`summary_metrics` and `baseline_summary_metrics` report the values of each of two geos under the name
of the other one, for any two geos. -/
theorem summary_geo_labels_swapped (a b : String) (hab : a ≠ b) {α : Type} (x y : α) :
    resolveGeos [a, b] (some [b, a]) = .ok (some [0, 1]) ∧
    ((axis 2 (some [0, 1])).map fun i => [x, y].getD i x) = [x, y] ∧
    attach (summaryGeoLabels [a, b] (some [b, a])) [x, y] = some [(b, x), (a, y)] ∧
    ¬ Names [a, b] [0, 1] (summaryGeoLabels [a, b] (some [b, a])) := by
  refine ⟨?_, rfl, rfl, ?_⟩
  · have : List.range 2 = [0, 1] := rfl
    simp [resolveGeos, this]
  · rintro ⟨_, h⟩
    obtain ⟨n, h1, h2⟩ := h 0 0 rfl
    simp [summaryGeoLabels] at h1 h2
    exact hab (h1.trans h2.symm)

/-- **C37 fails in general, times.** `baseline_summary_metrics` also swaps the names of two times given
in another order. -/
theorem baseline_time_labels_swapped :
    resolveTimes some ["2024-01-01", "2024-01-08"] 2
      (some [.str "2024-01-08", .str "2024-01-01"]) = .ok (some [0, 1]) ∧
    baselineTimeLabels ["2024-01-01", "2024-01-08"] (some [.str "2024-01-08", .str "2024-01-01"])
      = [.str "2024-01-08", .str "2024-01-01"] := by
  decide +kernel

/-- **C37 (repetitions).** A geo named twice is accepted by the selection, which counts it once, but the
labels then do not fit the rows, and the summary is refused. -/
theorem summary_repeated_geo_refused (a b : String) (hab : a ≠ b) {α : Type} (rows : List α)
    (idx : List ℕ) (h : resolveGeos [a, b] (some [a, a]) = .ok (some idx))
    (hr : rows.length = idx.length) :
    attach (summaryGeoLabels [a, b] (some [a, a])) rows = none := by
  have : List.range 2 = [0, 1] := rfl
  simp [resolveGeos, this, hab.symm] at h
  subst h
  simp [attach, summaryGeoLabels, hr]

/-- The hypotheses are met by selections that are not trivial. -/
example : resolveGeos ["a", "b", "c"] (some ["c", "a"]) = .ok (some [0, 2]) ∧
    xrGeoLabels ["a", "b", "c"] (some ["c", "a"]) = ["a", "c"] ∧
    xrTimeLabels ["2024-01-01", "2024-01-08"] (some [.str "2024-01-08"]) 1
      = some ["2024-01-08"] ∧
    xrTimeLabels ["2024-01-01", "2024-01-08"] (some [.flag false, .flag true]) 1
      = some ["2024-01-08"] ∧
    (["a", "c"] : List String).Sublist ["a", "b", "c"] := by
  refine ⟨by decide +kernel, by decide +kernel, by decide +kernel, by decide +kernel, by decide⟩

end Verif.Labels.Props

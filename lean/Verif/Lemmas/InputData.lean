import Verif.Spec.InputData
import Mathlib.Data.List.Basic
import Mathlib.Data.Option.Basic
import Mathlib.Tactic.Tauto

/-!
# Lemmas on the validation of the input data
-/

namespace Verif.InputData.Lemmas

open Verif.InputData Verif.InputData.Spec

theorem withRevenue_eq (d : Input) : withRevenue d = used d := rfl

theorem sameSet_iff (a b : List String) : sameSet a b = true ↔ ∀ x, x ∈ a ↔ x ∈ b := by
  simp only [sameSet, Bool.and_eq_true, List.all_eq_true, List.contains_iff_mem]
  constructor
  · rintro ⟨h1, h2⟩ x
    exact ⟨h1 x, h2 x⟩
  · intro h
    exact ⟨fun x hx => (h x).1 hx, fun x hx => (h x).2 hx⟩

theorem dimsOk_iff (o : Option Arr) (ds : List (List String)) :
    dimsOk o ds = true ↔ ∀ a, o = some a → ∃ d ∈ ds, HasDims a d := by
  cases o with
  | none => simp [dimsOk]
  | some a => simp [dimsOk, sameSet_iff, HasDims]

theorem badName_iff (o : Option Arr) (n : String) :
    badName (o, n) = false ↔ ∀ a, o = some a → a.name = n := by
  cases o with
  | none => simp [badName]
  | some a => simp [badName]

/-- All elements equal the first. -/
def allEq {β : Type} [BEq β] : List β → Bool
  | [] => true
  | n :: ns => ns.all (· == n)

theorem head_all {α β : Type} [BEq β] [LawfulBEq β] (f : α → β) (l : List α) :
    allEq (l.map f) = true ↔ ∀ a ∈ l, ∀ b ∈ l, f a = f b := by
  cases l with
  | nil => simp [allEq]
  | cons x xs =>
    simp only [allEq, List.map_cons, List.all_map, List.all_eq_true, Function.comp_apply,
      beq_iff_eq]
    constructor
    · intro h a ha b hb
      have key : ∀ c ∈ x :: xs, f c = f x := by
        intro c hc
        rcases List.mem_cons.1 hc with rfl | hc
        · rfl
        · exact h c hc
      rw [key a ha, key b hb]
    · intro h a ha
      exact h a (by simp [ha]) x (by simp)

theorem dimMatch_iff (dim : String) (l : List (Option Arr)) :
    dimMatch dim l = true ↔ ∀ a b, Present l a → Present l b →
      (a.coord dim).length = (b.coord dim).length := by
  have e : dimMatch dim l = allEq ((l.filterMap id).map fun a => (a.coord dim).length) := by
    unfold dimMatch
    cases (l.filterMap id).map fun a => (a.coord dim).length <;> rfl
  rw [e, head_all]
  simp only [List.mem_filterMap, id, Present, exists_eq_right]
  tauto

theorem coordsMatch_iff (dim : String) (l : List (Option Arr)) :
    coordsMatch dim l = true ↔ ∀ a b, Present l a → Present l b → dim ∈ a.dims → dim ∈ b.dims →
      a.coord dim = b.coord dim := by
  have e : coordsMatch dim l =
      allEq (((l.filterMap id).filter fun a => a.dims.contains dim).map fun a => a.coord dim) := by
    unfold coordsMatch
    cases (l.filterMap id).filter fun a => a.dims.contains dim with
    | nil => rfl
    | cons x xs => simp [allEq, List.all_map, Function.comp_def]
  rw [e, head_all]
  simp only [List.mem_filter, List.mem_filterMap, id, Present, exists_eq_right,
    List.contains_iff_mem]
  exact ⟨fun h a b ha hb hda hdb => h a ⟨ha, hda⟩ b ⟨hb, hdb⟩,
    fun h a ha b hb => h a b ha.1 hb.1 ha.2 hb.2⟩

theorem hasNa_iff (a : Arr) : hasNa a = false ↔ none ∉ a.vals := by
  simp only [hasNa, List.any_eq_false, Option.isNone_iff_eq_none]
  constructor
  · exact fun h hn => h none hn rfl
  · exact fun h x hx e => h (e ▸ hx)

theorem anyNegative_iff (a : Arr) : anyNegative a = false ↔ ∀ q, some q ∈ a.vals → 0 ≤ q := by
  simp only [anyNegative, List.any_eq_false]
  constructor
  · intro h q hq
    simpa using h (some q) hq
  · intro h x hx
    cases x with
    | none => simp
    | some q => simpa using h q hx

theorem allZero_iff (o : Option Arr) : (o.map allZero).getD false = false ↔
    ∀ r, o = some r → ∃ v ∈ r.vals, v ≠ some 0 := by
  cases o with
  | none => simp
  | some r => simp [allZero]

/-- All conditions of the validation at once. -/
theorem ok_iff (isDate : String → Bool) (regular : List String → Bool) (d0 d : Input) :
    validate isDate regular d0 = .ok d ↔
      anyNa d0 = false ∧ (d0.kpiType = "revenue" ∨ d0.kpiType = "non_revenue") ∧
      (d0.revenuePerKpi.map allZero).getD false = false ∧
      namesOk (used d0) = true ∧ allDimsOk (used d0) = true ∧ matchErr (used d0) = none ∧
      (∃ chs, allChannels (used d0) = .ok chs ∧ chs.Nodup) ∧
      (∀ a ∈ timedArrays (used d0), timeFormatOk isDate a = true) ∧
      (∀ a ∈ mediaArrays (used d0),
        ((used d0).kpi.coord "time").length ≤ (a.coord "media_time").length) ∧
      regular ((used d0).kpi.coord "time") = true ∧ regular (mediaTime (used d0)) = true ∧
      (∀ a ∈ (geoArrays (used d0)).filterMap id, "geo" ∈ a.dims → (a.coord "geo").Nodup) ∧
      coordsMatch "geo" (geoArrays (used d0)) = true ∧
      (∀ a ∈ nonNegativeArrays (used d0), anyNegative a = false) ∧ d = used d0 := by
  rw [← withRevenue_eq d0]
  unfold validate
  simp only
  by_cases h1 : anyNa d0 = true
  · simp [h1]
  by_cases h2 : (d0.kpiType != "revenue" && d0.kpiType != "non_revenue") = true
  · rw [if_neg h1, if_pos h2]
    simp only [Bool.and_eq_true, bne_iff_ne] at h2
    simp [h2.1, h2.2]
  have h2' : d0.kpiType = "revenue" ∨ d0.kpiType = "non_revenue" := by
    simp only [Bool.and_eq_true, bne_iff_ne, not_and, not_not] at h2
    by_cases e : d0.kpiType = "revenue"
    · exact Or.inl e
    · exact Or.inr (h2 e)
  rw [if_neg h1, if_neg h2]
  by_cases h3 : (d0.revenuePerKpi.map allZero).getD false = true
  · simp [h3]
  rw [if_neg h3]
  by_cases h4 : namesOk (withRevenue d0) = true
  swap
  · simp [h4]
  by_cases h5 : allDimsOk (withRevenue d0) = true
  swap
  · simp [h4, h5]
  simp only [h4, h5, Bool.not_true, Bool.false_eq_true, if_false]
  cases h6 : matchErr (withRevenue d0) with
  | some e => simp
  | none =>
    cases h7 : allChannels (withRevenue d0) with
    | error e => simp
    | ok chs =>
      simp only [Bool.not_eq_true] at h1 h3
      simp only [h1, h2', h3, true_and, Except.ok.injEq, exists_eq_left']
      by_cases h8 : chs.Nodup
      swap
      · simp [h8]
      by_cases h9 : (timedArrays (withRevenue d0)).all (timeFormatOk isDate) = true
      swap
      · simp only [h8, decide_true, Bool.not_true, Bool.false_eq_true, if_false, h9,
          Bool.not_false, if_true, true_and, reduceCtorEq, false_iff]
        rw [← List.all_eq_true]
        tauto
      rw [← List.all_eq_true]
      simp only [h8, decide_true, Bool.not_true, Bool.false_eq_true, if_false, h9, true_and]
      split_ifs with h10 h11 h12 h13 h14 h15
      · simp only [List.any_eq_true, decide_eq_true_eq] at h10
        obtain ⟨a, ha, hl⟩ := h10
        simp only [false_iff, not_and]
        intro h
        exact absurd (h a ha) (by omega)
      · simp only [Bool.not_eq_true'] at h11
        simp [h11]
      · simp only [Bool.not_eq_true'] at h12
        simp [h12]
      · simp only [List.any_eq_true, Bool.and_eq_true, List.contains_iff_mem, Bool.not_eq_true',
          decide_eq_false_iff_not] at h13
        obtain ⟨a, ha, hg, hn⟩ := h13
        simp only [false_iff]
        exact fun h => hn (h.2.2.2.1 a ha hg)
      · simp only [Bool.not_eq_true'] at h14
        simp [h14]
      · obtain ⟨a, ha, hn⟩ := List.any_eq_true.1 h15
        simp only [false_iff]
        exact fun h => absurd (h.2.2.2.2.2.1 a ha) (by simp [hn])
      · simp only [Bool.not_eq_true, Bool.not_eq_false'] at h11 h12 h14
        have h10' : ∀ a ∈ mediaArrays (withRevenue d0),
            ((withRevenue d0).kpi.coord "time").length ≤ (a.coord "media_time").length := by
          intro a ha
          by_contra hc
          exact h10 (List.any_eq_true.2 ⟨a, ha, by simpa using hc⟩)
        have h13' : ∀ a ∈ (geoArrays (withRevenue d0)).filterMap id, "geo" ∈ a.dims →
            (a.coord "geo").Nodup := by
          intro a ha hg
          by_contra hc
          exact h13 (List.any_eq_true.2 ⟨a, ha, by simp [hg, hc]⟩)
        have h15' : ∀ a ∈ nonNegativeArrays (withRevenue d0), anyNegative a = false := by
          intro a ha
          simpa using fun hn => h15 (List.any_eq_true.2 ⟨a, ha, hn⟩)
        simp only [Except.ok.injEq]
        constructor
        · exact fun h => ⟨h10', h11, h12, h13', h14, h15', h.symm⟩
        · exact fun h => h.2.2.2.2.2.2.symm

end Verif.InputData.Lemmas

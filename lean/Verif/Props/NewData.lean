import Verif.Spec.NewData
import Verif.Props.Selection
import Mathlib.Tactic

/-!
# C91: new data for the analysis
-/

namespace Verif.NewData.Props

open Verif Verif.NewData Verif.NewData.Spec
open Verif.Selection (Item isBoolList isStrList isNormalizedSubset strs validateTimes resolveTimes resolveGeos)

variable {α : Type}

theorem checkAll_iff {β : Type} (f : β → Except Err Unit) (l : List β) :
    checkAll f l = .ok () ↔ ∀ a ∈ l, f a = .ok () := by
  induction l with
  | nil => simp [checkAll]
  | cons a l ih =>
    simp only [checkAll, List.forall_mem_cons]
    cases h : f a with
    | error e => simp
    | ok u => simp [ih]

theorem mem_fields (f : Field) : f ∈ fields := by cases f <;> simp [fields]

/-! ### Construction -/

/-- **C91 (construction).** Data is accepted exactly if revenue per KPI has two dimensions, time coordinates
one, spend one or three and all other variables three. -/
theorem constructed_iff (d x : Data α) : construct d = .ok x ↔ WellFormed d ∧ x = d := by
  have e : checkAll (checkDims d) fields = .ok () ↔ WellFormed d := by
    rw [checkAll_iff]
    unfold WellFormed
    constructor
    · intro h f t hf
      have := h f (mem_fields f)
      unfold checkDims at this
      rw [hf] at this
      by_contra hn
      simp [hn] at this
    · intro h f _
      unfold checkDims
      cases hf : d f with
      | none => rfl
      | some t => simp [h f t hf]
  unfold construct
  rw [← e]
  cases h : checkAll (checkDims d) fields with
  | error e => simp
  | ok u => simp [eq_comm]

/-- **C91 (construction).** Data is accepted exactly if every variable has its documented shape, and is then
kept as it is. -/
theorem constructed_documented (d x : Data α) : construct d = .ok x ↔ DocumentedShapes d ∧ x = d := by
  rw [constructed_iff]
  refine and_congr_left fun _ => ⟨fun h => ⟨fun t ht => ?_, fun f t hf ht => ?_, fun t ht => ?_,
    fun f t h1 h2 h3 h4 ht => ?_⟩, fun h f t ht => ?_⟩
  · simpa [dims, Tensor.ndim] using h _ _ ht
  · rcases hf with rfl | rfl <;> simpa [dims, Tensor.ndim] using h _ _ ht
  · simpa [dims, Tensor.ndim] using h _ _ ht
  · have := h _ _ ht
    cases f <;> simp_all [dims, Tensor.ndim]
  · unfold Tensor.ndim
    by_cases h1 : f = .revenuePerKpi
    · subst h1; simpa [dims] using h.revenue t ht
    by_cases h2 : f = .mediaSpend
    · subst h2; simpa [dims] using h.spend _ t (.inl rfl) ht
    by_cases h3 : f = .rfSpend
    · subst h3; simpa [dims] using h.spend _ t (.inr rfl) ht
    by_cases h4 : f = .time
    · subst h4; simpa [dims] using h.times t ht
    have := h.others f t h1 h2 h3 h4 ht
    cases f <;> simp_all [dims]

theorem ndim_cases {f : Field} {t : Tensor α} (h : t.ndim ∈ dims f) : t.ndim = 1 ∨ t.ndim = 2 ∨ t.ndim = 3 := by
  cases f <;> simp [dims] at h <;> omega

/-! ### Periods -/

theorem changed_iff (C : Ctx α) (hC : WellFormed C.hist) (d : Data α) (hd : WellFormed d) (f : Field) (T : ℕ) :
    changed C d f = some T ↔ ∃ t o, d f = some t ∧ C.hist f = some o ∧ Differ t o ∧ t.dim 1 = T := by
  unfold changed
  cases h1 : d f with
  | none => simp
  | some t =>
    cases h2 : C.hist f with
    | none => simp
    | some o =>
      have a1 := ndim_cases (hd f t h1)
      have a2 := ndim_cases (hC f o h2)
      have e1 : 1 < t.ndim ↔ t.ndim ≠ 1 := by omega
      have e2 : 1 < o.ndim ↔ o.ndim ≠ 1 := by omega
      simp only [Option.some.injEq, e1, e2, exists_eq_left', Differ]
      split_ifs with h
      · simp [h]
      · simp [h]

/-- **C91 (modified times).** The data counts as having modified times exactly if some variable differs from
the model in its number of periods. -/
theorem unmodified_iff (C : Ctx α) (hC : WellFormed C.hist) (d : Data α) (hd : WellFormed d) :
    modifiedTimes C d = none ↔ SamePeriods C d := by
  unfold modifiedTimes
  rw [List.findSome?_eq_none_iff]
  constructor
  · intro h f t o h1 h2 h3
    have := (changed_iff C hC d hd f (t.dim 1)).2 ⟨t, o, h1, h2, h3, rfl⟩
    rw [h f (mem_fields f)] at this
    cases this
  · intro h f _
    cases hc : changed C d f with
    | none => rfl
    | some T =>
      obtain ⟨t, o, h1, h2, h3, -⟩ := (changed_iff C hC d hd f T).1 hc
      exact absurd h3 (h f t o h1 h2)

theorem modified_from {C : Ctx α} (hC : WellFormed C.hist) {d : Data α} (hd : WellFormed d) {T : ℕ}
    (h : modifiedTimes C d = some T) :
    ∃ f t o, d f = some t ∧ C.hist f = some o ∧ Differ t o ∧ t.dim 1 = T := by
  unfold modifiedTimes at h
  obtain ⟨f, -, hf⟩ := List.exists_of_findSome?_eq_some h
  obtain ⟨t, o, r⟩ := (changed_iff C hC d hd f T).1 hf
  exact ⟨f, t, o, r⟩

/-! ### Acceptance -/

theorem time_ndim {d : Data α} (hd : WellFormed d) {t : Tensor α} (h : d .time = some t) : t.ndim = 1 := by
  have := hd _ _ h
  simpa [dims] using this

theorem fits_iff (C : Ctx α) (hC : Regular C) (req : List Field) (d : Data α) (hd : WellFormed d) :
    (validateFilled C req d = .ok () ∧ validateGeos C req d = .ok () ∧ validateChannels C req d = .ok ()) ↔
      Fits C req d := by
  unfold validateFilled validateGeos validateChannels
  rw [checkAll_iff, checkAll_iff, checkAll_iff]
  constructor
  · rintro ⟨h1, h2, h3⟩
    refine ⟨?_, ?_, ?_⟩
    · intro f hf hs
      by_cases ht : f = .time
      · rw [ht]; exact hC.time
      · have := h1 f (mem_fields f)
        unfold checkFilled at this
        rw [if_pos ⟨hs, ht, hf⟩] at this
        by_cases hr : f = .rfImpressions
        · rw [if_pos hr] at this
          rw [hr, hC.rf]
          intro h0
          rw [if_pos h0] at this
          cases this
        · rw [if_neg hr] at this
          cases hh : C.hist f with
          | none => rw [hh] at this; cases this
          | some o => rfl
    · intro f hf t ht hn
      have := h2 f hf
      unfold checkGeo at this
      rw [ht] at this
      by_contra h0
      simp [h0, hn] at this
    · intro f hf hr ht t o h4 h5
      have := h3 f hf
      unfold checkChannels at this
      rw [if_neg (by simp [hr, ht]), h4, h5] at this
      by_contra h0
      simp [h0] at this
  · rintro ⟨h1, h2, h3⟩
    refine ⟨?_, ?_, ?_⟩
    · intro f _
      unfold checkFilled
      by_cases hc : (d f).isSome ∧ f ≠ .time ∧ f ∈ req
      · rw [if_pos hc]
        have := h1 f hc.2.2 hc.1
        by_cases hr : f = .rfImpressions
        · rw [if_pos hr, if_neg (hC.rf.1 (by rw [← hr]; exact this))]
        · rw [if_neg hr]
          cases hh : C.hist f with
          | none => rw [hh] at this; cases this
          | some o => rfl
      · rw [if_neg hc]
    · intro f hf
      unfold checkGeo
      cases ht : d f with
      | none => rfl
      | some t =>
        have := h2 f hf t ht
        simp only
        rw [if_neg]
        rintro ⟨a, b⟩
        exact a (this b)
    · intro f hf
      unfold checkChannels
      by_cases hc : f = .revenuePerKpi ∨ f = .time
      · rw [if_pos hc]
      · rw [if_neg hc]
        push Not at hc
        cases ht : d f with
        | none => rfl
        | some t =>
          have hs := h1 f hf (by rw [ht]; rfl)
          cases hh : C.hist f with
          | none => rw [hh] at hs; cases hs
          | some o =>
            have := h3 f hf hc.1 hc.2 t o ht hh
            simp [this]

theorem flexible_iff (C : Ctx α) (req : List Field) (d : Data α) (hd : WellFormed d) (T : ℕ) :
    (checkAll (checkFlexible C d T) req = .ok () ∧ req.any (isMissing C d) = false) ↔ AllGiven C req d T := by
  rw [checkAll_iff, List.any_eq_false]
  constructor
  · rintro ⟨h1, h2⟩ f hf hs
    have a := h1 f hf
    have b := h2 f hf
    obtain ⟨o, ho⟩ := Option.isSome_iff_exists.1 hs
    cases ht : d f with
    | none => simp [isMissing, ho, ht] at b
    | some t =>
      refine ⟨t, rfl, ?_⟩
      unfold checkFlexible at a
      simp only [ho, ht] at a
      unfold HasPeriods
      have hn := ndim_cases (hd f t ht)
      by_cases hft : f = .time
      · rw [if_pos hft]
        by_contra h0
        rw [if_pos ⟨hft, h0⟩] at a
        split_ifs at a
      · rw [if_neg hft]
        rw [if_neg (by simp [hft])] at a
        by_cases hsp : isSpend f ∧ t.ndim = 1
        · rw [if_pos hsp] at a; cases a
        · rw [if_neg hsp] at a
          have h1 : t.ndim ≠ 1 := by
            intro h1
            have := hd f t ht
            rw [h1] at this
            have hs : isSpend f := by cases f <;> simp [dims, isSpend] at this hft ⊢
            exact hsp ⟨hs, h1⟩
          refine ⟨h1, ?_⟩
          by_contra h0
          rw [if_pos ⟨by omega, h0⟩] at a
          cases a
  · intro h
    refine ⟨?_, ?_⟩
    · intro f hf
      unfold checkFlexible
      cases ho : C.hist f with
      | none => rfl
      | some o =>
        obtain ⟨t, ht, hp⟩ := h f hf (by rw [ho]; rfl)
        simp only [ht]
        unfold HasPeriods at hp
        by_cases hft : f = .time
        · rw [if_pos hft] at hp
          have hn : t.ndim = 1 := time_ndim hd (by rw [← hft]; exact ht)
          rw [if_neg (by simp [hp]), if_neg (by rintro ⟨a, -⟩; rw [hft] at a; rcases a with a | a <;> cases a),
            if_neg (by omega)]
        · rw [if_neg hft] at hp
          rw [if_neg (by simp [hft]), if_neg (by simp [hp.1]), if_neg (by simp [hp.2])]
    · intro f hf
      simp only [isMissing, Bool.and_eq_true, Option.isNone_iff_eq_none, not_and]
      intro hs
      obtain ⟨t, ht, -⟩ := h f hf hs
      rw [ht]; simp

theorem fill_wellFormed {C : Ctx α} (hC : WellFormed C.hist) (req : List Field) {d : Data α} (hd : WellFormed d) :
    WellFormed (fill C req d) := by
  intro f t h
  unfold fill at h
  by_cases h1 : f = .time ∧ (d .time).isSome
  · rw [if_pos h1] at h; rw [h1.1]; exact hd _ _ h
  · rw [if_neg h1] at h
    by_cases h2 : f ∉ req
    · rw [if_pos h2] at h; cases h
    · rw [if_neg h2] at h
      cases hf : d f with
      | none => rw [hf] at h; exact hC f t h
      | some s => rw [hf] at h; cases h; exact hd f _ hf

theorem validate_ok_iff (C : Ctx α) (hC : Regular C) (req : List Field) (flexible : Bool) (d : Data α)
    (hd : WellFormed d) (x : Data α) :
    validateAndFill C req flexible d = .ok x ↔ Fits C req d ∧
      (if flexible then validateTimesFlexible C req d else validateTimesFixed C req d) = .ok () ∧
      x = fill C req d := by
  rw [← fits_iff C hC req d hd]
  unfold validateAndFill
  cases h1 : validateFilled C req d with
  | error e => simp
  | ok u1 =>
    cases h2 : validateGeos C req d with
    | error e => simp
    | ok u2 =>
      cases h3 : validateChannels C req d with
      | error e => simp
      | ok u3 =>
        simp only [true_and]
        cases h4 : (if flexible then validateTimesFlexible C req d else validateTimesFixed C req d) with
        | error e => simp
        | ok u4 =>
          simp only [true_and]
          rw [constructed_iff]
          exact ⟨fun h => h.2, fun h => ⟨fill_wellFormed hC.dims req hd, h⟩⟩

/-- **C91 (acceptance).** New data is accepted exactly if the used variables fit the model and, when the number
of periods is modified to `T`, all used variables which the model has are given for `T` periods. -/
theorem accepted_iff (C : Ctx α) (hC : Regular C) (req : List Field) (d : Data α) (hd : WellFormed d) :
    (∃ x, validateAndFill C req true d = .ok x) ↔
      Fits C req d ∧ ∀ T, modifiedTimes C d = some T → AllGiven C req d T := by
  have e : validateTimesFlexible C req d = .ok () ↔ ∀ T, modifiedTimes C d = some T → AllGiven C req d T := by
    unfold validateTimesFlexible
    cases hm : modifiedTimes C d with
    | none => simp
    | some T =>
      simp only [Option.some.injEq, forall_eq']
      rw [← flexible_iff C req d hd T]
      cases hc : checkAll (checkFlexible C d T) req with
      | error e => simp
      | ok u =>
        simp only [true_and]
        by_cases ha : req.any (isMissing C d) = true
        · rw [if_pos ha]; simp only [reduceCtorEq, false_iff]; rw [ha]; simp
        · rw [if_neg ha]; simp only [true_iff]; simpa using ha
  constructor
  · rintro ⟨x, h⟩
    obtain ⟨h1, h2, -⟩ := (validate_ok_iff C hC req true d hd x).1 h
    exact ⟨h1, e.1 h2⟩
  · rintro ⟨h1, h2⟩
    exact ⟨_, (validate_ok_iff C hC req true d hd _).2 ⟨h1, e.2 h2, rfl⟩⟩

/-- **C91 (acceptance, used variables).** If all variables given are used, new data is accepted exactly if it
fits the model and either has its numbers of periods or gives all used variables for one number of periods. -/
theorem accepted_iff_used (C : Ctx α) (hC : Regular C) (req : List Field) (d : Data α) (hd : WellFormed d)
    (hu : OnlyUsed req d) : (∃ x, validateAndFill C req true d = .ok x) ↔
      Fits C req d ∧ (SamePeriods C d ∨ ∃ T, AllGiven C req d T) := by
  rw [accepted_iff C hC req d hd]
  refine and_congr_right fun _ => ?_
  constructor
  · intro h
    cases hm : modifiedTimes C d with
    | none => exact .inl ((unmodified_iff C hC.dims d hd).1 hm)
    | some T => exact .inr ⟨T, h T hm⟩
  · intro h T hm
    obtain ⟨f, t, o, h1, h2, h3, h4⟩ := modified_from hC.dims hd hm
    rcases h with h | ⟨T', h⟩
    · exact absurd h3 (h f t o h1 h2)
    · have hf : f ≠ .time := by
        rintro rfl
        exact h3.1 (time_ndim hd h1)
      have hreq : f ∈ req := (hu f (by rw [h1]; rfl)).resolve_right hf
      obtain ⟨t', e, hp⟩ := h f hreq (by rw [h2]; rfl)
      rw [h1] at e
      cases e
      unfold HasPeriods at hp
      rw [if_neg hf] at hp
      have : T' = T := by rw [← hp.2, h4]
      rw [← this]; exact h

/-- **C91 (acceptance, fixed periods).** Where other periods are not allowed, new data is accepted exactly if
the used variables fit the model and have its periods. -/
theorem accepted_fixed_iff (C : Ctx α) (hC : Regular C) (req : List Field) (d : Data α) (hd : WellFormed d) :
    (∃ x, validateAndFill C req false d = .ok x) ↔
      Fits C req d ∧ ∀ f ∈ req, ∀ t o, d f = some t → C.hist f = some o → Matches f t o := by
  have e : Fits C req d → (validateTimesFixed C req d = .ok () ↔
      ∀ f ∈ req, ∀ t o, d f = some t → C.hist f = some o → Matches f t o) := by
    intro hF
    unfold validateTimesFixed
    rw [checkAll_iff]
    refine forall₂_congr fun f hf => ?_
    unfold checkTime
    cases ht : d f with
    | none => simp
    | some t =>
      obtain ⟨o, ho⟩ := Option.isSome_iff_exists.1 (hF.known f hf (by rw [ht]; rfl))
      simp only [ho, Option.some.injEq, forall_eq', forall_apply_eq_imp_iff]
      unfold Matches
      have hn := hd f t ht
      by_cases hft : f = .time
      · subst hft
        have h1 : t.ndim = 1 := time_ndim hd ht
        rw [if_pos rfl, if_neg (by simp [isSpend])]
        by_cases h0 : t.dim 0 = o.dim 0
        · simp [h0, h1]
        · simp [h0]
      · rw [if_neg hft]
        by_cases h1 : t.ndim = 1
        · have hs : isSpend f := by rw [h1] at hn; cases f <;> simp [dims, isSpend] at hn hft ⊢
          simp [hs, h1]
        · rw [if_neg (by simp [h1]), if_neg (by simp [hft])]
          have h2 := ndim_cases hn
          have h3 := ndim_cases (hC.dims f o ho)
          by_cases h4 : o.ndim = 1
          · rw [if_pos ⟨by omega, by omega⟩]; simp [h1, h4]
          · rw [if_neg (by omega)]
            by_cases h5 : t.dim 1 = o.dim 1
            · simp [h5, h4]
            · rw [if_pos ⟨by omega, h5⟩]; simp [h1, h5]
  constructor
  · rintro ⟨x, h⟩
    obtain ⟨h1, h2, -⟩ := (validate_ok_iff C hC req false d hd x).1 h
    exact ⟨h1, (e h1).1 h2⟩
  · rintro ⟨h1, h2⟩
    exact ⟨_, (validate_ok_iff C hC req false d hd _).2 ⟨h1, (e h1).2 h2, rfl⟩⟩

theorem fill_eq (C : Ctx α) (req : List Field) (d : Data α) (f : Field) :
    fill C req d f = if f = .time ∧ (d .time).isSome then d .time else if f ∉ req then none
      else match d f with
        | some t => some t
        | none => C.hist f := rfl

theorem fill_used (C : Ctx α) (req : List Field) (d : Data α) (hC : (C.hist .time).isSome) :
    Used C req d (fill C req d) := by
  refine ⟨?_, ?_, ?_⟩
  · intro f hf t
    unfold fill
    by_cases h1 : f = .time ∧ (d .time).isSome
    · rw [if_pos h1]
      obtain ⟨rfl, h2⟩ := h1
      obtain ⟨s, hs⟩ := Option.isSome_iff_exists.1 h2
      simp [hs]
    · rw [if_neg h1, if_neg (not_not.2 hf)]
      cases hd : d f <;> simp
  · intro f hf ht
    unfold fill
    rw [if_neg (by simp [ht]), if_pos hf]
  · intro ht
    unfold fill
    cases hd : d .time with
    | none => simp [ht]
    | some s => simp

/-- **C91 (values).** In accepted data every used variable is the one given or else the one of the model;
others, except time coordinates, are dropped. -/
theorem values_used (C : Ctx α) (hC : Regular C) (req : List Field) (flexible : Bool) (d : Data α)
    (hd : WellFormed d) (x : Data α) (h : validateAndFill C req flexible d = .ok x) : Used C req d x := by
  obtain ⟨-, -, rfl⟩ := (validate_ok_iff C hC req flexible d hd x).1 h
  exact fill_used C req d hC.time

/-- **C91 (no new data).** Without new data the analysis uses the data of the model. -/
theorem history_used (C : Ctx α) (hC : Regular C) (req : List Field) :
    ∃ x, validateAndFill C req true (fun _ => none) = .ok x ∧ ∀ f ∈ req, x f = C.hist f := by
  have hd : WellFormed (fun _ => none : Data α) := by intro f t h; cases h
  have hfit : Fits C req (fun _ => none) :=
    { known := fun f _ h => (by cases h)
      geos := fun f _ t h => (by cases h)
      channels := fun f _ _ _ t o h => (by cases h) }
  obtain ⟨x, hx⟩ := (accepted_iff C hC req _ hd).2 ⟨hfit, fun T h => by
      have := (unmodified_iff C hC.dims _ hd).2 (fun f t o h => by cases h)
      rw [this] at h; cases h⟩
  refine ⟨x, hx, ?_⟩
  intro f hf
  have := (values_used C hC req true _ hd x hx).1 f hf
  cases h : C.hist f with
  | none =>
    cases hx' : x f with
    | none => rfl
    | some t => have := (this t).1 hx'; simp [h] at this
  | some o => exact (this o).2 (.inr ⟨rfl, h⟩)

/-- **C91 (one number of periods).** In accepted data whose periods are modified every used variable which the
model has has the same number of periods. -/
theorem modified_consistent (C : Ctx α) (hC : Regular C) (req : List Field) (d : Data α) (hd : WellFormed d)
    (x : Data α) (h : validateAndFill C req true d = .ok x) (T : ℕ) (hT : modifiedTimes C d = some T) :
    ∀ f ∈ req, ∀ t, x f = some t → HasPeriods f t T := by
  intro f hf t ht
  have hA := ((accepted_iff C hC req d hd).1 ⟨x, h⟩).2 T hT
  have hF := ((accepted_iff C hC req d hd).1 ⟨x, h⟩).1
  have hu := ((values_used C hC req true d hd x h).1 f hf t).1 ht
  have hs : (C.hist f).isSome := by
    rcases hu with hu | ⟨-, hu⟩
    · exact hF.known f hf (by rw [hu]; rfl)
    · rw [hu]; rfl
  obtain ⟨s, e, hp⟩ := hA f hf hs
  rcases hu with hu | ⟨hu, -⟩
  · rw [hu] at e; cases e; exact hp
  · rw [hu] at e; cases e

/-- **C91 (stability).** Accepted data is accepted again and left unchanged. -/
theorem validated_again (C : Ctx α) (hC : Regular C) (req : List Field) (d : Data α) (hd : WellFormed d)
    (x : Data α) (h : validateAndFill C req true d = .ok x) : validateAndFill C req true x = .ok x := by
  obtain ⟨h1, h2, rfl⟩ := (validate_ok_iff C hC req true d hd x).1 h
  have hx := fill_wellFormed hC.dims req hd
  have hu := fill_used C req d hC.time
  have hA := ((accepted_iff C hC req d hd).1 ⟨_, h⟩).2
  have hf : fill C req (fill C req d) = fill C req d := by
    funext f
    by_cases hft : f = .time
    · subst hft
      rw [fill_eq C req (fill C req d)]
      by_cases hs : (fill C req d .time).isSome
      · rw [if_pos ⟨rfl, hs⟩]
      · rw [if_neg (by rintro ⟨-, b⟩; exact hs b)]
        have hn : fill C req d .time = none := by simpa using hs
        by_cases hr : Field.time ∈ req
        · exfalso
          obtain ⟨o, ho⟩ := Option.isSome_iff_exists.1 hC.time
          cases hd' : d .time with
          | none => have := (hu.1 .time hr o).2 (.inr ⟨hd', ho⟩); rw [hn] at this; cases this
          | some s => have := (hu.1 .time hr s).2 (.inl hd'); rw [hn] at this; cases this
        · rw [if_pos hr, hn]
    · rw [fill_eq C req (fill C req d)]
      rw [if_neg (by simp [hft])]
      by_cases hr : f ∈ req
      · rw [if_neg (not_not.2 hr)]
        cases hd' : fill C req d f with
        | some s => rfl
        | none =>
          cases ho : C.hist f with
          | none => rfl
          | some o =>
            cases hdf : d f with
            | none => have := (hu.1 f hr o).2 (.inr ⟨hdf, ho⟩); rw [hd'] at this; cases this
            | some s => have := (hu.1 f hr s).2 (.inl hdf); rw [hd'] at this; cases this
      · rw [if_pos hr, hu.2.1 f hr hft]
  have hacc : ∃ y, validateAndFill C req true (fill C req d) = .ok y := by
    rw [accepted_iff C hC req _ hx]
    refine ⟨⟨?_, ?_, ?_⟩, ?_⟩
    · intro f hf hs
      obtain ⟨t, ht⟩ := Option.isSome_iff_exists.1 hs
      rcases (hu.1 f hf t).1 ht with a | ⟨-, a⟩
      · exact h1.known f hf (by rw [a]; rfl)
      · rw [a]; rfl
    · intro f hf t ht hn
      rcases (hu.1 f hf t).1 ht with a | ⟨-, a⟩
      · exact h1.geos f hf t a hn
      · exact hC.geos f t a hn
    · intro f hf b c t o ht ho
      rcases (hu.1 f hf t).1 ht with a | ⟨-, a⟩
      · exact h1.channels f hf b c t o a ho
      · rw [a] at ho; cases ho; rfl
    · intro T hT
      obtain ⟨f, t, o, g1, g2, g3, g4⟩ := modified_from hC.dims hx hT
      have hft : f ≠ .time := by rintro rfl; exact g3.1 (time_ndim hx g1)
      have hr : f ∈ req := by
        by_contra hr
        rw [hu.2.1 f hr hft] at g1; cases g1
      have hdf : d f = some t := by
        rcases (hu.1 f hr t).1 g1 with a | ⟨-, a⟩
        · exact a
        · rw [a] at g2; cases g2; exact absurd rfl g3.2.2
      cases hm : modifiedTimes C d with
      | none => exact absurd g3 ((unmodified_iff C hC.dims d hd).1 hm f t o hdf g2)
      | some T' =>
        have hA' := hA T' hm
        obtain ⟨t', e, hp⟩ := hA' f hr (by rw [g2]; rfl)
        rw [hdf] at e; cases e
        unfold HasPeriods at hp
        rw [if_neg hft] at hp
        have : T' = T := by rw [← hp.2, g4]
        subst this
        intro f' hf' hs'
        obtain ⟨s, e, hp'⟩ := hA' f' hf' hs'
        exact ⟨s, (hu.1 f' hf' s).2 (.inl e), hp'⟩
  obtain ⟨y, hy⟩ := hacc
  obtain ⟨-, -, rfl⟩ := (validate_ok_iff C hC req true _ hx y).1 hy
  rw [hf] at hy
  exact hy

/-! ### Selections -/

theorem boolList_iff (l : List Item) : isBoolList l = true ↔ ∀ i ∈ l, ∃ b, i = Item.flag b := by
  unfold isBoolList
  rw [List.all_eq_true]
  refine forall₂_congr fun i _ => ?_
  cases i <;> simp

theorem strList_iff (l : List Item) : isStrList l = true ↔ ∀ i ∈ l, ∃ s, i = Item.str s := by
  unfold isStrList
  rw [List.all_eq_true]
  refine forall₂_congr fun i _ => ?_
  cases i <;> simp

theorem subset_iff (norm : String → Option String) (times : List String) (hn : ∀ t ∈ times, (norm t).isSome)
    (l : List Item) : isNormalizedSubset norm (strs l) times = true ↔
      ∀ s, Item.str s ∈ l → (norm s).isSome ∧ ∃ t ∈ times, norm s = norm t := by
  unfold isNormalizedSubset
  simp only [Bool.and_eq_true, List.all_eq_true, List.any_eq_true, beq_iff_eq, Selection.Props.mem_strs]
  exact ⟨fun h s hs => ⟨h.1.1 s hs, h.2 s hs⟩,
    fun h => ⟨⟨fun s hs => (h s hs).1, hn⟩, fun s hs => (h s hs).2⟩⟩

theorem plain_iff (norm : String → Option String) (times : List String) (n : ℕ)
    (hn : ∀ t ∈ times, (norm t).isSome) (sel : Option (List Item)) :
    plainSelection norm times n sel = .ok () ↔ SelectionOk norm (some times) n sel := by
  cases sel with
  | none => simp [plainSelection, SelectionOk]
  | some l =>
    have key : plainSelection norm times n (some l) = .ok () ↔
        ∃ r, resolveTimes norm times n (some l) = .ok r := by
      simp only [plainSelection, resolveTimes]
      cases validateTimes norm times n l with
      | error e => simp
      | ok u => simp only [true_iff]; split_ifs <;> exact ⟨_, rfl⟩
    rw [key, Selection.Props.times_accepted_iff norm times n hn]
    simp [SelectionOk]

theorem flexible_selection_iff (norm : String → Option String) (T : ℕ) (times : Option (List String))
    (hn : ∀ ts, times = some ts → ∀ t ∈ ts, (norm t).isSome) (sel : Option (List Item)) :
    flexibleSelection norm T times sel = .ok () ↔ SelectionOk norm times T sel := by
  cases sel with
  | none => simp [flexibleSelection, SelectionOk]
  | some l =>
    simp only [flexibleSelection, SelectionOk, Option.some.injEq, forall_eq']
    by_cases h0 : l = []
    · subst h0; simp
    rw [if_neg (by simpa using h0)]
    by_cases h1 : isBoolList l = true ∧ l.length = T
    · rw [if_pos h1]
      simp only [true_iff]
      exact .inr (.inl ⟨(boolList_iff l).1 h1.1, h1.2⟩)
    · rw [if_neg h1]
      have h1' : ¬ ((∀ i ∈ l, ∃ b, i = Item.flag b) ∧ l.length = T) := by rw [← boolList_iff]; exact h1
      simp only [h0, h1', false_or]
      by_cases h2 : isStrList l = true
      · rw [if_pos h2]
        have h3 := (strList_iff l).1 h2
        cases ht : times with
        | none => simp
        | some ts =>
          simp only [Option.some.injEq, exists_eq_left']
          have hs := subset_iff norm ts (hn ts ht) l
          by_cases h4 : isNormalizedSubset norm (strs l) ts = true
          · rw [if_pos h4]
            simp only [true_iff]
            intro i hi
            obtain ⟨s, rfl⟩ := h3 i hi
            exact ⟨s, rfl, hs.1 h4 s hi⟩
          · rw [if_neg h4]
            simp only [reduceCtorEq, false_iff]
            intro h
            refine h4 (hs.2 fun s hs => ?_)
            obtain ⟨s', e, h⟩ := h _ hs
            cases e; exact h
      · rw [if_neg h2]
        simp only [reduceCtorEq, false_iff]
        rintro ⟨ts, -, h⟩
        exact h2 ((strList_iff l).2 fun i hi => by obtain ⟨s, e, _⟩ := h i hi; exact ⟨s, e⟩)

/-- **C91 (counterfactual accepted).** The data and the two selections of a counterfactual are accepted
exactly if the data is, for the variables the counterfactual uses, and each selection is empty, one flag for
each period or dates: among those of the model or, with modified times, among the coordinates given. -/
theorem counterfactual_accepted_iff (C : Ctx α) (hn : ∀ t ∈ C.times, (C.norm t).isSome)
    (hm : ∀ t ∈ C.mediaTimes, (C.norm t).isSome) (d : Data α)
    (ht : ∀ t, d .time = some t → ∀ x ∈ C.names t.val, (C.norm x).isSome)
    (baselineOk : Bool) (sel mediaSel : Option (List Item)) (nonPaid : Bool) :
    (∃ r, resolveCounterfactual C baselineOk d sel mediaSel nonPaid = .ok r) ↔ baselineOk = true ∧
      ∃ base, validateAndFill C (counterfactualFields nonPaid (modifiedTimes C d).isSome) true d = .ok base ∧
        (modifiedTimes C base = none → SelectionOk C.norm (some C.times) C.nTimes sel ∧
          SelectionOk C.norm (some C.mediaTimes) C.nMediaTimes mediaSel) ∧
        ∀ T, modifiedTimes C base = some T →
          SelectionOk C.norm ((d .time).map fun t => C.names t.val) T sel ∧
          SelectionOk C.norm ((d .time).map fun t => C.names t.val) T mediaSel := by
  have hreq : ∀ b c, Field.time ∉ counterfactualFields b c := by
    intro b c; cases b <;> cases c <;> decide
  unfold resolveCounterfactual
  cases baselineOk with
  | false => simp
  | true =>
    simp only [Bool.not_true, Bool.false_eq_true, if_false, true_and]
    cases hv : validateAndFill C (counterfactualFields nonPaid (modifiedTimes C d).isSome) true d with
    | error e => simp
    | ok base =>
      have hb : base .time = d .time := by
        unfold validateAndFill at hv
        split at hv
        · cases hv
        split at hv
        · cases hv
        split at hv
        · cases hv
        split at hv
        · cases hv
        unfold construct at hv
        split at hv
        · cases hv
        · cases hv
          rw [fill_eq]
          cases hd : d .time with
          | none => simp [hreq]
          | some s => simp
      simp only [Except.ok.injEq, exists_eq_left']
      cases hT : modifiedTimes C base with
      | none =>
        simp only [true_implies, reduceCtorEq, false_implies, implies_true, and_true]
        rw [← plain_iff C.norm C.times C.nTimes hn sel, ← plain_iff C.norm C.mediaTimes C.nMediaTimes hm mediaSel]
        cases plainSelection C.norm C.times C.nTimes sel with
        | error e => simp
        | ok u =>
          cases plainSelection C.norm C.mediaTimes C.nMediaTimes mediaSel with
          | error e => simp
          | ok u => simp
      | some T =>
        simp only [reduceCtorEq, false_implies, Option.some.injEq, forall_eq', true_and]
        rw [hb]
        have hn' : ∀ ts, (d .time).map (fun t => C.names t.val) = some ts → ∀ t ∈ ts, (C.norm t).isSome := by
          intro ts h
          cases hd : d .time with
          | none => rw [hd] at h; cases h
          | some t => rw [hd] at h; cases h; exact ht t hd
        rw [← flexible_selection_iff C.norm T _ hn' sel, ← flexible_selection_iff C.norm T _ hn' mediaSel]
        unfold validateFlexibleSelections
        cases flexibleSelection C.norm T ((d .time).map fun t => C.names t.val) sel with
        | error e => simp
        | ok u =>
          cases flexibleSelection C.norm T ((d .time).map fun t => C.names t.val) mediaSel with
          | error e => simp
          | ok u => simp

/-- **C91 (indices).** If there is one time coordinate for each period, the indices of an accepted selection of
geos and times are exactly the positions of the selected geos and times. -/
theorem indices_exact (C : Ctx α) (d : Data α) (sg : Option (List String)) (st : Option (List Item))
    (gi ti : Option (List ℕ)) (hg : C.geos.length = C.nGeos)
    (hl : (inputTimes C d).length = orDefault (modifiedTimes C d) C.nTimes)
    (h : package C d sg st = .ok (gi, ti)) :
    (∀ g, g ∈ Selection.axis C.nGeos gi ↔ g < C.nGeos ∧ Selection.Spec.geoSelected C.geos sg g) ∧
    ∀ t, t ∈ Selection.axis (orDefault (modifiedTimes C d) C.nTimes) ti ↔
      t < orDefault (modifiedTimes C d) C.nTimes ∧ Selection.Spec.timeSelected C.norm (inputTimes C d) st t := by
  unfold package at h
  cases h1 : resolveGeos C.geos sg with
  | error e => rw [h1] at h; cases h
  | ok g =>
    rw [h1] at h
    simp only at h
    cases h2 : resolveTimes C.norm (inputTimes C d) (orDefault (modifiedTimes C d) C.nTimes) st with
    | error e => rw [h2] at h; cases h
    | ok t =>
      rw [h2] at h
      cases h
      rw [← hl] at h2 ⊢
      rw [← hg]
      exact ⟨(Selection.Props.geo_indices_exact _ _ _ h1).2, (Selection.Props.time_indices_exact _ _ _ _ h2).2⟩

theorem lastN_self (l : List String) (n : ℕ) (h : l.length = n) : lastN n l = l := by
  unfold lastN
  split_ifs with h0
  · rfl
  · rw [h]; simp

/-- **C91 (mask).** If there is one time coordinate for each period, the media of a period is changed in a
counterfactual exactly if the period is selected. -/
theorem mask_exact (C : Ctx α) (baselineOk : Bool) (d : Data α) (sel mediaSel : Option (List Item))
    (nonPaid : Bool) (base : Data α) (T : Option ℕ)
    (h : resolveCounterfactual C baselineOk d sel mediaSel nonPaid = .ok (base, T))
    (hn : ∀ t ∈ C.mediaTimes, (C.norm t).isSome)
    (hb : ∀ t, base .time = some t → ∀ x ∈ C.names t.val, (C.norm x).isSome)
    (hm : C.mediaTimes.length = C.nMediaTimes)
    (ht : ∀ n t, T = some n → base .time = some t → (C.names t.val).length = n)
    (times : List String) (hx : T = none → times = C.mediaTimes)
    (hy : ∀ n t, T = some n → base .time = some t → times = C.names t.val)
    (hne : mediaSel ≠ some []) :
    ∀ t < T.getD C.nMediaTimes, maskAt (mediaMask C base T mediaSel) (T.getD C.nMediaTimes) t = some true ↔
      Selection.Spec.timeSelected C.norm times mediaSel t := by
  have hsel : ∀ n, T.getD C.nMediaTimes = n →
      SelectionOk C.norm (if T = none then some C.mediaTimes else (base .time).map fun t => C.names t.val) n
        mediaSel := by
    rintro n rfl
    unfold resolveCounterfactual at h
    split_ifs at h
    cases hv : validateAndFill C (counterfactualFields nonPaid (modifiedTimes C d).isSome) true d with
    | error e => rw [hv] at h; cases h
    | ok b =>
      rw [hv] at h
      simp only at h
      cases hT : modifiedTimes C b with
      | none =>
        rw [hT] at h
        simp only at h
        cases h1 : plainSelection C.norm C.times C.nTimes sel with
        | error e => rw [h1] at h; cases h
        | ok u =>
          rw [h1] at h
          simp only at h
          cases h2 : plainSelection C.norm C.mediaTimes C.nMediaTimes mediaSel with
          | error e => rw [h2] at h; cases h
          | ok u => rw [h2] at h; cases h; simpa using (plain_iff _ _ _ hn _).1 h2
      | some n =>
        rw [hT] at h
        simp only at h
        unfold validateFlexibleSelections at h
        cases h1 : flexibleSelection C.norm n ((b .time).map fun t => C.names t.val) sel with
        | error e => rw [h1] at h; cases h
        | ok u =>
          rw [h1] at h
          simp only at h
          cases h2 : flexibleSelection C.norm n ((b .time).map fun t => C.names t.val) mediaSel with
          | error e => rw [h2] at h; cases h
          | ok u =>
            rw [h2] at h
            cases h
            have := (flexible_selection_iff C.norm n _ (by
              intro ts hts
              cases hd : base .time with
              | none => rw [hd] at hts; cases hts
              | some t => rw [hd] at hts; cases hts; exact hb t hd) _).1 h2
            simpa using this
  have hok := hsel _ rfl
  intro t htl
  generalize hN : T.getD C.nMediaTimes = N at htl hok ⊢
  cases mediaSel with
  | none =>
    have e : (mediaMask C base T none) = List.replicate N true := by unfold mediaMask; rw [hN]
    unfold maskAt
    rw [e, List.length_replicate, if_pos rfl]
    simp [htl, Selection.Spec.timeSelected]
  | some l =>
    have hl0 : l ≠ [] := fun e => hne (by rw [e])
    rcases hok l rfl with e | ⟨e1, e2⟩ | ⟨ts, e1, e2⟩
    · exact absurd e hl0
    · have hs : ¬ isStrList l = true := by
        rw [strList_iff]
        intro hs
        obtain ⟨i, hi⟩ := List.exists_mem_of_ne_nil l hl0
        obtain ⟨b, rfl⟩ := e1 i hi
        obtain ⟨s, hs⟩ := hs _ hi
        cases hs
      simp only [mediaMask, if_neg hs]
      unfold maskAt
      rw [List.length_map, if_pos e2, List.getElem?_map]
      simp only [Selection.Spec.timeSelected]
      have hno : ∀ s, Item.str s ∉ l := by
        intro s hs'
        obtain ⟨b, hb⟩ := e1 _ hs'
        cases hb
      obtain ⟨b, hb⟩ := e1 l[t] (List.getElem_mem (by omega))
      rw [List.getElem?_eq_getElem (by omega), hb]
      simp [hno]
    · have hs : isStrList l = true := by
        rw [strList_iff]
        intro i hi
        obtain ⟨s, e, -⟩ := e2 i hi
        exact ⟨s, e⟩
      have hts : cfMediaTimes C base T = times ∧ times.length = N := by
        cases T with
        | none => exact ⟨by rw [hx rfl]; rfl, by rw [hx rfl, hm]; exact hN⟩
        | some n =>
          cases hd : base .time with
          | none => rw [hd] at e1; simp at e1
          | some u =>
            have h1 := ht n u rfl hd
            have h2 := hy n u rfl hd
            refine ⟨?_, by rw [h2, h1]; exact hN⟩
            simp only [cfMediaTimes, hd]
            rw [h2, lastN_self _ _ h1]
      simp only [mediaMask, if_pos hs]
      rw [hts.1]
      unfold maskAt
      rw [List.length_map, if_pos hts.2, List.getElem?_map]
      simp only [Selection.Spec.timeSelected]
      have hno : l[t]? ≠ some (Item.flag true) := by
        intro e
        obtain ⟨s, hs⟩ := (strList_iff l).1 hs _ (List.mem_of_getElem? e)
        cases hs
      rw [List.getElem?_eq_getElem (by omega)]
      simp [hno, Selection.Props.mem_strs]

/-! ### A model -/

/-- A model of two periods with one media channel and one control. -/
def demo : Ctx (List String) where
  nGeos := 1
  nTimes := 2
  nMediaTimes := 2
  nRf := 0
  hist
    | .media => some ⟨[1, 2, 1], []⟩
    | .mediaSpend => some ⟨[1, 2, 1], []⟩
    | .controls => some ⟨[1, 2, 1], []⟩
    | .time => some ⟨[2], ["a", "b"]⟩
    | _ => none
  names := id
  geos := ["g"]
  times := ["a", "b"]
  mediaTimes := ["a", "b"]
  norm := some

theorem demo_regular : Regular demo where
  dims := by
    intro f t h
    cases f <;> simp only [demo] at h <;> (try cases h) <;> decide
  geos := by
    intro f t h
    cases f <;> simp only [demo] at h <;> (try cases h) <;> decide
  rf := by decide
  time := by decide

/-- New media of some number of periods. -/
def newMedia (T : ℕ) : Data (List String)
  | .media => some ⟨[1, T, 1], []⟩
  | _ => none

theorem newMedia_wf (T : ℕ) : WellFormed (newMedia T) := by
  intro f t h
  cases f <;> simp only [newMedia] at h <;> (try cases h)
  simp [Tensor.ndim, dims]

example : (∃ x, validateAndFill demo (counterfactualFields true true) true (newMedia 3) = .ok x) ∧
    (∃ x, validateAndFill demo (counterfactualFields true false) true (newMedia 2) = .ok x) ∧
    ¬ ∃ x, validateAndFill demo (.controls :: counterfactualFields true true) true (newMedia 3) = .ok x :=
  ⟨⟨_, rfl⟩, ⟨_, rfl⟩, fun ⟨x, h⟩ => by cases h⟩

example : OnlyUsed (counterfactualFields true true) (newMedia 3) := by
  intro f h
  cases f <;> simp [newMedia, counterfactualFields, paidData] at h ⊢

/-- New media and another variable. -/
def newMediaAnd (T : ℕ) (g : Field) (t : Tensor (List String)) : Data (List String) := fun f =>
  if f = g then some t else newMedia T f

/-- The hypotheses of `counterfactual_accepted_iff` and `mask_exact` hold with new periods and their dates. -/
example : ∃ base, resolveCounterfactual demo true (newMediaAnd 3 .time ⟨[3], ["x", "y", "z"]⟩) none
      (some [.str "y"]) true = .ok (base, some 3) ∧
    (∀ n t, some 3 = some n → base .time = some t → (demo.names t.val).length = n) ∧
    (List.range 3).map (maskAt (mediaMask demo base (some 3) (some [.str "y"])) 3)
      = [some false, some true, some false] := by
  refine ⟨_, rfl, ?_, by decide⟩
  rintro n t ⟨⟩ h
  cases h
  rfl

/-- The hypotheses of `indices_exact` hold. -/
example : (inputTimes demo (newMediaAnd 3 .time ⟨[3], ["x", "y", "z"]⟩)).length
      = orDefault (modifiedTimes demo (newMediaAnd 3 .time ⟨[3], ["x", "y", "z"]⟩)) demo.nTimes ∧
    package demo (newMediaAnd 3 .time ⟨[3], ["x", "y", "z"]⟩) (some ["g"]) (some [.str "z"])
      = .ok (some [0], some [2]) := ⟨rfl, rfl⟩

/-- **C91 (finding).** A variable that an analysis does not use, and which it says it ignores, still counts for
the number of periods: media of the model's periods is accepted alone and refused together with spend of
another number of periods, which a counterfactual does not use. -/
theorem ignored_variable_refused :
    (∃ x, resolveCounterfactual demo true (newMedia 2) none none true = .ok x) ∧
    Field.mediaSpend ∉ counterfactualFields true true ∧ Field.mediaSpend ∉ counterfactualFields true false ∧
    ¬ ∃ x, resolveCounterfactual demo true (newMediaAnd 2 .mediaSpend ⟨[1, 3, 1], []⟩) none none true = .ok x :=
  ⟨⟨_, rfl⟩, by decide, by decide, fun ⟨x, h⟩ => by cases h⟩

/-- **C91 (finding).** The number of time coordinates is not checked when no number of periods is modified:
three coordinates for two periods are accepted, and a date resolves to a period that does not exist. -/
theorem time_count_unchecked : ∃ x,
    validateAndFill demo (.time :: counterfactualFields true false) true
      (newMediaAnd 2 .time ⟨[3], ["a", "b", "c"]⟩) = .ok x ∧ modifiedTimes demo x = none ∧
      package demo x none (some [.str "c"]) = .ok (none, some [2]) ∧ demo.nTimes = 2 :=
  ⟨_, rfl, by decide, rfl, rfl⟩

/-- **C91 (finding).** With modified periods the wrong number of time coordinates ends in an `IndexError`
instead of the message that explains it. -/
theorem time_count_index_error :
    validateAndFill demo (.time :: counterfactualFields true true) true
      (newMediaAnd 3 .time ⟨[2], ["a", "b"]⟩) = .error .index := rfl

/-- **C91 (finding).** A counterfactual does not check the number of time coordinates with modified periods
either: with one coordinate for three periods the selection of one date changes the media of all of them. -/
theorem one_date_changes_all : ∃ base,
    resolveCounterfactual demo true (newMediaAnd 3 .time ⟨[1], ["b"]⟩) none (some [.str "b"]) true
      = .ok (base, some 3) ∧
    ∀ t < 3, maskAt (mediaMask demo base (some 3) (some [.str "b"])) 3 t = some true := by
  refine ⟨_, rfl, ?_⟩
  decide

end Verif.NewData.Props

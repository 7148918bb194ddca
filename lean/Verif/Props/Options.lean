import Verif.Lemmas.Options
import Mathlib.Tactic.NormNum

/-!
# Options by channel, the model specification and the non-media baselines (C27, C41, C42, C50)
-/

namespace Verif.Options.Props

open Verif.Options Verif.Options.Spec Verif.Options.Lemmas

/-! ### Arguments by channel (C27) -/

/-- C27: the list built has one entry per channel, in the order of the channels; every channel gets
the value given under its own name, or else the default. -/
theorem args_aligned {α : Type} {coords : List String} {default : Option α}
    {kwargs : List (String × α)} (hd : IsDict kwargs) {r : List (Option α)}
    (h : buildArgs coords default kwargs = .ok r) :
    r.length = coords.length ∧ ∀ (i : ℕ) c, coords[i]? = some c →
      (∀ v, (c, v) ∈ kwargs → r[i]? = some (some v)) ∧
      (¬ HasKey kwargs c → r[i]? = some default) := by
  obtain ⟨-, -, rfl⟩ := (buildArgs_ok_iff _ _ _ _).1 h
  refine ⟨by simp, fun i c hi => ⟨fun v hv => ?_, fun hk => ?_⟩⟩
  · simp [hi, getArg_of_mem hd hv]
  · simp [hi, getArg_of_not_mem hk]

example : buildArgs ["display", "search", "social"] (some (3 : ℚ)) [("social", 25), ("display", 1)] =
    .ok [some 1, some 3, some 25] := by decide +kernel

/-- C27: without a default exactly the names of all channels must be given; with a default any names
may be.  (Python refuses the keyword `self`, so no channel may be called so.) -/
theorem args_accepted_iff {α : Type} (coords : List String) (default : Option α)
    (kwargs : List (String × α)) :
    (∃ r, buildArgs coords default kwargs = .ok r) ↔
      ¬ HasKey kwargs "self" ∧ (default = none → ∀ c, HasKey kwargs c ↔ c ∈ coords) := by
  constructor
  · rintro ⟨r, hr⟩
    obtain ⟨h1, h2, -⟩ := (buildArgs_ok_iff _ _ _ _).1 hr
    exact ⟨h1, h2⟩
  · rintro ⟨h1, h2⟩
    exact ⟨_, (buildArgs_ok_iff _ _ _ _).2 ⟨h1, h2, rfl⟩⟩

/-- C27: without a default, every entry of the list built is a value that was given. -/
theorem args_no_missing {α : Type} {coords : List String} {kwargs : List (String × α)}
    (hd : IsDict kwargs) {r : List (Option α)} (h : buildArgs coords none kwargs = .ok r) :
    ∀ o ∈ r, ∃ c v, o = some v ∧ (c, v) ∈ kwargs := by
  obtain ⟨-, h2, rfl⟩ := (buildArgs_ok_iff _ _ _ _).1 h
  intro o ho
  obtain ⟨c, hc, rfl⟩ := List.mem_map.1 ho
  obtain ⟨v, hv⟩ := (h2 rfl c).2 hc
  exact ⟨c, v, getArg_of_mem hd hv _, hv⟩

/-- C27: the order in which the arguments are given is irrelevant. -/
theorem args_order_irrelevant {α : Type} (coords : List String) (default : Option α)
    {kwargs kwargs' : List (String × α)} (hd : IsDict kwargs) (hp : kwargs.Perm kwargs') :
    buildArgs coords default kwargs = buildArgs coords default kwargs' := by
  have hk : ∀ c, HasKey kwargs c ↔ HasKey kwargs' c := fun c =>
    ⟨fun ⟨v, hv⟩ => ⟨v, hp.mem_iff.1 hv⟩, fun ⟨v, hv⟩ => ⟨v, hp.mem_iff.2 hv⟩⟩
  have hl : (kwargs.map Prod.fst).contains "self" = (kwargs'.map Prod.fst).contains "self" := by
    rw [Bool.eq_iff_iff, List.contains_iff_mem, List.contains_iff_mem, hasKey_iff, hasKey_iff, hk]
  have hs : sameSet (kwargs.map Prod.fst) coords = sameSet (kwargs'.map Prod.fst) coords := by
    rw [Bool.eq_iff_iff, sameSet_iff, sameSet_iff]
    simp only [hasKey_iff, hk]
  have hg : getArg kwargs default = getArg kwargs' default :=
    funext fun c => getArg_perm hd hp default c
  unfold buildArgs
  rw [hl, hs, hg]

/-- C27, not so with a default: a value given under a name that is not a channel is ignored without
an error, so that a misspelt name silently gives the default. -/
theorem unknown_name_ignored {α : Type} (coords : List String) (d : α)
    (kwargs : List (String × α)) (c : String) (v : α) (hc : c ∉ coords) (hs : c ≠ "self") :
    buildArgs coords (some d) ((c, v) :: kwargs) = buildArgs coords (some d) kwargs := by
  have hg : coords.map (getArg ((c, v) :: kwargs) (some d)) = coords.map (getArg kwargs (some d)) := by
    refine List.map_congr_left fun x hx => ?_
    have hne : (x == c) = false := by
      rw [beq_eq_false_iff_ne]
      rintro rfl
      exact hc hx
    simp [getArg, List.lookup, hne]
  have hself : ("self" == c) = false := by
    rw [beq_eq_false_iff_ne]
    exact hs.symm
  have hkey : ((((c, v) :: kwargs).map Prod.fst).contains "self") =
      ((kwargs.map Prod.fst).contains "self") := by
    rw [List.map_cons, List.contains_cons, hself, Bool.false_or]
  unfold buildArgs
  rw [hg, hkey]
  simp

example : buildArgs ["tv", "radio"] (some "geometric") [("Radio", "binomial")] =
    .ok [some "geometric", some "geometric"] := by decide +kernel

/-- C27: a mapping of decay functions is accepted exactly if all its keys are channels of the data
(and none is called `self`) and all its values are decay functions. -/
theorem decay_accepted_iff (c : Channels) {m : List (String × String)} (hd : IsDict m) :
    (∃ s, adstockDecaySpec c (.byChannel m) = .ok s) ↔
      ∀ ch f, (ch, f) ∈ m → Known c ch ∧ ch ≠ "self" ∧ (f = "geometric" ∨ f = "binomial") := by
  have hvalid : ∀ f, validDecay f = true ↔ f = "geometric" ∨ f = "binomial" := by
    intro f
    simp [validDecay]
  have hfuns : ∀ (o : Option (List String)) (f : Funs), typeFuns "geometric" m o = .ok f →
      (funsValid f = true ↔ ∀ l, o = some l → ∀ ch ∈ l, ∀ v, (ch, v) ∈ m →
        v = "geometric" ∨ v = "binomial") := by
    intro o f hf
    obtain ⟨rfl, rfl⟩ | ⟨l, rfl, -, rfl⟩ := (typeFuns_ok_iff _ _ _ _).1 hf
    · simp [funsValid, validDecay]
    · simp only [funsValid, List.all_map, List.all_eq_true, Function.comp_apply,
        Option.some.injEq, forall_eq']
      constructor
      · intro h ch hch v hv
        have := h ch hch
        rw [getArg_of_mem hd hv] at this
        simpa [hvalid] using this
      · intro h ch hch
        by_cases hk : HasKey m ch
        · obtain ⟨v, hv⟩ := hk
          rw [getArg_of_mem hd hv]
          simpa [hvalid] using h ch hch v hv
        · rw [getArg_of_not_mem hk]
          simp [hvalid]
  constructor
  · rintro ⟨s, hs⟩ ch f hf
    simp only [adstockDecaySpec] at hs
    cases hm : fromMap "geometric" c m with
    | error e =>
      rw [hm] at hs
      exact absurd hs (by simp)
    | ok s' =>
      rw [hm] at hs
      simp only [decaySpec] at hs
      split_ifs at hs with hv
      obtain ⟨h1, h2⟩ := (fromMap_exists_iff _ _ _).1 ⟨s', hm⟩
      obtain ⟨-, a1, a2, a3, a4⟩ := (fromMap_ok_iff _ _ _ _).1 hm
      refine ⟨h1 ch ⟨f, hf⟩, ?_, ?_⟩
      · rintro rfl
        exact h2 ⟨f, hf⟩
      · simp only [List.all_cons, List.all_nil, Bool.and_true, Bool.and_eq_true] at hv
        rw [hfuns _ _ a1, hfuns _ _ a2, hfuns _ _ a3, hfuns _ _ a4] at hv
        obtain ⟨l, hl, hch⟩ := h1 ch ⟨f, hf⟩
        rcases hl with e | e | e | e
        · exact hv.1 l e ch hch f hf
        · exact hv.2.1 l e ch hch f hf
        · exact hv.2.2.1 l e ch hch f hf
        · exact hv.2.2.2 l e ch hch f hf
  · intro h
    obtain ⟨s, hs⟩ := (fromMap_exists_iff "geometric" c m).2
      ⟨fun ch ⟨f, hf⟩ => (h ch f hf).1, fun ⟨f, hf⟩ => (h _ f hf).2.1 rfl⟩
    obtain ⟨-, a1, a2, a3, a4⟩ := (fromMap_ok_iff _ _ _ _).1 hs
    refine ⟨s, ?_⟩
    simp only [adstockDecaySpec, hs, decaySpec]
    rw [if_pos]
    simp only [List.all_cons, List.all_nil, Bool.and_true, Bool.and_eq_true]
    rw [hfuns _ _ a1, hfuns _ _ a2, hfuns _ _ a3, hfuns _ _ a4]
    exact ⟨fun l _ ch _ v hv => (h ch v hv).2.2, fun l _ ch _ v hv => (h ch v hv).2.2,
      fun l _ ch _ v hv => (h ch v hv).2.2, fun l _ ch _ v hv => (h ch v hv).2.2⟩

/-- C27: with a mapping of decay functions every channel of every type has the decay function given
under its name, or the geometric one. -/
theorem decay_by_channel (c : Channels) {m : List (String × String)} (hd : IsDict m) {s : FunSpec}
    (h : adstockDecaySpec c (.byChannel m) = .ok s) : SpecRight m "geometric" c s := by
  simp only [adstockDecaySpec] at h
  cases hm : fromMap "geometric" c m with
  | error e =>
    rw [hm] at h
    exact absurd h (by simp)
  | ok s' =>
    rw [hm] at h
    simp only [decaySpec] at h
    split_ifs at h
    cases h
    obtain ⟨-, a1, a2, a3, a4⟩ := (fromMap_ok_iff _ _ _ _).1 hm
    exact ⟨typeFuns_right hd a1, typeFuns_right hd a2, typeFuns_right hd a3, typeFuns_right hd a4⟩

/-- C27: a mapping of saturation functions is accepted exactly if all its keys are channels of the
data (and none is called `self`), and then every channel has the function given under its name, or
the Hill function. -/
theorem saturation_by_channel (c : Channels) {m : List (String × String)} (hd : IsDict m) :
    ((∃ s, saturationSpec c (.byChannel m) = .ok s) ↔
      ∀ ch f, (ch, f) ∈ m → Known c ch ∧ ch ≠ "self") ∧
    ∀ s, saturationSpec c (.byChannel m) = .ok s → SpecRight m "hill" c s := by
  refine ⟨?_, fun s hs => ?_⟩
  · simp only [saturationSpec, fromMap_exists_iff]
    constructor
    · rintro ⟨h1, h2⟩ ch f hf
      refine ⟨h1 ch ⟨f, hf⟩, ?_⟩
      rintro rfl
      exact h2 ⟨f, hf⟩
    · intro h
      exact ⟨fun ch ⟨f, hf⟩ => (h ch f hf).1, fun ⟨f, hf⟩ => (h _ f hf).2 rfl⟩
  · obtain ⟨-, a1, a2, a3, a4⟩ := (fromMap_ok_iff _ _ _ _).1 hs
    exact ⟨typeFuns_right hd a1, typeFuns_right hd a2, typeFuns_right hd a3, typeFuns_right hd a4⟩

/-- One function for all channels is one of the two decay functions, and all channels have it. -/
theorem decay_for_all (c : Channels) (f : String) :
    ((∃ s, adstockDecaySpec c (.all f) = .ok s) ↔ f = "geometric" ∨ f = "binomial") ∧
    ∀ s, adstockDecaySpec c (.all f) = .ok s → ∀ i, funAt s.media i = some f ∧
      funAt s.rf i = some f ∧ funAt s.organicMedia i = some f ∧ funAt s.organicRf i = some f := by
  simp only [adstockDecaySpec, decaySpec]
  split_ifs with h
  · refine ⟨?_, ?_⟩
    · simp only [List.all_cons, funsValid, validDecay, List.all_nil, Bool.and_true, Bool.and_self,
        Bool.or_eq_true, beq_iff_eq] at h
      simp [h]
    · rintro s e i
      cases e
      simp [funAt]
  · refine ⟨?_, fun s e => absurd e (by simp)⟩
    simp only [List.all_cons, funsValid, validDecay, List.all_nil, Bool.and_true, Bool.and_self,
      Bool.or_eq_true, beq_iff_eq] at h
    simpa using h

/-- Two channel types, a mapping of one channel of each. -/
example : adstockDecaySpec { media := some ["tv", "radio"], organicRf := some ["blog", "press"] }
    (.byChannel [("press", "binomial"), ("tv", "binomial")]) =
      .ok ⟨.each [some "binomial", some "geometric"], .one "geometric", .one "geometric",
        .each [some "geometric", some "binomial"]⟩ := by decide +kernel

example : adstockDecaySpec { media := some ["tv", "radio"] } (.byChannel [("TV", "binomial")]) =
    .error .unknownChannel := by decide +kernel

/-! ### The model specification (C42) -/

private theorem effectiveMedia_iff (s : Options.Spec) (t : String) :
    PriorType s.mediaPriorType s.paidMediaPriorType t ↔ effectiveMedia s = t := by
  unfold PriorType effectiveMedia
  cases s.mediaPriorType <;> cases s.paidMediaPriorType <;> simp [eq_comm]

private theorem effectiveRf_iff (s : Options.Spec) (t : String) :
    PriorType s.rfPriorType s.paidMediaPriorType t ↔ effectiveRf s = t := by
  unfold PriorType effectiveRf
  cases s.rfPriorType <;> cases s.paidMediaPriorType <;> simp [eq_comm]

private theorem calibrationErr_iff (sh : Option (List ℕ)) (t : String) :
    calibrationErr sh t = none ↔ ∀ l, sh = some l → t = "roi" ∧ l.length = 2 := by
  cases sh with
  | none => simp [calibrationErr]
  | some l =>
    simp only [calibrationErr]
    split_ifs with h1 h2
    · simp only [bne_iff_ne] at h1
      simp [h1]
    · simp only [bne_iff_ne] at h2
      simp [h2]
    · simp only [bne_iff_ne, not_not] at h1 h2
      simp [h1, h2]

private theorem knotsErr_iff (k : Knots) (a : Bool) : knotsErr k a = none ↔
    k = .none ∨ a = false ∧ ((∃ n, k = .int n ∧ n ≠ 0) ∨
      ∃ l : List ℤ, k = .coll (l.map some) ∧ l ≠ []) := by
  cases k with
  | none => simp [knotsErr]
  | int n =>
    by_cases h0 : n = 0
    · simp [knotsErr, h0]
    · cases a <;> simp [knotsErr, h0]
  | coll l =>
    simp only [knotsErr]
    have hl : l.all Option.isSome = true ↔ ∃ l' : List ℤ, l = l'.map some := by
      constructor
      · intro h
        refine ⟨l.filterMap id, ?_⟩
        induction l with
        | nil => rfl
        | cons x l ih =>
          rw [List.all_cons, Bool.and_eq_true] at h
          obtain ⟨v, rfl⟩ := Option.isSome_iff_exists.1 h.1
          simp only [List.filterMap_cons, id, List.map_cons, List.cons.injEq, true_and]
          exact ih h.2
      · rintro ⟨l', rfl⟩
        simp
    by_cases h1 : l.all Option.isSome = true
    · obtain ⟨l', rfl⟩ := hl.1 h1
      simp only [h1, Bool.not_true, Bool.false_eq_true, if_false]
      cases l' with
      | nil => simp
      | cons x xs =>
        cases a
        · simp only [List.map_cons, List.isEmpty_cons, Bool.false_eq_true, if_false, true_iff]
          exact Or.inr ⟨trivial, Or.inr ⟨x :: xs, by simp, by simp⟩⟩
        · simp
    · simp only [h1, Bool.not_false, if_true, reduceCtorEq, false_and, exists_false, false_or,
        false_iff, not_and, not_exists]
      rintro - l' e -
      cases e
      exact h1 (hl.2 ⟨l', rfl⟩)
  | other => cases a <;> simp [knotsErr]

private theorem saturationErr_iff (c : Choice) : saturationErr c = none ↔
    (∃ f, c = .all f ∧ (f = "hill" ∨ f = "none")) ∨
      ∃ m, c = .byChannel m ∧ ∀ ch f, (ch, f) ∈ m → f = "hill" ∨ f = "none" := by
  cases c with
  | all f =>
    simp [saturationErr]
    tauto
  | byChannel m =>
    simp only [saturationErr]
    split_ifs with h
    · simp only [false_and, exists_false, false_or, true_iff]
      refine ⟨m, rfl, fun ch f hf => ?_⟩
      simpa using List.all_eq_true.1 h _ hf
    · simp only [false_and, exists_false, false_or, false_iff, not_exists, not_and]
      rintro m' e h'
      cases e
      refine h (List.all_eq_true.2 ?_)
      rintro ⟨ch, f⟩ hf
      simpa using h' ch f hf
  | other => simp [saturationErr]

/-- C42: a model specification is accepted exactly if it is coherent. -/
theorem spec_accepted_iff (s : Options.Spec) : specErr s = none ↔ Coherent s := by
  have hpaid : ∀ t, paidTypes.contains t = true ↔
      t = "roi" ∨ t = "mroi" ∨ t = "coefficient" ∨ t = "contribution" := by
    intro t
    simp [paidTypes]
  have hnon : ∀ t, nonPaidTypes.contains t = true ↔ t = "coefficient" ∨ t = "contribution" := by
    intro t
    simp [nonPaidTypes]
  have key : specErr s = none ↔
      (s.mediaEffectsDist = "normal" ∨ s.mediaEffectsDist = "log_normal") ∧
      (s.paidMediaPriorType = none ∨ s.mediaPriorType = none ∧ s.rfPriorType = none) ∧
      paidTypes.contains (effectiveMedia s) = true ∧ paidTypes.contains (effectiveRf s) = true ∧
      nonPaidTypes.contains s.organicMediaPriorType = true ∧
      nonPaidTypes.contains s.organicRfPriorType = true ∧
      nonPaidTypes.contains s.nonMediaPriorType = true ∧
      calibrationErr s.roiCalibration (effectiveMedia s) = none ∧
      calibrationErr s.rfRoiCalibration (effectiveRf s) = none ∧
      knotsErr s.knots s.enableAks = none ∧ saturationErr s.saturation = none := by
    have he : (["normal", "log_normal"].contains s.mediaEffectsDist) = true ↔
        s.mediaEffectsDist = "normal" ∨ s.mediaEffectsDist = "log_normal" := by simp
    have hp : ¬ (s.paidMediaPriorType.isSome &&
        (s.mediaPriorType.isSome || s.rfPriorType.isSome)) = true ↔
        s.paidMediaPriorType = none ∨ s.mediaPriorType = none ∧ s.rfPriorType = none := by
      cases s.paidMediaPriorType <;> cases s.mediaPriorType <;> cases s.rfPriorType <;> simp
    rw [← he, ← hp]
    unfold specErr
    split_ifs with h1 h2 h3 h4 h5 h6 h7
    · simp only [Bool.not_eq_true'] at h1
      simp only [h1, Bool.false_eq_true, false_and]
    · simp only [h2, not_true_eq_false, false_and, and_false]
    · simp only [Bool.not_eq_true'] at h3
      simp only [h3, Bool.false_eq_true, false_and, and_false]
    · simp only [Bool.not_eq_true'] at h4
      simp only [h4, Bool.false_eq_true, false_and, and_false]
    · simp only [Bool.not_eq_true'] at h5
      simp only [h5, Bool.false_eq_true, false_and, and_false]
    · simp only [Bool.not_eq_true'] at h6
      simp only [h6, Bool.false_eq_true, false_and, and_false]
    · simp only [Bool.not_eq_true'] at h7
      simp only [h7, Bool.false_eq_true, false_and, and_false]
    · simp only [Bool.not_eq_true, Bool.not_eq_false'] at h1 h3 h4 h5 h6 h7
      rw [h1, h3, h4, h5, h6, h7]
      simp only [h2, true_and]
      cases calibrationErr s.roiCalibration (effectiveMedia s) with
      | some e => simp
      | none =>
        cases calibrationErr s.rfRoiCalibration (effectiveRf s) with
        | some e => simp
        | none =>
          cases knotsErr s.knots s.enableAks with
          | some e => simp
          | none => simp
  rw [key, hpaid, hpaid, hnon, hnon, hnon, calibrationErr_iff, calibrationErr_iff, knotsErr_iff,
    saturationErr_iff]
  constructor
  · rintro ⟨h1, h2, h3, h4, h5, h6, h7, h8, h9, h10, h11⟩
    refine ⟨h1, h2, ?_, ?_, ?_, ?_, h10, h11⟩
    · intro o ho t ht
      rcases List.mem_cons.1 ho with rfl | ho
      · rw [effectiveMedia_iff] at ht
        exact ht ▸ h3
      · rw [List.mem_singleton] at ho
        subst ho
        rw [effectiveRf_iff] at ht
        exact ht ▸ h4
    · intro t ht
      simp only [List.mem_cons, List.not_mem_nil, or_false] at ht
      rcases ht with rfl | rfl | rfl
      · exact h5
      · exact h6
      · exact h7
    · intro sh hsh
      rw [effectiveMedia_iff]
      exact h8 sh hsh
    · intro sh hsh
      rw [effectiveRf_iff]
      exact h9 sh hsh
  · intro h
    refine ⟨h.effects, h.common, h.paid s.mediaPriorType (by simp) _ ((effectiveMedia_iff _ _).2 rfl),
      h.paid s.rfPriorType (by simp) _ ((effectiveRf_iff _ _).2 rfl), h.nonPaid _ (by simp),
      h.nonPaid _ (by simp), h.nonPaid _ (by simp), ?_, ?_, h.knots, h.saturation⟩
    · intro sh hsh
      rw [← effectiveMedia_iff]
      exact h.roiCalibration sh hsh
    · intro sh hsh
      rw [← effectiveRf_iff]
      exact h.rfRoiCalibration sh hsh

/-- C42: the prior types in force are the specific one, else the common one, else ROI. -/
theorem effective_prior_types (s : Options.Spec) (t : String) :
    (effectiveMedia s = t ↔ PriorType s.mediaPriorType s.paidMediaPriorType t) ∧
    (effectiveRf s = t ↔ PriorType s.rfPriorType s.paidMediaPriorType t) :=
  ⟨(effectiveMedia_iff s t).symm, (effectiveRf_iff s t).symm⟩

/-- The default specification, and one with calibration and a list of knots. -/
example : Coherent {} ∧ Coherent { roiCalibration := some [10, 2], knots := .coll [some 0, some 4] } :=
  ⟨(spec_accepted_iff _).1 (by decide +kernel), (spec_accepted_iff _).1 (by decide +kernel)⟩

/-- A calibration period with an mROI prior is not coherent. -/
example : ¬ Coherent { mediaPriorType := some "mroi", roiCalibration := some [10, 2] } := fun h =>
  absurd ((spec_accepted_iff _).2 h) (by decide +kernel)

/-- C42, not so: the maximal lag is not checked by the specification; any integer is accepted, it is
the adstock computation that rejects a negative one. -/
theorem max_lag_unchecked (s : Options.Spec) (lag : ℤ) :
    specErr { s with maxLag := lag } = specErr s := rfl

/-- C42, not so: a negative number of knots is accepted by the specification; it is the computation
of the knots that rejects it. -/
theorem negative_knots_accepted : ∃ s : Options.Spec, s.knots = .int (-3) ∧ specErr s = none :=
  ⟨{ knots := .int (-3) }, rfl, by decide +kernel⟩

/-! ### The specification and the data (C50) -/

private theorem badShape_iff (x : Option (List ℕ)) (e : List ℕ) :
    badShape x e = true ↔ ∃ sh, x = some sh ∧ sh ≠ e := by
  cases x <;> simp [badShape]

/-- C50: the options are accepted exactly if their shapes fit the data. -/
theorem shapes_accepted_iff (z : Sizes) (s : Shapes) : shapesOk z s = true ↔ Fits z s := by
  unfold shapesOk
  constructor
  · intro h
    split_ifs at h with h1 h2 h3 h4 h5 h6
    rw [badShape_iff] at h1 h2 h5 h6
    rw [Bool.and_eq_true, badShape_iff] at h3 h4
    simp only [not_exists, not_and, not_not, beq_iff_eq, Bool.not_eq_true', beq_eq_false_iff_ne]
      at h1 h2 h3 h4 h5 h6
    exact ⟨h1, h2, fun sh hsh => ⟨fun hg => h3 hg sh hsh, fun hg => h4 hg sh hsh⟩, h5, h6⟩
  · intro h
    rw [if_neg, if_neg, if_neg, if_neg, if_neg, if_neg]
    · rw [badShape_iff]
      rintro ⟨sh, hsh, hne⟩
      exact hne (h.nonMedia sh hsh)
    · rw [badShape_iff]
      rintro ⟨sh, hsh, hne⟩
      exact hne (h.controls sh hsh)
    · rw [Bool.and_eq_true, badShape_iff]
      rintro ⟨hg, sh, hsh, hne⟩
      exact hne ((h.holdout sh hsh).2 (by simpa using hg))
    · rw [Bool.and_eq_true, badShape_iff]
      rintro ⟨hg, sh, hsh, hne⟩
      exact hne ((h.holdout sh hsh).1 (by simpa using hg))
    · rw [badShape_iff]
      rintro ⟨sh, hsh, hne⟩
      exact hne (h.rfRoi sh hsh)
    · rw [badShape_iff]
      rintro ⟨sh, hsh, hne⟩
      exact hne (h.roi sh hsh)

example : Fits ⟨3, 10, 12, 2, 1, 4, 0⟩ { roiCalibration := some [12, 2], holdout := some [3, 10] } :=
  (shapes_accepted_iff _ _).1 (by decide +kernel)

example : ¬ Fits ⟨1, 10, 12, 2, 1, 4, 0⟩ { holdout := some [1, 10] } := fun h =>
  absurd ((shapes_accepted_iff _ _).2 h) (by decide +kernel)

/-! ### Non-media baselines (C41) -/

private theorem mem_values (x : ℕ → ℕ → ℚ) (G T : ℕ) (q : ℚ) :
    q ∈ values x G T ↔ ∃ g < G, ∃ t < T, x g t = q := by
  simp [values]

private theorem baselineOf_ok {x : ℕ → ℕ → ℚ} {G T : ℕ} {b : Baseline} {q : ℚ}
    (h : baselineOf x G T b = .ok q) : IsBaseline x G T b q := by
  cases b with
  | num r =>
    simp only [baselineOf, Except.ok.injEq] at h
    subst h
    exact Or.inr (Or.inr rfl)
  | str s =>
    simp only [baselineOf] at h
    split_ifs at h with h1 h2
    · rw [beq_iff_eq] at h1
      cases hm : (values x G T).min? with
      | none =>
        rw [hm] at h
        exact absurd h (by simp)
      | some r =>
        rw [hm] at h
        cases h
        obtain ⟨h3, h4⟩ := List.min?_eq_some_iff.1 hm
        refine Or.inl ⟨by rw [h1], (mem_values _ _ _ _).1 h3, fun g hg t ht => ?_⟩
        exact h4 _ ((mem_values _ _ _ _).2 ⟨g, hg, t, ht, rfl⟩)
    · rw [beq_iff_eq] at h2
      cases hm : (values x G T).max? with
      | none =>
        rw [hm] at h
        exact absurd h (by simp)
      | some r =>
        rw [hm] at h
        cases h
        obtain ⟨h3, h4⟩ := List.max?_eq_some_iff.1 hm
        refine Or.inr (Or.inl ⟨by rw [h2], (mem_values _ _ _ _).1 h3, fun g hg t ht => ?_⟩)
        exact h4 _ ((mem_values _ _ _ _).2 ⟨g, hg, t, ht, rfl⟩)

private theorem baselineOf_exists {x : ℕ → ℕ → ℚ} {G T : ℕ} (hG : 0 < G) (hT : 0 < T)
    (b : Baseline) : (∃ q, baselineOf x G T b = .ok q) ↔ ∀ s, b = .str s → s = "min" ∨ s = "max" := by
  have hv : values x G T ≠ [] := by
    intro e
    have := (mem_values x G T (x 0 0)).2 ⟨0, hG, 0, hT, rfl⟩
    rw [e] at this
    simp at this
  cases b with
  | num r => simp [baselineOf]
  | str s =>
    simp only [baselineOf]
    split_ifs with h1 h2
    · rw [beq_iff_eq] at h1
      cases hm : (values x G T).min? with
      | none => exact absurd (List.min?_eq_none_iff.1 hm) hv
      | some r => simp [h1]
    · rw [beq_iff_eq] at h2
      cases hm : (values x G T).max? with
      | none => exact absurd (List.max?_eq_none_iff.1 hm) hv
      | some r => simp [h2]
    · rw [beq_iff_eq] at h1 h2
      simp [h1, h2]

private theorem baselineList_ok {x : ℕ → ℕ → ℕ → ℚ} {G T : ℕ} {bs : List Baseline} :
    ∀ {c : ℕ} {qs : List ℚ}, baselineList x G T c bs = .ok qs →
      qs.length = bs.length ∧ ∀ (i : ℕ) b q, bs[i]? = some b → qs[i]? = some q →
        IsBaseline (fun g t => x g t (c + i)) G T b q := by
  induction bs with
  | nil =>
    intro c qs h
    simp only [baselineList, Except.ok.injEq] at h
    subst h
    simp
  | cons b bs ih =>
    intro c qs h
    simp only [baselineList] at h
    cases hb : baselineOf (fun g t => x g t c) G T b with
    | error e =>
      rw [hb] at h
      exact absurd h (by simp)
    | ok q =>
      rw [hb] at h
      cases hl : baselineList x G T (c + 1) bs with
      | error e =>
        rw [hl] at h
        exact absurd h (by simp)
      | ok rs =>
        rw [hl] at h
        cases h
        obtain ⟨h1, h2⟩ := ih hl
        refine ⟨by simp [h1], fun i b' q' hi hq => ?_⟩
        cases i with
        | zero =>
          simp only [List.getElem?_cons_zero, Option.some.injEq] at hi hq
          subst hi hq
          exact baselineOf_ok hb
        | succ i =>
          simp only [List.getElem?_cons_succ] at hi hq
          have := h2 i b' q' hi hq
          rwa [Nat.add_assoc, Nat.add_comm 1 i] at this

private theorem baselineList_exists {x : ℕ → ℕ → ℕ → ℚ} {G T : ℕ} (hG : 0 < G) (hT : 0 < T)
    (bs : List Baseline) : ∀ c : ℕ, (∃ qs, baselineList x G T c bs = .ok qs) ↔
      ∀ s, .str s ∈ bs → s = "min" ∨ s = "max" := by
  induction bs with
  | nil => simp [baselineList]
  | cons b bs ih =>
    intro c
    have hb := baselineOf_exists (x := fun g t => x g t c) hG hT b
    have hl := ih (c + 1)
    constructor
    · rintro ⟨qs, h⟩ s hs
      simp only [baselineList] at h
      cases e1 : baselineOf (fun g t => x g t c) G T b with
      | error e =>
        rw [e1] at h
        exact absurd h (by simp)
      | ok q =>
        rw [e1] at h
        cases e2 : baselineList x G T (c + 1) bs with
        | error e =>
          rw [e2] at h
          exact absurd h (by simp)
        | ok rs =>
          rcases List.mem_cons.1 hs with e | hs
          · exact hb.1 ⟨q, e1⟩ s e.symm
          · exact hl.1 ⟨rs, e2⟩ s hs
    · intro h
      obtain ⟨q, e1⟩ := hb.2 fun s hs => h s (by simp [hs])
      obtain ⟨rs, e2⟩ := hl.2 fun s hs => h s (by simp [hs])
      exact ⟨q :: rs, by simp [baselineList, e1, e2]⟩

private theorem populationScaled_eq (x : ℕ → ℕ → ℕ → ℚ) (pop : ℕ → ℚ)
    (scalingId : Option (ℕ → Bool)) (g t c : ℕ) :
    populationScaled x pop scalingId g t c =
      perCapita x pop (fun c => (scalingId.map fun f => f c) = some true) c g t := by
  unfold populationScaled perCapita divideNoNan
  cases scalingId with
  | none => simp
  | some f => by_cases h : f c = true <;> simp [h]

/-- C41: when baselines are computed there is one per channel, and each is what the rule for its
channel asks for (of the argument, else of the specification, else the minimum), on values per
capita where population scaling is on. -/
theorem baseline_follows_rule {x : ℕ → ℕ → ℕ → ℚ} {G T C : ℕ} {population : ℕ → ℚ}
    {scalingId : Option (ℕ → Bool)} {given spec : Option (List Baseline)} {qs : List ℚ}
    (h : nonMediaBaseline x G T C population scalingId given spec = .ok qs) :
    qs.length = C ∧ ∀ c q, qs[(c : ℕ)]? = some q → ∃ rule,
      ((∃ l, (given = some l ∨ given = none ∧ spec = some l) ∧ l.length = C ∧ l[c]? = some rule) ∨
        given = none ∧ spec = none ∧ rule = .str "min") ∧
      IsBaseline (perCapita x population (fun c => (scalingId.map fun f => f c) = some true) c) G T
        rule q := by
  have hfun : populationScaled x population scalingId = fun g t c =>
      perCapita x population (fun c => (scalingId.map fun f => f c) = some true) c g t := by
    funext g t c
    exact populationScaled_eq x population scalingId g t c
  have main : ∀ l : List Baseline, (if C != l.length then .error .baselineLength
      else baselineList (populationScaled x population scalingId) G T 0 l) = .ok qs →
      l.length = C ∧ qs.length = C ∧ ∀ (c : ℕ) q, qs[c]? = some q → ∃ rule, l[c]? = some rule ∧
        IsBaseline (perCapita x population (fun c => (scalingId.map fun f => f c) = some true) c)
          G T rule q := by
    intro l hl
    split_ifs at hl with hc
    simp only [bne_iff_ne, not_not] at hc
    obtain ⟨h1, h2⟩ := baselineList_ok hl
    refine ⟨hc.symm, by rw [h1, hc], fun c q hq => ?_⟩
    have hlt : c < l.length := by
      rw [← h1]
      exact (List.getElem?_eq_some_iff.1 hq).1
    refine ⟨l[c], List.getElem?_eq_getElem hlt, ?_⟩
    have := h2 c _ q (List.getElem?_eq_getElem hlt) hq
    rw [hfun, Nat.zero_add] at this
    exact this
  unfold nonMediaBaseline at h
  cases given with
  | some l =>
    obtain ⟨h1, h2, h3⟩ := main l h
    refine ⟨h2, fun c q hq => ?_⟩
    obtain ⟨rule, hr, hb⟩ := h3 c q hq
    exact ⟨rule, Or.inl ⟨l, Or.inl rfl, h1, hr⟩, hb⟩
  | none =>
    cases spec with
    | some l =>
      obtain ⟨h1, h2, h3⟩ := main l h
      refine ⟨h2, fun c q hq => ?_⟩
      obtain ⟨rule, hr, hb⟩ := h3 c q hq
      exact ⟨rule, Or.inl ⟨l, Or.inr ⟨rfl, rfl⟩, h1, hr⟩, hb⟩
    | none =>
      obtain ⟨h1, h2, h3⟩ := main _ h
      refine ⟨h2, fun c q hq => ?_⟩
      obtain ⟨rule, hr, hb⟩ := h3 c q hq
      have := List.mem_of_getElem? hr
      rw [List.eq_of_mem_replicate this] at hb
      exact ⟨_, Or.inr ⟨rfl, rfl, rfl⟩, hb⟩

/-- C41: baselines are rejected exactly if their number is wrong or one is a string other than `min`
and `max`. -/
theorem baseline_accepted_iff {x : ℕ → ℕ → ℕ → ℚ} {G T C : ℕ} (hG : 0 < G) (hT : 0 < T)
    {population : ℕ → ℚ} {scalingId : Option (ℕ → Bool)} {given spec : Option (List Baseline)} :
    (∃ qs, nonMediaBaseline x G T C population scalingId given spec = .ok qs) ↔
      ∀ l, (given = some l ∨ given = none ∧ spec = some l) →
        l.length = C ∧ ∀ s, .str s ∈ l → s = "min" ∨ s = "max" := by
  have main : ∀ l : List Baseline, (∃ qs, (if C != l.length then .error .baselineLength
      else baselineList (populationScaled x population scalingId) G T 0 l) = .ok qs) ↔
      l.length = C ∧ ∀ s, .str s ∈ l → s = "min" ∨ s = "max" := by
    intro l
    split_ifs with hc
    · simp only [bne_iff_ne] at hc
      simp [Ne.symm hc]
    · simp only [bne_iff_ne, not_not] at hc
      rw [baselineList_exists hG hT]
      simp [hc]
  unfold nonMediaBaseline
  cases given with
  | some l => simpa using main l
  | none =>
    cases spec with
    | some l => simpa using main l
    | none =>
      simp only [reduceCtorEq, and_false, or_self, false_implies, implies_true, iff_true]
      refine (main _).2 ⟨by simp, fun s hs => ?_⟩
      have := List.eq_of_mem_replicate hs
      cases this
      exact Or.inl rfl

/-- Two geos and times, three channels, the second scaled by population; a maximum, a minimum and a
number. -/
example : nonMediaBaseline (fun g t c => (g : ℚ) * 10 + t + c) 2 2 3 (fun g => (g : ℚ) + 1)
    (some fun c => c == 1) (some [.str "max", .str "min", .num 7]) none = .ok [11, 1, 7] := by
  decide +kernel

end Verif.Options.Props

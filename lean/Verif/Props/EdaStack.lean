import Verif.Model.EdaStack
import Verif.Spec.EdaStack
import Mathlib.Tactic.Linarith

namespace Verif.EdaStack.Props

open Verif.EdaStack Verif.EdaStack.Spec

variable {α : Type}

/-! ### The order of the dimensions -/

theorem mem_firsts (l : List Dim) (d : Dim) : d ∈ firsts l ↔ d ∈ l := by
  induction l with
  | nil => simp [firsts]
  | cons e rest ih =>
    simp only [firsts, List.mem_cons, List.mem_filter, ih, decide_eq_true_eq]
    by_cases h : d = e <;> simp [h]

theorem nodup_firsts (l : List Dim) : (firsts l).Nodup := by
  induction l with
  | nil => simp [firsts]
  | cons e rest ih =>
    simp only [firsts, List.nodup_cons, List.mem_filter]
    exact ⟨by simp, ih.filter _⟩

theorem firsts_of_nodup {l : List Dim} (h : l.Nodup) : firsts l = l := by
  induction l with
  | nil => rfl
  | cons e rest ih =>
    obtain ⟨h1, h2⟩ := List.nodup_cons.1 h
    simp only [firsts, ih h2]
    congr 1
    rw [List.filter_eq_self]
    intro a ha
    simp only [ne_eq, decide_not, Bool.not_eq_eq_eq_not, Bool.not_true, decide_eq_false_iff_not]
    rintro rfl
    exact h1 ha

theorem filter_firsts (q : Dim → Bool) (l : List Dim) : (firsts l).filter q = firsts (l.filter q) := by
  induction l with
  | nil => rfl
  | cons e rest ih =>
    by_cases h : q e
    · simp only [firsts, List.filter_cons_of_pos h, ← ih, List.filter_filter]
      congr 2
      funext x
      exact Bool.and_comm _ _
    · rw [List.filter_cons_of_neg (by simpa using h), firsts, List.filter_cons_of_neg (by simpa using h), ← ih,
        List.filter_filter]
      apply List.filter_congr
      intro x _
      by_cases hx : x = e
      · subst hx; simp [h]
      · simp [hx]

/-- Fewer labels than series as soon as a dimension with labels occurs twice. -/
theorem length_firsts (coords : Dim → List String) (l : List Dim) :
    ((firsts l).flatMap coords).length ≤ (l.flatMap coords).length ∧
      (¬ l.Nodup → (∀ d ∈ l, coords d ≠ []) →
        ((firsts l).flatMap coords).length < (l.flatMap coords).length) := by
  have key : ∀ (m : List Dim) (e : Dim),
      ((m.filter (· ≠ e)).flatMap coords).length ≤ (m.flatMap coords).length ∧
        (e ∈ m → coords e ≠ [] →
          ((m.filter (· ≠ e)).flatMap coords).length < (m.flatMap coords).length) := by
    intro m e
    induction m with
    | nil => simp
    | cons x m ih =>
      by_cases hx : x = e
      · subst hx
        rw [List.filter_cons_of_neg (by simp)]
        simp only [List.flatMap_cons, List.length_append]
        refine ⟨by omega, fun _ hne => ?_⟩
        have : 0 < (coords x).length := List.length_pos_iff.2 hne
        omega
      · rw [List.filter_cons_of_pos (by simpa using hx)]
        simp only [List.flatMap_cons, List.length_append, List.mem_cons]
        refine ⟨by omega, fun hm hne => ?_⟩
        rcases hm with rfl | hm
        · exact absurd rfl hx
        · have := ih.2 hm hne
          omega
  induction l with
  | nil => simp [firsts]
  | cons e rest ih =>
    have hk := key (firsts rest) e
    simp only [firsts, List.flatMap_cons, List.length_append]
    refine ⟨by omega, fun hd hne => ?_⟩
    by_cases he : e ∈ rest
    · have := hk.2 ((mem_firsts _ _).2 he) (hne e (by simp))
      omega
    · have hr : ¬ rest.Nodup := fun h => hd (List.nodup_cons.2 ⟨he, h⟩)
      have := ih.2 hr fun d hd => hne d (by simp [hd])
      omega

/-! ### Stacking merged arrays -/

theorem isSample_iff (d : Dim) : isSample d = true ↔ Kept d := by
  cases d <;> simp [isSample, Kept]

theorem isSample_false {d : Dim} (h : ¬ Kept d) : isSample d = false := by
  rw [← isSample_iff] at h
  simpa using h

theorem chan_dims (coords : Dim → List String) (sample : List Dim) (hs : ∀ d ∈ sample, Kept d)
    (arrs : List (Arr α)) (h : ∀ a ∈ arrs, Fits coords sample a) :
    ((arrs.flatMap fun a => a.sample ++ a.chan.toList).filter fun d => !isSample d) =
      arrs.flatMap fun a => a.chan.toList := by
  induction arrs with
  | nil => rfl
  | cons a arrs ih =>
    obtain ⟨h1, d, h2, h3, -⟩ := h a (by simp)
    simp only [List.flatMap_cons, List.filter_append, ih fun b hb => h b (by simp [hb])]
    have e1 : a.sample.filter (fun d => !isSample d) = [] := by
      rw [List.filter_eq_nil_iff, h1]
      intro x hx
      simp [(isSample_iff x).2 (hs x hx)]
    rw [e1, h2]
    simp [isSample_false h3]

theorem series_length (coords : Dim → List String) (sample : List Dim) (arrs : List (Arr α))
    (h : ∀ a ∈ arrs, Fits coords sample a) :
    (arrs.flatMap Arr.values).length = ((arrs.flatMap fun a => a.chan.toList).flatMap coords).length := by
  induction arrs with
  | nil => rfl
  | cons a arrs ih =>
    obtain ⟨-, d, h2, -, h4⟩ := h a (by simp)
    simp only [List.flatMap_cons, List.flatMap_append, List.length_append, ih fun b hb => h b (by simp [hb])]
    rw [h2]
    simp [h4]

theorem zip_rows (coords : Dim → List String) (sample : List Dim) (arrs : List (Arr α))
    (h : ∀ a ∈ arrs, Fits coords sample a) :
    ((arrs.flatMap fun a => a.chan.toList).flatMap coords).zip (arrs.flatMap Arr.values) =
      arrs.flatMap (rows coords) := by
  induction arrs with
  | nil => rfl
  | cons a arrs ih =>
    obtain ⟨-, d, h2, -, h4⟩ := h a (by simp)
    simp only [List.flatMap_cons, List.flatMap_append]
    rw [h2]
    have : ([d].flatMap coords).length = a.values.length := by simp [h4]
    simp only [Option.toList_some]
    rw [List.zip_append this, ih fun b hb => h b (by simp [hb])]
    congr 1
    simp [rows, h2]

theorem none_missing (coords : Dim → List String) (sample : List Dim) (hs : ∀ d ∈ sample, Kept d)
    (arrs : List (Arr α)) (h : ∀ a ∈ arrs, Fits coords sample a) :
    (arrs.any fun v => ((firsts (arrs.flatMap fun a => a.sample ++ a.chan.toList)).filter isSample).any
      fun d => !(v.sample.contains d)) = false := by
  rw [List.any_eq_false]
  intro v hv
  rw [Bool.not_eq_true, List.any_eq_false]
  intro d hd
  obtain ⟨hd1, hd2⟩ := List.mem_filter.1 hd
  rw [mem_firsts, List.mem_flatMap] at hd1
  obtain ⟨a, ha, hda⟩ := hd1
  obtain ⟨h1, e, h2, h3, -⟩ := h a ha
  rw [List.mem_append, h1, h2] at hda
  rcases hda with hda | hda
  · rw [(h v hv).1]
    simpa using hda
  · simp at hda
    subst hda
    rw [isSample_false h3] at hd2
    cases hd2

/-- **C118 (stacking).** Arrays with channels, whose other dimensions are the same, are stacked if and only if
there is one and no two of them are on the same dimension; then the result has, array after array, each
channel's name with the channel's own series. -/
theorem stack_merge (coords : Dim → List String) (sample : List Dim) (hs : ∀ d ∈ sample, Kept d)
    (arrs : List (Arr α)) (h : ∀ a ∈ arrs, Fits coords sample a)
    (hne : ∀ a ∈ arrs, ∀ d, a.chan = some d → coords d ≠ []) (out : List (String × α)) :
    stackVariables (merge coords arrs) = .ok out ↔
      arrs ≠ [] ∧ (arrs.flatMap fun a => a.chan.toList).Nodup ∧ out = arrs.flatMap (rows coords) := by
  unfold stackVariables
  simp only [merge]
  simp only [none_missing coords sample hs arrs h, filter_firsts (fun d => !isSample d), chan_dims coords sample hs arrs h]
  by_cases he : arrs = []
  · subst he; simp
  have he' : arrs.isEmpty = false := by cases arrs <;> simp_all
  simp only [he', Bool.false_eq_true, if_false]
  by_cases hd : (arrs.flatMap fun a => a.chan.toList).Nodup
  · rw [firsts_of_nodup hd, if_neg (by rw [series_length coords sample arrs h]; simp),
      zip_rows coords sample arrs h]
    constructor
    · intro h; cases h; exact ⟨he, hd, rfl⟩
    · rintro ⟨-, -, rfl⟩; rfl
  · have hlt := (length_firsts coords (arrs.flatMap fun a => a.chan.toList)).2 hd (by
      intro d hd
      obtain ⟨a, ha, hda⟩ := List.mem_flatMap.1 hd
      exact hne a ha d (by simpa using hda))
    rw [if_pos (by rw [series_length coords sample arrs h]; omega)]
    constructor
    · intro h; cases h
    · rintro ⟨-, h, -⟩; exact absurd h hd

/-- The same without the demand that all dimensions have labels, for dimensions that differ. -/
theorem stack_distinct (coords : Dim → List String) (sample : List Dim) (hs : ∀ d ∈ sample, Kept d)
    (arrs : List (Arr α)) (h : ∀ a ∈ arrs, Fits coords sample a) (he : arrs ≠ [])
    (hd : (arrs.flatMap fun a => a.chan.toList).Nodup) :
    stackVariables (merge coords arrs) = .ok (arrs.flatMap (rows coords)) := by
  unfold stackVariables
  simp only [merge]
  simp only [none_missing coords sample hs arrs h, filter_firsts (fun d => !isSample d), chan_dims coords sample hs arrs h]
  have he' : arrs.isEmpty = false := by cases arrs <;> simp_all
  simp only [he', Bool.false_eq_true, if_false]
  rw [firsts_of_nodup hd, if_neg (by rw [series_length coords sample arrs h]; simp),
    zip_rows coords sample arrs h]

/-! ### The datasets of the engine -/

theorem fits_of (sample : List Dim) (p : Data α) (nds : List (String × Dim))
    (hk : ∀ nd ∈ nds, ¬ Kept nd.2) :
    ∀ a ∈ nds.filterMap (arrOf sample p), Fits (coordsOf p) sample a := by
  intro a ha
  obtain ⟨nd, hnd, harr⟩ := List.mem_filterMap.1 ha
  unfold arrOf at harr
  obtain ⟨cs, hcs, rfl⟩ := Option.map_eq_some_iff.1 harr
  refine ⟨rfl, nd.2, rfl, hk nd hnd, ?_⟩
  simp [coordsOf, hcs]

theorem zip_fst_snd (cs : List (String × α)) : (cs.map Prod.fst).zip (cs.map Prod.snd) = cs := by
  induction cs with
  | nil => rfl
  | cons c cs ih => simp [ih]

theorem rows_of (sample : List Dim) (p : Data α) (nds : List (String × Dim)) :
    (nds.filterMap (arrOf sample p)).flatMap (rows (coordsOf p)) = channels p (nds.map Prod.snd) := by
  induction nds with
  | nil => rfl
  | cons nd nds ih =>
    simp only [List.map_cons, channels, List.flatMap_cons] at ih ⊢
    rw [← ih, List.filterMap_cons]
    cases hp : p nd.2 with
    | none => simp [arrOf, hp]
    | some cs =>
      simp only [arrOf, hp, Option.map_some, List.flatMap_cons, Option.getD_some]
      congr 1
      simp only [rows, Option.map_some, Option.getD_some, coordsOf, hp]
      exact zip_fst_snd cs

theorem dims_sublist (sample : List Dim) (p : Data α) (nds : List (String × Dim)) :
    ((nds.filterMap (arrOf sample p)).flatMap fun a => a.chan.toList).Sublist (nds.map Prod.snd) := by
  induction nds with
  | nil => simp
  | cons nd nds ih =>
    rw [List.filterMap_cons]
    cases hp : p nd.2 with
    | none =>
      simp only [arrOf, hp, Option.map_none, List.map_cons]
      exact ih.cons _
    | some cs =>
      simp only [arrOf, hp, Option.map_some, List.flatMap_cons, List.map_cons, Option.toList_some]
      exact ih.cons_cons _

theorem dataset_rows (sample : List Dim) (hs : ∀ d ∈ sample, Kept d) (p : Data α)
    (nds : List (String × Dim)) (hk : ∀ nd ∈ nds, ¬ Kept nd.2) (hd : (nds.map Prod.snd).Nodup)
    (hp : SomePresent p (nds.map Prod.snd)) :
    stackVariables (merge (coordsOf p) (nds.filterMap (arrOf sample p))) =
      .ok (channels p (nds.map Prod.snd)) := by
  rw [stack_distinct (coordsOf p) sample hs _ (fits_of sample p nds hk) _
    (hd.sublist (dims_sublist sample p nds)), rows_of]
  intro hnil
  obtain ⟨d, hd, hsome⟩ := hp
  obtain ⟨nd, hnd, rfl⟩ := List.mem_map.1 hd
  rw [List.filterMap_eq_nil_iff] at hnil
  have := hnil nd hnd
  unfold arrOf at this
  rw [Option.map_eq_none_iff] at this
  rw [this] at hsome
  cases hsome

/-- **C118 (treatments and controls).** Whichever kinds of channels are present, the stacked treatments and
controls are all channels with their own series: paid, organic, controls, then other treatments. -/
theorem treatment_control_rows (sample : List Dim) (hs : ∀ d ∈ sample, Kept d) (p : Data α)
    (hp : SomePresent p [.mediaChannel, .rfChannel, .organicMediaChannel, .organicRfChannel, .controlVariable,
      .nonMediaChannel]) :
    stackVariables (merge (coordsOf p) (treatmentControl sample p)) =
      .ok (channels p [.mediaChannel, .rfChannel, .organicMediaChannel, .organicRfChannel, .controlVariable,
        .nonMediaChannel]) :=
  dataset_rows sample hs p _ (by simp [Kept]) (by simp) hp

/-- **C118 (spend and units).** The stacked spend and the stacked media units have the same labels in the same
order, if the spend and the units are given for the same channels. -/
theorem spend_units_aligned (sample : List Dim) (hs : ∀ d ∈ sample, Kept d) (spend units : Data α)
    (same : ∀ d, (spend d).map (List.map Prod.fst) = (units d).map (List.map Prod.fst))
    (hp : SomePresent spend [.mediaChannel, .rfChannel]) :
    ∃ s u, stackVariables (merge (coordsOf spend) (allSpend sample spend)) = .ok s ∧
      stackVariables (merge (coordsOf units) (paidUnits sample units)) = .ok u ∧
      s = channels spend [.mediaChannel, .rfChannel] ∧ u = channels units [.mediaChannel, .rfChannel] ∧
      s.map Prod.fst = u.map Prod.fst := by
  have hu : SomePresent units [.mediaChannel, .rfChannel] := by
    obtain ⟨d, hd, h⟩ := hp
    refine ⟨d, hd, ?_⟩
    have := congrArg Option.isSome (same d)
    simp only [Option.isSome_map] at this
    rw [← this]
    exact h
  refine ⟨_, _, dataset_rows sample hs spend [("media_spend", Dim.mediaChannel), ("rf_spend", .rfChannel)]
      (by simp [Kept]) (by simp) hp,
    dataset_rows sample hs units [("media", Dim.mediaChannel), ("rf_impressions", .rfChannel)]
      (by simp [Kept]) (by simp) hu, rfl, rfl, ?_⟩
  have hg : ∀ d, ((spend d).getD []).map Prod.fst = ((units d).getD []).map Prod.fst := by
    intro d
    have := same d
    cases h1 : spend d <;> cases h2 : units d <;> simp_all
  simp [channels, hg]

/-- **C118 (raw media).** The correlations with the population are of all paid and organic media. -/
theorem raw_media_rows (sample : List Dim) (hs : ∀ d ∈ sample, Kept d) (p : Data α)
    (hp : SomePresent p [.mediaChannel, .organicMediaChannel, .rfChannel, .organicRfChannel]) :
    stackVariables (merge (coordsOf p) (rawMedia sample p)) =
      .ok (channels p [.mediaChannel, .organicMediaChannel, .rfChannel, .organicRfChannel]) :=
  dataset_rows sample hs p _ (by simp [Kept]) (by simp) hp

theorem filter_arrs (sample : List Dim) (p : Data α) (q : Arr α → Bool) (q' : String × Dim → Bool)
    (h : ∀ nd a, arrOf sample p nd = some a → q a = q' nd) (nds : List (String × Dim)) :
    (nds.filterMap (arrOf sample p)).filter q = (nds.filter q').filterMap (arrOf sample p) := by
  induction nds with
  | nil => rfl
  | cons nd nds ih =>
    rw [List.filterMap_cons]
    cases ha : arrOf sample p nd with
    | none =>
      simp only
      rw [ih, List.filter_cons]
      split
      · rw [List.filterMap_cons, ha]
      · rfl
    | some a =>
      simp only
      rw [List.filter_cons, List.filter_cons, h nd a ha, ih]
      split
      · rw [List.filterMap_cons, ha]
      · rfl

theorem without_eq (sample : List Dim) (hs : ∀ d ∈ sample, Kept d) (p : Data α) :
    withoutNonMedia sample p = [("media_scaled", Dim.mediaChannel), ("rf_impressions_scaled", .rfChannel),
      ("organic_media_scaled", .organicMediaChannel), ("organic_rf_impressions_scaled", .organicRfChannel)].filterMap
        (arrOf sample p) := by
  have h1 : Dim.nonMediaChannel ∉ sample := fun h => by simpa [Kept] using hs _ h
  have h2 : Dim.controlVariable ∉ sample := fun h => by simpa [Kept] using hs _ h
  have h3 : (sample.any fun d => [Dim.nonMediaChannel, Dim.controlVariable].contains d) = false := by
    rw [List.any_eq_false]
    intro d hd
    simp only [List.contains_cons, List.contains_nil, Bool.or_false, Bool.or_eq_true, beq_iff_eq, not_or]
    constructor <;> rintro rfl <;> contradiction
  unfold withoutNonMedia dropDims treatmentControl
  rw [filter_arrs sample p _ (fun nd => ![Dim.nonMediaChannel, Dim.controlVariable].contains nd.2)]
  · rfl
  · intro nd a ha
    obtain ⟨cs, -, rfl⟩ := Option.map_eq_some_iff.1 ha
    rw [List.any_append, h3]
    simp

/-- **C118 (treatments).** Without the controls and the other treatments, the stacked channels are all paid and
organic media. -/
theorem without_non_media_rows (sample : List Dim) (hs : ∀ d ∈ sample, Kept d) (p : Data α)
    (hp : SomePresent p [.mediaChannel, .rfChannel, .organicMediaChannel, .organicRfChannel]) :
    stackVariables (merge (coordsOf p) (withoutNonMedia sample p)) =
      .ok (channels p [.mediaChannel, .rfChannel, .organicMediaChannel, .organicRfChannel]) := by
  rw [without_eq sample hs p]
  exact dataset_rows sample hs p _ (by simp [Kept]) (by simp) hp

/-- **C118 (controls).** The dataset of controls and other treatments is missing if there are none of either;
otherwise the stacked channels are these. -/
theorem controls_rows (sample : List Dim) (hs : ∀ d ∈ sample, Kept d) (p : Data α) :
    (controlsAndNonMedia sample p = none ↔ ¬ SomePresent p [.controlVariable, .nonMediaChannel]) ∧
      ∀ arrs, controlsAndNonMedia sample p = some arrs →
        stackVariables (merge (coordsOf p) arrs) = .ok (channels p [.controlVariable, .nonMediaChannel]) := by
  have hkept : (treatmentControl sample p).filter
        (fun a => ["controls_scaled", "non_media_treatments_scaled"].contains a.name) =
      [("controls_scaled", Dim.controlVariable), ("non_media_treatments_scaled", .nonMediaChannel)].filterMap
        (arrOf sample p) := by
    unfold treatmentControl
    rw [filter_arrs sample p _
      (fun nd => ["controls_scaled", "non_media_treatments_scaled"].contains nd.1)]
    · congr 1
    · intro nd a ha
      obtain ⟨cs, -, rfl⟩ := Option.map_eq_some_iff.1 ha
      rfl
  have hiff : controlsAndNonMedia sample p = none ↔ ¬ SomePresent p [.controlVariable, .nonMediaChannel] := by
    unfold controlsAndNonMedia getVars
    simp only [hkept]
    cases h1 : p .controlVariable <;> cases h2 : p .nonMediaChannel <;>
      simp [arrOf, List.filterMap_cons, h1, h2, SomePresent]
  refine ⟨hiff, fun arrs h => ?_⟩
  have hp : SomePresent p [.controlVariable, .nonMediaChannel] := by
    by_contra hn
    rw [hiff.2 hn] at h
    cases h
  unfold controlsAndNonMedia getVars at h
  simp only [hkept] at h
  split at h
  · cases h
  · cases h
    exact dataset_rows sample hs p _ (by simp [Kept]) (by simp) hp

/-! ### Where it goes wrong -/

/-- **C118 (missing dimension).** A variable without one of the kept dimensions of the dataset is refused. -/
theorem missing_refused (ds : Dataset α) (v : Arr α) (hv : v ∈ ds.vars) (d : Dim) (hd : d ∈ ds.dims)
    (hs : Kept d) (hn : d ∉ v.sample) : stackVariables ds = .error .missingDimension := by
  unfold stackVariables
  have he : ds.vars.isEmpty = false := by
    cases h : ds.vars
    · rw [h] at hv; cases hv
    · rfl
  have ha : (ds.vars.any fun v => (ds.dims.filter isSample).any fun d => !(v.sample.contains d)) = true := by
    rw [List.any_eq_true]
    refine ⟨v, hv, ?_⟩
    rw [List.any_eq_true]
    exact ⟨d, List.mem_filter.2 ⟨hd, (isSample_iff d).2 hs⟩, by simpa using hn⟩
  simp only [he, ha, Bool.false_eq_true, if_false, if_true]

/-- **Finding.**  The names come from the dimensions and the series from the variables.  A dataset whose
dimensions are in another order than its variables is accepted if the numbers agree, and its channels get the
names of others. -/
theorem out_of_order (tv youtube : α) :
    stackVariables ⟨[.time, .rfChannel, .mediaChannel],
        fun d => if d = .mediaChannel then ["TV"] else if d = .rfChannel then ["YouTube"] else [],
        [⟨"media", [.time], some .mediaChannel, [tv]⟩, ⟨"reach", [.time], some .rfChannel, [youtube]⟩]⟩ =
      .ok [("YouTube", tv), ("TV", youtube)] := rfl

/-- Reach and frequency of the same channels cannot be stacked together. -/
example : stackVariables (merge (fun d => if d = .rfChannel then ["YouTube"] else [])
    [⟨"reach", [.geo, .time], some .rfChannel, [1]⟩, ⟨"frequency", [.geo, .time], some .rfChannel, [2]⟩]) =
      .error .conflictingSizes := rfl

def exampleData : Data ℕ
  | .mediaChannel => some [("TV", 1), ("Radio", 2)]
  | .organicRfChannel => some [("Blog", 3)]
  | .controlVariable => some [("Price", 4)]
  | _ => none

example : stackVariables (merge (coordsOf exampleData) (treatmentControl [.geo, .time] exampleData)) =
    .ok [("TV", 1), ("Radio", 2), ("Blog", 3), ("Price", 4)] :=
  treatment_control_rows _ (by simp [Kept]) _ ⟨.mediaChannel, by simp, rfl⟩

example : ∃ arrs, controlsAndNonMedia [.geo, .time] exampleData = some arrs ∧
    stackVariables (merge (coordsOf exampleData) arrs) = .ok [("Price", 4)] :=
  ⟨_, rfl, (controls_rows _ (by simp [Kept]) _).2 _ rfl⟩

example : stackVariables (merge (coordsOf exampleData) (withoutNonMedia [.time] exampleData)) =
    .ok [("TV", 1), ("Radio", 2), ("Blog", 3)] :=
  without_non_media_rows _ (by simp [Kept]) _ ⟨.mediaChannel, by simp, rfl⟩

example : ∀ a ∈ treatmentControl [.geo, .time] exampleData, Fits (coordsOf exampleData) [.geo, .time] a :=
  fits_of _ _ _ (by simp [Kept])

example : stackVariables (α := ℕ) ⟨[.geo, .time, .mediaChannel], fun _ => ["TV"],
    [⟨"media", [.time], some .mediaChannel, [1]⟩]⟩ = .error .missingDimension :=
  missing_refused _ ⟨"media", [.time], some .mediaChannel, [1]⟩ (by simp) .geo (by simp) (Or.inr rfl) (by simp)

end Verif.EdaStack.Props

import Verif.Lemmas.InputData
import Mathlib.Tactic.NormNum

/-!
# Which input data are accepted (C26)
-/

namespace Verif.InputData.Props

open Verif.InputData Verif.InputData.Spec Verif.InputData.Lemmas

section used

variable (d : Input)

private theorem used_kpi : (used d).kpi = d.kpi := by unfold used; split <;> rfl
private theorem used_population : (used d).population = d.population := by
  unfold used; split <;> rfl
private theorem used_controls : (used d).controls = d.controls := by unfold used; split <;> rfl
private theorem used_media : (used d).media = d.media := by unfold used; split <;> rfl
private theorem used_mediaSpend : (used d).mediaSpend = d.mediaSpend := by
  unfold used; split <;> rfl
private theorem used_reach : (used d).reach = d.reach := by unfold used; split <;> rfl
private theorem used_frequency : (used d).frequency = d.frequency := by unfold used; split <;> rfl
private theorem used_rfSpend : (used d).rfSpend = d.rfSpend := by unfold used; split <;> rfl
private theorem used_organicMedia : (used d).organicMedia = d.organicMedia := by
  unfold used; split <;> rfl
private theorem used_organicReach : (used d).organicReach = d.organicReach := by
  unfold used; split <;> rfl
private theorem used_organicFrequency : (used d).organicFrequency = d.organicFrequency := by
  unfold used; split <;> rfl
private theorem used_nonMedia : (used d).nonMedia = d.nonMedia := by unfold used; split <;> rfl

end used

private theorem shape_iff (d : Input) :
    (∀ x ∈ table d, ∀ a, x.1 = some a → a.name = x.2.1 ∧ ∃ ds ∈ x.2.2, HasDims a ds) ↔
      namesOk d = true ∧ allDimsOk d = true := by
  have hn : namesOk d = true ↔ ∀ x ∈ table d, ∀ a, x.1 = some a → a.name = x.2.1 := by
    simp only [namesOk, Bool.not_eq_true', List.any_eq_false, Bool.not_eq_true, table,
      List.mem_cons, List.not_mem_nil, or_false, forall_eq_or_imp, forall_eq, badName_iff]
    tauto
  have hd : allDimsOk d = true ↔ ∀ x ∈ table d, ∀ a, x.1 = some a → ∃ ds ∈ x.2.2, HasDims a ds := by
    simp only [allDimsOk, Bool.and_eq_true, table, dimsOk_iff,
      List.mem_cons, List.not_mem_nil, or_false, forall_eq_or_imp, forall_eq]
    tauto
  rw [hn, hd]
  constructor
  · intro h
    exact ⟨fun x hx a ha => (h x hx a ha).1, fun x hx a ha => (h x hx a ha).2⟩
  · intro h x hx a ha
    exact ⟨h.1 x hx a ha, h.2 x hx a ha⟩

private theorem na_iff (d : Input) :
    anyNa d = false ↔ ∀ a, Present (arrays d) a → none ∉ a.vals := by
  simp only [anyNa, List.any_eq_false, Bool.not_eq_true, hasNa_iff, List.mem_filterMap, id,
    exists_eq_right, Present, arrays, table, List.map_cons, List.map_nil]
  constructor
  · intro h a ha
    exact h a (by simp only [List.mem_cons, List.not_mem_nil, or_false] at ha ⊢; tauto)
  · intro h a ha
    exact h a (by simp only [List.mem_cons, List.not_mem_nil, or_false] at ha ⊢; tauto)

/-- The shape of all arrays. -/
private def Shape (d : Input) : Prop :=
  ∀ x ∈ table d, ∀ a, x.1 = some a → a.name = x.2.1 ∧ ∃ ds ∈ x.2.2, HasDims a ds

private theorem mem_dims {d : Input} (h : Shape d) {o : Option Arr} {n : String}
    {l : List (List String)} (i : ℕ) (hx : (table d)[i]? = some (o, n, l)) {a : Arr} (ha : o = some a) {c : String}
    (hc : ∀ ds ∈ l, c ∈ ds) : c ∈ a.dims := by
  obtain ⟨ds, hds, hd⟩ := (h _ (List.mem_of_getElem? hx) a ha).2
  exact (hd c).2 (hc ds hds)

private theorem geo_dims {d : Input} (h : Shape d) (a : Arr) (ha : Present (geoArrays d) a) :
    "geo" ∈ a.dims := by
  simp only [Present, geoArrays, List.mem_cons, List.not_mem_nil, or_false] at ha
  rcases ha with e | e | e | e | e | e | e | e | e | e | e
  · exact mem_dims h (o := some d.kpi) 0 rfl e.symm (by simp)
  · exact mem_dims h (o := d.revenuePerKpi) 3 rfl e.symm (by simp)
  · exact mem_dims h (o := d.media) 4 rfl e.symm (by simp)
  · exact mem_dims h (o := d.controls) 2 rfl e.symm (by simp)
  · exact mem_dims h (o := some d.population) 1 rfl e.symm (by simp)
  · exact mem_dims h (o := d.reach) 6 rfl e.symm (by simp)
  · exact mem_dims h (o := d.frequency) 7 rfl e.symm (by simp)
  · exact mem_dims h (o := d.organicMedia) 9 rfl e.symm (by simp)
  · exact mem_dims h (o := d.organicReach) 10 rfl e.symm (by simp)
  · exact mem_dims h (o := d.organicFrequency) 11 rfl e.symm (by simp)
  · exact mem_dims h (o := d.nonMedia) 12 rfl e.symm (by simp)

private theorem geos_table (d : Input) (P : Arr → Prop) :
    (∀ x ∈ table d, x.2.1 ≠ "media_spend" → x.2.1 ≠ "rf_spend" → ∀ a, x.1 = some a → P a) ↔
      ∀ a, Present (geoArrays d) a → P a := by
  have e : (∀ a, Present (geoArrays d) a → P a) ↔
      ∀ o ∈ geoArrays d, ∀ a, o = some a → P a := by
    constructor
    · rintro h o ho a rfl
      exact h a ho
    · intro h a ha
      exact h _ ha a rfl
  rw [e]
  simp [table, geoArrays]
  tauto

private theorem geos_iff {d : Input} (h : Shape d) :
    ((∀ a, Present (geoArrays d) a → a.coord "geo" = d.kpi.coord "geo") ∧
      (d.kpi.coord "geo").Nodup) ↔
    dimMatch "geo" (geoArrays d) = true ∧ coordsMatch "geo" (geoArrays d) = true ∧
      ∀ a ∈ (geoArrays d).filterMap id, "geo" ∈ a.dims → (a.coord "geo").Nodup := by
  have hk : Present (geoArrays d) d.kpi := by simp [Present, geoArrays]
  rw [dimMatch_iff, coordsMatch_iff]
  simp only [List.mem_filterMap, id, exists_eq_right]
  constructor
  · rintro ⟨h1, h2⟩
    refine ⟨fun a b ha hb => ?_, fun a b ha hb _ _ => ?_, fun a ha _ => ?_⟩
    · rw [h1 a ha, h1 b hb]
    · rw [h1 a ha, h1 b hb]
    · rw [h1 a ha]
      exact h2
  · rintro ⟨_, h2, h3⟩
    exact ⟨fun a ha => h2 a _ ha hk (geo_dims h a ha) (geo_dims h _ hk),
      h3 _ hk (geo_dims h _ hk)⟩

private theorem coords_iff {dim : String} {l : List (Option Arr)}
    (h : ∀ a, Present l a → dim ∈ a.dims) :
    (dimMatch dim l = true ∧ coordsMatch dim l = true) ↔
      ∀ a b, Present l a → Present l b → a.coord dim = b.coord dim := by
  rw [dimMatch_iff, coordsMatch_iff]
  constructor
  · rintro ⟨_, h2⟩ a b ha hb
    exact h2 a b ha hb (h a ha) (h b hb)
  · intro h2
    exact ⟨fun a b ha hb => by rw [h2 a b ha hb], fun a b ha hb _ _ => h2 a b ha hb⟩

private theorem pair_iff {P : Arr → List String} {o o' : Option Arr} :
    (∀ a b, Present [o, o'] a → Present [o, o'] b → P a = P b) ↔
      ∀ a b, o = some a → o' = some b → P a = P b := by
  simp only [Present, List.mem_cons, List.not_mem_nil, or_false]
  constructor
  · intro h a b ha hb
    exact h a b (Or.inl ha.symm) (Or.inr hb.symm)
  · rintro h a b (ha | ha) (hb | hb)
    · rw [← ha] at hb
      cases hb
      rfl
    · exact h a b ha.symm hb.symm
    · exact (h b a hb.symm ha.symm).symm
    · rw [← ha] at hb
      cases hb
      rfl

private theorem times_iff (k : Arr) (l : List (Option Arr)) :
    dimMatch "time" (some k :: l) = true ↔ ∀ a, Present l a →
      (a.coord "time").length = (k.coord "time").length := by
  rw [dimMatch_iff]
  simp only [Present, List.mem_cons, Option.some.injEq]
  constructor
  · intro h a ha
    exact h a k (Or.inr ha) (Or.inl rfl)
  · intro h a b ha hb
    have key : ∀ c, (c = k ∨ some c ∈ l) → (c.coord "time").length = (k.coord "time").length := by
      rintro c (rfl | hc)
      · rfl
      · exact h c hc
    rw [key a ha, key b hb]

private theorem matchErr_iff (d : Input) : matchErr d = none ↔
    dimMatch "geo" (geoArrays d) = true ∧
    dimMatch "time" [some d.kpi, d.revenuePerKpi, d.controls, d.nonMedia] = true ∧
    (dimMatch "media_channel" [d.media, d.mediaSpend] = true ∧
      coordsMatch "media_channel" [d.media, d.mediaSpend] = true) ∧
    (dimMatch "rf_channel" [d.reach, d.frequency, d.rfSpend] = true ∧
      coordsMatch "rf_channel" [d.reach, d.frequency, d.rfSpend] = true) ∧
    (dimMatch "organic_rf_channel" [d.organicReach, d.organicFrequency] = true ∧
      coordsMatch "organic_rf_channel" [d.organicReach, d.organicFrequency] = true) := by
  unfold matchErr
  split_ifs <;> simp_all

private theorem channels_iff (d : Input) : (∃ chs, allChannels d = .ok chs ∧ chs.Nodup) ↔
    (d.media ≠ none ∨ d.reach ≠ none) ∧ (channels d).Nodup := by
  cases hm : d.media <;> cases hr : d.reach <;>
    simp [allChannels, paidChannels, channels, names, hm, hr, coordsOf] <;>
    cases d.organicMedia <;> cases d.organicReach <;> cases d.nonMedia <;> simp

private theorem dates_iff {d : Input} (h : Shape d) (isDate : String → Bool) :
    (∀ a ∈ timedArrays d, timeFormatOk isDate a = true) ↔
      ∀ a, Present (arrays d) a → ∀ c ∈ ["time", "media_time"], c ∈ a.dims →
        ∀ t ∈ a.coord c, isDate t = true := by
  have e : ∀ a, timeFormatOk isDate a = true ↔ ∀ c ∈ ["time", "media_time"], c ∈ a.dims →
      ∀ t ∈ a.coord c, isDate t = true := by
    intro a
    simp only [timeFormatOk, List.all_eq_true, Bool.or_eq_true, Bool.not_eq_true',
      List.contains_eq_mem, decide_eq_false_iff_not]
    constructor
    · intro h c hc hd
      exact (h c hc).resolve_left (not_not.2 hd)
    · intro h c hc
      by_cases hd : c ∈ a.dims
      · exact Or.inr (h c hc hd)
      · exact Or.inl hd
  simp only [e]
  constructor
  · intro hh a ha
    by_cases hp : a = d.population
    · subst hp
      intro c hc hd
      obtain ⟨ds, hds, hd'⟩ := (h (some d.population, "population", [["geo"]])
        (by simp [table]) d.population rfl).2
      rw [List.mem_singleton] at hds
      subst hds
      have := (hd' c).1 hd
      rw [List.mem_singleton] at this
      subst this
      simp at hc
    · refine hh a ?_
      simp only [timedArrays, List.mem_filterMap, id, exists_eq_right]
      simp only [Present, arrays, table, List.map_cons, List.map_nil, List.mem_cons,
        List.not_mem_nil, or_false, Option.some.injEq] at ha ⊢
      tauto
  · intro hh a ha
    refine hh a ?_
    simp only [timedArrays, List.mem_filterMap, id, exists_eq_right] at ha
    simp only [Present, arrays, table, List.map_cons, List.map_nil, List.mem_cons,
      List.not_mem_nil, or_false, Option.some.injEq] at ha ⊢
    tauto

private theorem mediaTime_iff (d : Input) (regular : List String → Bool)
    (h : d.media ≠ none ∨ d.reach ≠ none) : regular (mediaTime d) = true ↔
    ∀ a, (d.media = some a ∨ d.media = none ∧ d.reach = some a) →
      regular (a.coord "media_time") = true := by
  cases hm : d.media with
  | some m => simp [mediaTime, hm]
  | none =>
    cases hr : d.reach with
    | some r => simp [mediaTime, hm, hr, coordsOf]
    | none => simp [hm, hr] at h

/-- C26: exactly the consistent input data are accepted; they are used as they were given, except
that revenue per KPI is one when the KPI is revenue. -/
theorem accepted_iff (isDate : String → Bool) (regular : List String → Bool) (d0 d : Input) :
    validate isDate regular d0 = .ok d ↔ Consistent isDate regular d0 ∧ d = used d0 := by
  rw [ok_iff, na_iff, allZero_iff, matchErr_iff, channels_iff, times_iff]
  have hne : (∀ a ∈ nonNegativeArrays (used d0), anyNegative a = false) ↔
      ∀ a, Present [some d0.kpi, (used d0).revenuePerKpi, d0.mediaSpend, d0.rfSpend, d0.reach,
        d0.frequency, d0.organicReach, d0.organicFrequency] a → ∀ q, some q ∈ a.vals → 0 ≤ q := by
    simp only [nonNegativeArrays, List.mem_filterMap, id, exists_eq_right, anyNegative_iff,
      used_kpi, used_mediaSpend, used_rfSpend, used_reach, used_frequency, used_organicReach,
      used_organicFrequency, Present]
    constructor
    · intro h a ha
      exact h a (by simp only [List.mem_cons, List.not_mem_nil, or_false] at ha ⊢; tauto)
    · intro h a ha
      exact h a (by simp only [List.mem_cons, List.not_mem_nil, or_false] at ha ⊢; tauto)
  have hmt : (∀ a ∈ mediaArrays (used d0), ((used d0).kpi.coord "time").length ≤
      (a.coord "media_time").length) ↔ ∀ a, Present [d0.media, d0.reach, d0.frequency,
        d0.organicMedia, d0.organicReach, d0.organicFrequency] a →
        (d0.kpi.coord "time").length ≤ (a.coord "media_time").length := by
    simp only [mediaArrays, List.mem_filterMap, id, exists_eq_right, used_kpi, used_media,
      used_reach, used_frequency, used_organicMedia, used_organicReach, used_organicFrequency,
      Present]
  have hch : channels (used d0) = channels d0 := by
    simp only [channels, used_media, used_reach, used_organicMedia, used_organicReach,
      used_nonMedia]
  rw [hne, hmt, hch]
  by_cases hs : Shape (used d0)
  swap
  · constructor
    · rintro ⟨-, -, -, h4, h5, -⟩
      exact absurd ((shape_iff _).2 ⟨h4, h5⟩) hs
    · rintro ⟨h, -⟩
      exact absurd h.shape hs
  have hmc : ∀ a, Present [(used d0).media, (used d0).mediaSpend] a → "media_channel" ∈ a.dims := by
    intro a ha
    simp only [Present, List.mem_cons, List.not_mem_nil, or_false] at ha
    rcases ha with e | e
    · exact mem_dims hs (o := (used d0).media) 4 rfl e.symm (by simp)
    · exact mem_dims hs (o := (used d0).mediaSpend) 5 rfl e.symm (by simp)
  have hrc : ∀ a, Present [(used d0).reach, (used d0).frequency, (used d0).rfSpend] a →
      "rf_channel" ∈ a.dims := by
    intro a ha
    simp only [Present, List.mem_cons, List.not_mem_nil, or_false] at ha
    rcases ha with e | e | e
    · exact mem_dims hs (o := (used d0).reach) 6 rfl e.symm (by simp)
    · exact mem_dims hs (o := (used d0).frequency) 7 rfl e.symm (by simp)
    · exact mem_dims hs (o := (used d0).rfSpend) 8 rfl e.symm (by simp)
  have hoc : ∀ a, Present [(used d0).organicReach, (used d0).organicFrequency] a →
      "organic_rf_channel" ∈ a.dims := by
    intro a ha
    simp only [Present, List.mem_cons, List.not_mem_nil, or_false] at ha
    rcases ha with e | e
    · exact mem_dims hs (o := (used d0).organicReach) 10 rfl e.symm (by simp)
    · exact mem_dims hs (o := (used d0).organicFrequency) 11 rfl e.symm (by simp)
  rw [coords_iff hmc, coords_iff hrc, coords_iff hoc, pair_iff, pair_iff, dates_iff hs]
  have hsi := (shape_iff (used d0)).1 hs
  have hg := geos_iff hs
  rw [← geos_table] at hg
  simp only [used_kpi, used_media, used_mediaSpend, used_reach, used_frequency, used_rfSpend,
    used_organicReach, used_organicFrequency, used_controls, used_nonMedia] at hg ⊢
  constructor
  · rintro ⟨h1, h2, h3, -, -, ⟨h6, h7, h8, h9, h10⟩, ⟨h11, h12⟩, h13, h14, h15, h16, h17, h18, h19,
      h20⟩
    have h16' := (mediaTime_iff (used d0) regular (by rw [used_media, used_reach]; exact h11)).1 h16
    rw [used_media, used_reach] at h16'
    obtain ⟨hg1, hg2⟩ := hg.2 ⟨h6, h18, h17⟩
    exact ⟨⟨h1, h2, h3, hs, hg1, hg2, h7, h8, h9, h10, h11, h12, h13, h14, h15, h16', h19⟩, h20⟩
  · rintro ⟨h, e⟩
    obtain ⟨hg1, hg2, hg3⟩ := hg.1 ⟨h.geos, h.geosUnique⟩
    refine ⟨h.noNa, h.kpiType, h.revenue, hsi.1, hsi.2, ⟨hg1, h.times, h.mediaChannels,
      h.rfChannels, h.organicRfChannels⟩, ⟨h.paid, h.channelsUnique⟩, h.dates, h.mediaTimes,
      h.regularTimes, ?_, hg3, hg2, h.nonNegative, e⟩
    refine (mediaTime_iff (used d0) regular (by rw [used_media, used_reach]; exact h.paid)).2 ?_
    rw [used_media, used_reach]
    exact h.regularMediaTimes

/-! ### Consequences -/

/-- C26: accepted data have the KPI's geos, each once, in every array but the spend arrays. -/
theorem accepted_geos {isDate : String → Bool} {regular : List String → Bool} {d0 d : Input}
    (h : validate isDate regular d0 = .ok d) :
    (d.kpi.coord "geo").Nodup ∧
      ∀ o ∈ [d.revenuePerKpi, some d.population, d.controls, d.media, d.reach, d.frequency,
        d.organicMedia, d.organicReach, d.organicFrequency, d.nonMedia], ∀ a, o = some a →
        a.coord "geo" = d.kpi.coord "geo" := by
  obtain ⟨hc, rfl⟩ := (accepted_iff _ _ _ _).1 h
  rw [used_kpi]
  refine ⟨hc.geosUnique, ?_⟩
  rintro o ho a rfl
  refine (geos_table (used d0) fun a => a.coord "geo" = d0.kpi.coord "geo").1 hc.geos a ?_
  simp only [Present, geoArrays, List.mem_cons, List.not_mem_nil, or_false] at ho ⊢
  tauto

/-- C26: in accepted data no channel name is used twice, in whatever channel type. -/
theorem accepted_channels {isDate : String → Bool} {regular : List String → Bool} {d0 d : Input}
    (h : validate isDate regular d0 = .ok d) : (channels d).Nodup ∧
      (d.media ≠ none ∨ d.reach ≠ none) := by
  obtain ⟨hc, rfl⟩ := (accepted_iff _ _ _ _).1 h
  have hch : channels (used d0) = channels d0 := by
    simp only [channels, used_media, used_reach, used_organicMedia, used_organicReach,
      used_nonMedia]
  rw [hch, used_media, used_reach]
  exact ⟨hc.channelsUnique, hc.paid⟩

/-- C26: if the KPI is revenue, every revenue per KPI is one, whatever was given. -/
theorem revenue_is_one {isDate : String → Bool} {regular : List String → Bool} {d0 d : Input}
    (h : validate isDate regular d0 = .ok d) (hk : d0.kpiType = "revenue") :
    ∃ r, d.revenuePerKpi = some r ∧ (∀ v ∈ r.vals, v = some 1) ∧
      r.vals.length = (d.kpi.coord "geo").length * (d.kpi.coord "time").length ∧
      r.coord "geo" = d.kpi.coord "geo" ∧ r.coord "time" = d.kpi.coord "time" := by
  obtain ⟨hc, rfl⟩ := (accepted_iff _ _ _ _).1 h
  refine ⟨ones d0.kpi, by simp [used, hk], fun v hv => ?_, ?_, ?_, ?_⟩
  · exact List.eq_of_mem_replicate hv
  · simp [ones, used_kpi]
  · simp [ones, used_kpi]
  · simp [ones, used_kpi]

/-! ### A case, and what is not checked -/

/-- Coordinates of a small data set. -/
private def coord (geo time mediaTime : List String) : String → List String := fun c =>
  if c = "geo" then geo
  else if c = "time" then time
  else if c = "media_time" then mediaTime
  else if c = "media_channel" then ["tv", "radio"]
  else if c = "rf_channel" then ["video"]
  else if c = "control_variable" then ["price"]
  else []

private def std : String → List String :=
  coord ["g", "h"] ["2024-01-08", "2024-01-15"] ["2024-01-01", "2024-01-08", "2024-01-15"]

private def arr (name : String) (dims : List String) (n : ℕ) : Arr where
  name := name
  dims := dims
  coord := std
  vals := List.replicate n (some 2)

private def good : Input where
  kpi := arr "kpi" ["geo", "time"] 4
  kpiType := "non_revenue"
  population := arr "population" ["geo"] 2
  controls := some (arr "controls" ["geo", "time", "control_variable"] 4)
  revenuePerKpi := some (arr "revenue_per_kpi" ["geo", "time"] 4)
  media := some (arr "media" ["geo", "media_time", "media_channel"] 12)
  mediaSpend := some (arr "media_spend" ["geo", "time", "media_channel"] 8)
  reach := some (arr "reach" ["geo", "media_time", "rf_channel"] 6)
  frequency := some (arr "frequency" ["geo", "media_time", "rf_channel"] 6)
  rfSpend := some (arr "rf_spend" ["rf_channel"] 1)

private def accepts (d : Input) : Bool :=
  match validate (fun t => t.length == 10) (fun l => decide (2 ≤ l.length)) d with
  | .ok _ => true
  | .error _ => false

private theorem accepts_iff {d : Input} (h : accepts d = true) :
    Consistent (fun t => t.length == 10) (fun l => decide (2 ≤ l.length)) d := by
  unfold accepts at h
  split at h
  · rename_i d' e
    exact ((accepted_iff _ _ _ _).1 e).1
  · exact absurd h (by simp)

/-- A consistent data set with media, reach and frequency, controls and revenue per KPI. -/
example : Consistent (fun t => t.length == 10) (fun l => decide (2 ≤ l.length)) good :=
  accepts_iff (by decide +kernel)

private def withCoord (a : Arr) (c : String → List String) : Arr := { a with coord := c }

private def withVals (a : Arr) (v : List Num) : Arr := { a with vals := v }

private def badOrganic : Arr :=
  withCoord (arr "organic_media" ["geo", "media_time", "organic_media_channel"] 6)
    fun c => if c = "organic_media_channel" then ["tv"] else std c

/-- A negative KPI, geos in another order, a name used twice and a missing value are rejected. -/
example : accepts { good with kpi := withVals good.kpi [some (-1)] } = false ∧
    accepts { good with population := withCoord good.population (coord ["h", "g"] [] []) } = false ∧
    accepts { good with organicMedia := some badOrganic } = false ∧
    accepts { good with controls := good.controls.map (withVals · [none]) } = false := by
  decide +kernel

/-- C26, not so: what the accepted data need not satisfy, although the model reads all arrays by
position.  The KPI may have its dimensions in the order (time, geo). -/
theorem transposed_kpi_accepted : ∃ d : Input, d.kpi.dims = ["time", "geo"] ∧
    Consistent (fun t => t.length == 10) (fun l => decide (2 ≤ l.length)) d :=
  ⟨{ good with kpi := arr "kpi" ["time", "geo"] 4 }, rfl, accepts_iff (by decide +kernel)⟩

/-- C26, not so: the geos of the spend may be other geos than those of the KPI, and as many as one
likes. -/
theorem spend_of_other_geos_accepted : ∃ d : Input, ∃ m, d.mediaSpend = some m ∧
    "geo" ∈ m.dims ∧ (∀ g ∈ m.coord "geo", g ∉ d.kpi.coord "geo") ∧
    (m.coord "geo").length ≠ (d.kpi.coord "geo").length ∧
    Consistent (fun t => t.length == 10) (fun l => decide (2 ≤ l.length)) d :=
  ⟨{ good with mediaSpend := some (withCoord
      (arr "media_spend" ["geo", "time", "media_channel"] 12)
      (coord ["x", "y", "z"] ["2024-01-08", "2024-01-15"] [])) }, _, rfl,
    by decide +kernel, by decide +kernel, by decide +kernel, accepts_iff (by decide +kernel)⟩

/-- C26, not so: the controls may be of other dates than the KPI, if they are as many. -/
theorem controls_of_other_dates_accepted : ∃ d : Input, ∃ m, d.controls = some m ∧
    (∀ t ∈ m.coord "time", t ∉ d.kpi.coord "time") ∧
    Consistent (fun t => t.length == 10) (fun l => decide (2 ≤ l.length)) d :=
  ⟨{ good with controls := some (withCoord
      (arr "controls" ["geo", "time", "control_variable"] 4)
      (coord ["g", "h"] ["2020-02-03", "2020-02-10"] [])) }, _, rfl,
    by decide +kernel, accepts_iff (by decide +kernel)⟩

/-- C26, not so: media and reach may be of different times, and neither need contain the times of
the KPI. -/
theorem media_of_other_dates_accepted : ∃ d : Input, ∃ m r, d.media = some m ∧ d.reach = some r ∧
    (∀ t ∈ m.coord "media_time", t ∉ d.kpi.coord "time") ∧
    (m.coord "media_time").length ≠ (r.coord "media_time").length ∧
    Consistent (fun t => t.length == 10) (fun l => decide (2 ≤ l.length)) d :=
  ⟨{ good with media := some (withCoord
      (arr "media" ["geo", "media_time", "media_channel"] 16)
      (coord ["g", "h"] [] ["2020-02-03", "2020-02-10", "2020-02-17", "2020-02-24"])) },
    _, _, rfl, rfl, by decide +kernel, by decide +kernel, accepts_iff (by decide +kernel)⟩

/-- C26, not so: media units may be negative. -/
theorem negative_media_accepted : ∃ d : Input, ∃ m, d.media = some m ∧ some (-1) ∈ m.vals ∧
    Consistent (fun t => t.length == 10) (fun l => decide (2 ≤ l.length)) d :=
  ⟨{ good with media := some (withVals
      (arr "media" ["geo", "media_time", "media_channel"] 12) [some (-1)]) }, _, rfl, by decide +kernel, accepts_iff (by decide +kernel)⟩

/-- C26, not so: media may come without spend, and reach without frequency. -/
theorem media_without_spend_accepted : ∃ d : Input, d.media.isSome ∧ d.mediaSpend = none ∧
    d.reach.isSome ∧ d.frequency = none ∧
    Consistent (fun t => t.length == 10) (fun l => decide (2 ≤ l.length)) d :=
  ⟨{ good with mediaSpend := none, frequency := none }, rfl, rfl, rfl, rfl,
    accepts_iff (by decide +kernel)⟩

end Verif.InputData.Props

import Verif.Lemmas.DataSerde2

/-!
# Reading the records of ordinary input data
-/

namespace Verif.DataSerde.Lemmas

open Verif.DataSerde Verif.DataSerde.Spec Verif.Calendar

/-! ## Types of channels -/

theorem names_eq_keysOf (a : Option Arr3) : keysOf a = names a := by cases a <;> rfl

theorem get_foldl_put {β : Type} (chs : List String) (v : β) (acc : List (String × β)) (c : String) :
    get c (chs.foldl (fun acc c => put c v acc) acc) = if c ∈ chs then some v else get c acc := by
  induction chs generalizing acc with
  | nil => simp
  | cons a chs ih =>
    rw [List.foldl_cons, ih, get_put]
    by_cases h : c ∈ chs
    · rw [if_pos h, if_pos (by simp [h])]
    · rw [if_neg h]
      by_cases h' : c = a
      · rw [if_pos h', if_pos (by simp [h'])]
      · rw [if_neg h', if_neg (by simp [h, h'])]

theorem get_types_dim (n : String) (a : Option Arr3) (acc : List (String × Option String))
    (c : String) :
    get c ((channelDim n a).foldl
      (fun acc dim => dim.2.foldl (fun acc c => put c (coordName dim.1) acc) acc) acc) =
      if c ∈ names a then some (coordName n) else get c acc := by
  cases a with
  | none => simp [channelDim, names]
  | some a =>
    simp only [channelDim, List.foldl_cons, List.foldl_nil]
    exact get_foldl_put a.keys (coordName n) acc c

theorem dims_sublist (d : Data) (ds dates : List CDate) :
    ((metadata d ds dates).channels.map Prod.fst).Sublist
      ["media", "reach", "frequency", "organic_media", "organic_reach", "organic_frequency"] := by
  have h1 : ∀ n a, ((channelDim n a).map Prod.fst).Sublist [n] := by
    intro n a
    cases a with
    | none => exact List.nil_sublist _
    | some a => exact List.Sublist.refl _
  show ((channelDim "media" d.media ++ channelDim "reach" d.reach ++
    channelDim "frequency" d.frequency ++ channelDim "organic_media" d.organicMedia ++
    channelDim "organic_reach" d.organicReach ++
    channelDim "organic_frequency" d.organicFrequency).map Prod.fst).Sublist
      (["media"] ++ ["reach"] ++ ["frequency"] ++ ["organic_media"] ++ ["organic_reach"] ++
        ["organic_frequency"])
  simp only [List.map_append]
  exact ((((((h1 _ _).append (h1 _ _)).append (h1 _ _)).append (h1 _ _)).append (h1 _ _)).append
    (h1 _ _))

theorem channelDims_eq (d : Data) (ds dates : List CDate) :
    channelDims (metadata d ds dates) = (metadata d ds dates).channels := by
  unfold channelDims
  rw [foldl_put (key := fun c : String × List String => c.1) (val := fun c => c.2) _ []]
  · simp
  · have := (dims_sublist d ds dates).nodup (by decide)
    simpa using this

theorem get_types (d : Data) (ds dates : List CDate) (c : String) :
    get c (channelTypes (channelDims (metadata d ds dates))) =
      if c ∈ names d.organicFrequency then some (some "organic_rf_channel")
      else if c ∈ names d.organicReach then some (some "organic_rf_channel")
      else if c ∈ names d.organicMedia then some (some "organic_media_channel")
      else if c ∈ names d.frequency then some (some "rf_channel")
      else if c ∈ names d.reach then some (some "rf_channel")
      else if c ∈ names d.media then some (some "media_channel")
      else none := by
  rw [channelDims_eq]
  unfold channelTypes metadata
  simp only [List.foldl_append]
  rw [get_types_dim, get_types_dim, get_types_dim, get_types_dim, get_types_dim, get_types_dim]
  rfl

section Types

variable {cal : Cal} {mt : List String} {dates : List CDate} {d : Data} {c : String}

theorem hasType_media (h : Ordinary cal mt dates d) (ds : List CDate) :
    hasType (metadata d ds dates) "media_channel" c = decide (c ∈ names d.media) := by
  have hd := h.distinct
  have hp := h.pairs.2
  have hq := h.organicPairs.2
  unfold hasType
  rw [get_types, ← hp, ← hq]
  simp only [List.nodup_append, List.mem_append] at hd
  by_cases h1 : c ∈ names d.organicReach
  · have : c ∉ names d.media := fun h' => hd.2.2 c (.inl (.inl h')) c h1 rfl
    simp [h1, this]
  · by_cases h2 : c ∈ names d.organicMedia
    · have : c ∉ names d.media := fun h' => hd.1.2.2 c (.inl h') c h2 rfl
      simp [h1, h2, this]
    · by_cases h3 : c ∈ names d.reach
      · have : c ∉ names d.media := fun h' => hd.1.1.2.2 c h' c h3 rfl
        simp [h1, h2, h3, this]
      · by_cases h4 : c ∈ names d.media <;> simp [h1, h2, h3, h4]

theorem hasType_rf (h : Ordinary cal mt dates d) (ds : List CDate) :
    hasType (metadata d ds dates) "rf_channel" c = decide (c ∈ names d.reach) := by
  have hd := h.distinct
  have hp := h.pairs.2
  have hq := h.organicPairs.2
  unfold hasType
  rw [get_types, ← hp, ← hq]
  simp only [List.nodup_append, List.mem_append] at hd
  by_cases h1 : c ∈ names d.organicReach
  · have : c ∉ names d.reach := fun h' => hd.2.2 c (.inl (.inr h')) c h1 rfl
    simp [h1, this]
  · by_cases h2 : c ∈ names d.organicMedia
    · have : c ∉ names d.reach := fun h' => hd.1.2.2 c (.inr h') c h2 rfl
      simp [h1, h2, this]
    · by_cases h3 : c ∈ names d.reach
      · simp [h1, h2, h3]
      · by_cases h4 : c ∈ names d.media <;> simp [h1, h2, h3, h4]

theorem hasType_organicMedia (h : Ordinary cal mt dates d) (ds : List CDate) :
    hasType (metadata d ds dates) "organic_media_channel" c = decide (c ∈ names d.organicMedia) := by
  have hd := h.distinct
  have hp := h.pairs.2
  have hq := h.organicPairs.2
  unfold hasType
  rw [get_types, ← hp, ← hq]
  simp only [List.nodup_append, List.mem_append] at hd
  by_cases h1 : c ∈ names d.organicReach
  · have : c ∉ names d.organicMedia := fun h' => hd.2.2 c (.inr h') c h1 rfl
    simp [h1, this]
  · by_cases h2 : c ∈ names d.organicMedia
    · simp [h1, h2]
    · by_cases h3 : c ∈ names d.reach
      · simp [h1, h2, h3]
      · by_cases h4 : c ∈ names d.media <;> simp [h1, h2, h3, h4]

theorem hasType_organicRf (h : Ordinary cal mt dates d) (ds : List CDate) :
    hasType (metadata d ds dates) "organic_rf_channel" c = decide (c ∈ names d.organicReach) := by
  have hp := h.pairs.2
  have hq := h.organicPairs.2
  unfold hasType
  rw [get_types, ← hp, ← hq]
  by_cases h1 : c ∈ names d.organicReach
  · simp [h1]
  · by_cases h2 : c ∈ names d.organicMedia
    · simp [h1, h2]
    · by_cases h3 : c ∈ names d.reach
      · simp [h1, h2, h3]
      · by_cases h4 : c ∈ names d.media <;> simp [h1, h2, h3, h4]

end Types

/-! ## Reading -/

section Read

variable {cal : Cal} {mt : List String} {dates ds : List CDate} {d : Data} {g t : String}
  {ivs : List (String × Interval)}

/-- The dates of the records. -/
def Dated (cal : Cal) (mt : List String) (ivs : List (String × Interval)) : Prop :=
  ∀ t ∈ mt, ∃ i, get t ivs = some i ∧ cal.fmt i.start = t

theorem withGeoTime_point {α : Type} (hi : Dated cal mt ivs) (mm : t ∈ mt)
    (f : String → String → List α) : withGeoTime cal (pPoint d ivs g t) f = .ok (f g t) := by
  obtain ⟨i, h1, h2⟩ := hi t mm
  unfold withGeoTime geoTime
  have h3 : (pPoint d ivs g t).interval = some i := h1
  rw [h3]
  simp only [h2]
  rfl

/-- The records of aggregated spend. -/
def extras (d : Data) (ivs : List (String × Interval)) : List Point :=
  mediaSpendPoint d.mediaSpend ivs ++ rfSpendPoint d.rfSpend ivs

/-- A record of aggregated spend. -/
def aggMedia (a : Arr1) (ivs : List (String × Interval)) : Point where
  interval := span (ivs.map Prod.snd)
  media := (a.keys.zip a.vals).map fun e => ⟨e.1, some 0, some e.2⟩

/-- A record of aggregated spend. -/
def aggRf (a : Arr1) (ivs : List (String × Interval)) : Point where
  interval := span (ivs.map Prod.snd)
  rf := (a.keys.zip a.vals).map fun e => ⟨e.1, 0, some 0, some e.2⟩

theorem mem_mediaSpendPoint {s : Option Spend} {p : Point} (h : p ∈ mediaSpendPoint s ivs) :
    ∃ a, s = some (.aggregated a) ∧ p = aggMedia a ivs := by
  cases s with
  | none => cases h
  | some s => cases s with
    | granular a => cases h
    | aggregated a => exact ⟨a, rfl, List.mem_singleton.1 h⟩

theorem mem_rfSpendPoint {s : Option Spend} {p : Point} (h : p ∈ rfSpendPoint s ivs) :
    ∃ a, s = some (.aggregated a) ∧ p = aggRf a ivs := by
  cases s with
  | none => cases h
  | some s => cases s with
    | granular a => cases h
    | aggregated a => exact ⟨a, rfl, List.mem_singleton.1 h⟩

theorem span_some {l : List Interval} (h : l ≠ []) : ∃ i, span l = some i := by
  cases l with
  | nil => exact absurd rfl h
  | cons a l => exact ⟨_, rfl⟩

/-- What is in a record without a geo. -/
theorem extras_spec (hne : ivs ≠ []) {p : Point} (h : p ∈ extras d ivs) :
    p.geo = none ∧ p.controls = [] ∧ p.nonMedia = [] ∧ p.kpi = none ∧
      ∃ i, span (ivs.map Prod.snd) = some i ∧ p.interval = some i := by
  obtain ⟨i, hi⟩ := span_some (l := ivs.map Prod.snd) (by simpa using hne)
  rcases List.mem_append.1 h with h | h
  · obtain ⟨a, -, rfl⟩ := mem_mediaSpendPoint h
    exact ⟨rfl, rfl, rfl, rfl, i, hi, hi⟩
  · obtain ⟨a, -, rfl⟩ := mem_rfSpendPoint h
    exact ⟨rfl, rfl, rfl, rfl, i, hi, hi⟩

theorem withGeoTime_extra {α : Type} (hne : ivs ≠ []) {p : Point} (h : p ∈ extras d ivs)
    (f : String → String → List α) : ∃ t, withGeoTime cal p f = .ok (f "" t) := by
  obtain ⟨h1, -, -, -, i, -, h2⟩ := extras_spec hne h
  refine ⟨cal.fmt i.start, ?_⟩
  unfold withGeoTime geoTime Point.geoId
  rw [h1, h2]

/-! ### Controls and treatments -/

theorem load_entries (h : Ordinary cal mt dates d) (hi : Dated cal mt ivs)
    {a : Option Arr3} {entries : Point → List (String × Num)}
    (ha : ∀ b ∈ a, Shape3 d.kpi.geos d.kpi.times b)
    (he : ∀ g t, entries (pPoint d ivs g t) = pEntries a g t)
    (hx : ∀ p ∈ extras d ivs, entries p = []) :
    gather3 (entryCells cal entries) (grid d.kpi.geos mt (pPoint d ivs) ++ extras d ivs) =
      .ok a := by
  have hextra : ∀ p ∈ extras d ivs, entryCells cal entries p = .ok [] := by
    intro p hp
    unfold entryCells
    rw [if_pos (hx p hp)]
  cases a with
  | none =>
    refine gather3_none fun p hp => ?_
    rcases List.mem_append.1 hp with hp | hp
    · obtain ⟨g, -, hp⟩ := List.mem_flatMap.1 hp
      obtain ⟨t, -, rfl⟩ := List.mem_map.1 hp
      unfold entryCells
      rw [if_pos (by rw [he]; rfl)]
    · exact hextra p hp
  | some a =>
    have hs := ha a rfl
    rw [gather3_grid (ts := d.kpi.times) (keys := a.keys) (v := cell3 a) h.geos.2.1 (mt_nodup h)
      hs.distinct h.geos.1 h.times.1 hs.some_key h.times.2 ?_ hextra]
    · rw [← eq_table3 hs h.geos.2.1 (h.times.2.nodup (mt_nodup h))]
    · intro g mg t mm
      unfold entryCells
      rw [he]
      simp only [pEntries, hs.times]
      by_cases hm : t ∈ d.kpi.times
      · rw [if_pos hm, if_pos hm, if_neg (by simpa using hs.some_key), withGeoTime_point hi mm,
          List.map_map]
        rfl
      · rw [if_neg hm, if_neg hm, if_pos rfl]

/-! ### Media -/

theorem filter_pMedia {a s : Option Arr3} {p : String → Bool} (g t : String) :
    (pMedia a s g t).filter (fun v => p v.channel) =
      if ∀ c ∈ names a, p c = true then pMedia a s g t
      else (pMedia a s g t).filter fun v => p v.channel := by
  by_cases h : ∀ c ∈ names a, p c = true
  · rw [if_pos h, List.filter_eq_self]
    intro v hv
    cases a with
    | none => cases hv
    | some a =>
      obtain ⟨k, hk, rfl⟩ := List.mem_map.1 hv
      exact h k hk
  · rw [if_neg h]

theorem channel_pMedia {a s : Option Arr3} {v : MediaVar} (h : v ∈ pMedia a s g t) :
    v.channel ∈ names a := by
  cases a with
  | none => cases h
  | some a =>
    obtain ⟨k, hk, rfl⟩ := List.mem_map.1 h
    exact hk

theorem channel_pRf {a f s : Option Arr3} {v : RfVar} (h : v ∈ pRf a f s g t) :
    v.channel ∈ names a := by
  cases a with
  | none => cases f <;> cases h
  | some a =>
    cases f with
    | none => cases h
    | some f =>
      obtain ⟨k, hk, rfl⟩ := List.mem_map.1 h
      exact hk

theorem load_media (h : Ordinary cal mt dates d) (hi : Dated cal mt ivs) (hne : ivs ≠ [])
    {a s : Option Arr3} {type : String} {m : Meta} (ha : ∀ b ∈ a, Shape3 d.kpi.geos mt b)
    (hf : ∀ g t, ((pPoint d ivs g t).media.filter fun v => hasType m type v.channel) =
      pMedia a s g t) :
    gather3 (mediaCells cal m type) (grid d.kpi.geos mt (pPoint d ivs) ++ extras d ivs) =
      .ok a := by
  have hextra : ∀ p ∈ extras d ivs, mediaCells cal m type p = .ok [] := by
    intro p hp
    obtain ⟨t, ht⟩ := withGeoTime_extra (cal := cal) hne hp fun g t =>
      if g = "" then []
      else (p.media.filter fun v => hasType m type v.channel).map fun v => (g, t, v.channel, v.metric)
    unfold mediaCells
    rw [ht, if_pos rfl]
  have hgrid : ∀ g ∈ d.kpi.geos, ∀ t ∈ mt, mediaCells cal m type (pPoint d ivs g t) =
      .ok ((pMedia a s g t).map fun v => (g, t, v.channel, v.metric)) := by
    intro g mg t mm
    unfold mediaCells
    rw [withGeoTime_point hi mm, if_neg (by rintro rfl; exact h.geos.2.2 mg), hf]
  have hmt : mt ≠ [] := fun e => h.times.1 (List.sublist_nil.1 (e ▸ h.times.2))
  cases a with
  | none =>
    refine gather3_none fun p hp => ?_
    rcases List.mem_append.1 hp with hp | hp
    · obtain ⟨g, mg, hp⟩ := List.mem_flatMap.1 hp
      obtain ⟨t, mm, rfl⟩ := List.mem_map.1 hp
      exact hgrid g mg t mm
    · exact hextra p hp
  | some a =>
    have hs := ha a rfl
    rw [gather3_grid (ts := mt) (keys := a.keys) (v := cell3 a) h.geos.2.1 (mt_nodup h)
      hs.distinct h.geos.1 hmt hs.some_key (List.Sublist.refl _) ?_ hextra]
    · rw [← eq_table3 hs h.geos.2.1 (mt_nodup h)]
    · intro g mg t mm
      rw [hgrid g mg t mm, if_pos mm]
      simp only [pMedia, List.map_map]
      rfl

/-- Reach or frequency: `val` is the value that is read, `w` the cell it was. -/
theorem load_rf (h : Ordinary cal mt dates d) (hi : Dated cal mt ivs) (hne : ivs ≠ [])
    {a f s : Option Arr3} {type : String} {m : Meta} {val : RfVar → Num} {r : Option Arr3}
    (hr : (r = none ↔ a = none ∨ f = none))
    (hrs : ∀ b ∈ r, Shape3 d.kpi.geos mt b ∧ b.keys = names a)
    (hval : ∀ b ∈ r, ∀ a' ∈ a, ∀ f' ∈ f, ∀ g ∈ d.kpi.geos, ∀ t ∈ mt, ∀ k ∈ a'.keys,
      val ⟨k, truncInt ((cell3 a' g t k).getD 0), cell3 f' g t k, pSpend s g t k⟩ = cell3 b g t k)
    (hf : ∀ g t, ((pPoint d ivs g t).rf.filter fun v => hasType m type v.channel) =
      pRf a f s g t) :
    gather3 (rfCells cal m type val) (grid d.kpi.geos mt (pPoint d ivs) ++ extras d ivs) =
      .ok r := by
  have hextra : ∀ p ∈ extras d ivs, rfCells cal m type val p = .ok [] := by
    intro p hp
    obtain ⟨t, ht⟩ := withGeoTime_extra (cal := cal) hne hp fun g t =>
      if g = "" then []
      else (p.rf.filter fun v => hasType m type v.channel).map fun v => (g, t, v.channel, val v)
    unfold rfCells
    rw [ht, if_pos rfl]
  have hgrid : ∀ g ∈ d.kpi.geos, ∀ t ∈ mt, rfCells cal m type val (pPoint d ivs g t) =
      .ok ((pRf a f s g t).map fun v => (g, t, v.channel, val v)) := by
    intro g mg t mm
    unfold rfCells
    rw [withGeoTime_point hi mm, if_neg (by rintro rfl; exact h.geos.2.2 mg), hf]
  have hmt : mt ≠ [] := fun e => h.times.1 (List.sublist_nil.1 (e ▸ h.times.2))
  cases r with
  | none =>
    have hnone : ∀ g t, pRf a f s g t = [] := by
      intro g t
      rcases hr.1 rfl with rfl | rfl
      · cases f <;> rfl
      · cases a <;> rfl
    refine gather3_none fun p hp => ?_
    rcases List.mem_append.1 hp with hp | hp
    · obtain ⟨g, mg, hp⟩ := List.mem_flatMap.1 hp
      obtain ⟨t, mm, rfl⟩ := List.mem_map.1 hp
      rw [hgrid g mg t mm, hnone]
      rfl
    · exact hextra p hp
  | some b =>
    have hs := (hrs b rfl).1
    have hk := (hrs b rfl).2
    cases a with
    | none => exact absurd (hr.2 (.inl rfl)) (by simp)
    | some a =>
      cases f with
      | none => exact absurd (hr.2 (.inr rfl)) (by simp)
      | some f =>
        rw [gather3_grid (ts := mt) (keys := b.keys) (v := cell3 b) h.geos.2.1 (mt_nodup h)
          hs.distinct h.geos.1 hmt hs.some_key (List.Sublist.refl _) ?_ hextra]
        · rw [← eq_table3 hs h.geos.2.1 (mt_nodup h)]
        · intro g mg t mm
          rw [hgrid g mg t mm, if_pos mm]
          simp only [pRf, List.map_map]
          rw [hk]
          congr 1
          refine List.map_congr_left fun k mk => ?_
          simp only [Function.comp]
          rw [hval b rfl a rfl f rfl g mg t mm k mk]

/-! ### Spend -/

theorem grid_eq_map (geos mt : List String) (P : String → String → Point) :
    grid geos mt P = (geos.flatMap fun g => mt.map fun t => (g, t)).map fun p => P p.1 p.2 := by
  unfold grid
  rw [List.map_flatMap]
  congr 1
  funext g
  rw [List.map_map]
  rfl

theorem filter_grid {geos mt ts : List String} {P : String → String → Point} {q : Point → Bool}
    (hs : ts.Sublist mt) (hm : mt.Nodup)
    (h : ∀ g ∈ geos, ∀ t ∈ mt, q (P g t) = decide (t ∈ ts)) :
    (grid geos mt P).filter q = grid geos ts P := by
  unfold grid
  induction geos with
  | nil => rfl
  | cons g geos ih =>
    rw [List.flatMap_cons, List.flatMap_cons, List.filter_append,
      ih fun g hg => h g (by simp [hg])]
    congr 1
    rw [List.filter_map]
    congr 1
    conv_rhs => rw [← filter_sublist hs hm]
    refine List.filter_congr fun t ht => ?_
    exact h g (by simp) t ht

theorem filter_nil_of {l : List Point} {q : Point → Bool} (h : ∀ p ∈ l, q p = false) :
    l.filter q = [] := by
  rw [List.filter_eq_nil_iff]
  intro p hp
  rw [h p hp]
  simp

/-- What a record says about the spend that is broken down by geo and time. -/
def gridSpend (keys : List String) (s : Option Arr3) (g t : String) : List (String × Num) :=
  match s with
  | none => []
  | some b => if t ∈ b.times then keys.map fun k => (k, cell3 b g t k) else []

/-- Spend by geo and time, or no spend. -/
theorem load_spend_granular (h : Ordinary cal mt dates d) (hi : Dated cal mt ivs)
    {s : Option Arr3} {keys : List String} {type dim : String} {m : Meta}
    {spends : Point → List (String × Num)}
    (hs : ∀ x ∈ s, Shape3 d.kpi.geos d.kpi.times x ∧ x.keys = keys)
    (htype : ∀ c ∈ keys, hasType m type c = true)
    (hgrid : ∀ g t, spends (pPoint d ivs g t) = gridSpend keys s g t)
    (hx : ∀ p ∈ extras d ivs, spends p = []) :
    loadSpend cal m type dim spends (grid d.kpi.geos mt (pPoint d ivs) ++ extras d ivs) =
      .ok (s.map .granular) := by
  have hextra : ((extras d ivs).filter fun p => (spends p).any fun e => hasType m type e.1) = [] :=
    filter_nil_of fun p hp => by rw [hx p hp]; rfl
  unfold loadSpend
  cases s with
  | none =>
    have : (grid d.kpi.geos mt (pPoint d ivs) ++ extras d ivs).filter
        (fun p => (spends p).any fun e => hasType m type e.1) = [] := by
      rw [List.filter_append, hextra, List.append_nil]
      refine filter_nil_of fun p hp => ?_
      obtain ⟨g, -, hp⟩ := List.mem_flatMap.1 hp
      obtain ⟨t, -, rfl⟩ := List.mem_map.1 hp
      rw [hgrid]
      rfl
    rw [this]
    rfl
  | some b =>
    obtain ⟨h1, h2⟩ := hs b rfl
    have hps : (grid d.kpi.geos mt (pPoint d ivs) ++ extras d ivs).filter
        (fun p => (spends p).any fun e => hasType m type e.1) =
        grid d.kpi.geos d.kpi.times (pPoint d ivs) := by
      rw [List.filter_append, hextra, List.append_nil]
      refine filter_grid h.times.2 (mt_nodup h) fun g _ t _ => ?_
      rw [hgrid]
      simp only [gridSpend, h1.times]
      by_cases hm : t ∈ d.kpi.times
      · rw [if_pos hm, decide_eq_true hm, List.any_eq_true]
        obtain ⟨k, hk⟩ := List.exists_mem_of_ne_nil _ h1.some_key
        rw [h2] at hk
        exact ⟨_, List.mem_map.2 ⟨k, hk, rfl⟩, htype k hk⟩
      · rw [if_neg hm, decide_eq_false hm]
        rfl
    rw [hps]
    have hne : grid d.kpi.geos d.kpi.times (pPoint d ivs) ≠ [] := by
      obtain ⟨g0, hg0⟩ := List.exists_mem_of_ne_nil _ h.geos.1
      obtain ⟨t0, ht0⟩ := List.exists_mem_of_ne_nil _ h.times.1
      exact List.ne_nil_of_mem (List.mem_flatMap.2 ⟨g0, hg0, List.mem_map.2 ⟨t0, ht0, rfl⟩⟩)
    simp only
    rw [if_neg hne]
    have hagg : aggregatedPoints cal m (grid d.kpi.geos d.kpi.times (pPoint d ivs)) = .ok [] := by
      unfold aggregatedPoints
      rw [if_pos]
      rw [List.all_eq_true]
      intro p hp
      obtain ⟨g, -, hp⟩ := List.mem_flatMap.1 hp
      obtain ⟨t, -, rfl⟩ := List.mem_map.1 hp
      rfl
    rw [hagg]
    simp only
    have hn := h.times.2.nodup (mt_nodup h)
    have := gather3_grid (f := spendCells cal m type spends) (mt := d.kpi.times)
      (ts := d.kpi.times) (keys := keys) (P := pPoint d ivs) (v := cell3 b) (extra := [])
      h.geos.2.1 hn (by rw [← h2]; exact h1.distinct) h.geos.1 h.times.1
      (by rw [← h2]; exact h1.some_key) (List.Sublist.refl _) ?_ (by simp)
    · rw [List.append_nil] at this
      rw [this]
      conv_rhs => rw [eq_table3 h1 h.geos.2.1 hn]
      rw [h2]
      rfl
    · intro g mg t mm
      unfold spendCells
      rw [withGeoTime_point hi (h.times.2.subset mm), hgrid]
      simp only [gridSpend, h1.times]
      rw [if_pos mm, if_pos mm, List.filter_eq_self.2, List.map_map]
      · rfl
      · intro e he
        obtain ⟨k, hk, rfl⟩ := List.mem_map.1 he
        exact htype k hk

/-- Spend by channel only. -/
theorem load_spend_aggregated (hivs : dateIntervals cal dates = .ok ivs) (hne : ivs ≠ [])
    {a : Arr1} {keys : List String} {type dim : String} {q : Point} {pre post : List Point}
    {spends : Point → List (String × Num)}
    (ha : a.keys = keys ∧ a.vals.length = keys.length) (hk : keys ≠ []) (hkn : keys.Nodup)
    (hdim : get dim (channelDims (metadata d ds dates)) = some keys)
    (htype : ∀ c ∈ keys, hasType (metadata d ds dates) type c = true)
    (hpre : ∀ p ∈ pre, spends p = []) (hpost : ∀ p ∈ post, spends p = [])
    (hq : spends q = a.keys.zip a.vals) (hqg : q.geo = none)
    (hqi : q.interval = span (ivs.map Prod.snd)) :
    loadSpend cal (metadata d ds dates) type dim spends (pre ++ q :: post) =
      .ok (some (.aggregated a)) := by
  obtain ⟨ak, av⟩ := a
  obtain ⟨h1, h2⟩ := ha
  simp only at h1 h2 hq
  subst h1
  have hzip : (ak.zip av).map Prod.fst = ak := List.map_fst_zip (by omega)
  have hzip2 : (ak.zip av).map Prod.snd = av := List.map_snd_zip (by omega)
  have hzne : ak.zip av ≠ [] := fun e => hk (by rw [← hzip, e]; rfl)
  have hps : (pre ++ q :: post).filter
      (fun p => (spends p).any fun e => hasType (metadata d ds dates) type e.1) = [q] := by
    rw [List.filter_append, filter_nil_of fun p hp => by rw [hpre p hp]; rfl, List.nil_append,
      List.filter_cons_of_pos (p := fun p : Point => (spends p).any fun e =>
        hasType (metadata d ds dates) type e.1), filter_nil_of fun p hp => by rw [hpost p hp]; rfl]
    rw [hq, List.any_eq_true]
    obtain ⟨e, he⟩ := List.exists_mem_of_ne_nil _ hzne
    exact ⟨e, he, htype _ (List.of_mem_zip (a := e.1) (b := e.2) he).1⟩
  obtain ⟨i, hi⟩ := span_some (l := ivs.map Prod.snd) (by simpa using hne)
  have hagg : aggregatedPoints cal (metadata d ds dates) [q] = .ok [q] := by
    unfold aggregatedPoints wholeInterval
    rw [if_neg (by simp [hqg])]
    show Except.map _ (match dateIntervals cal dates with
      | .error e => .error e
      | .ok ivs => match span (ivs.map Prod.snd) with
        | none => .error .noDates
        | some i => .ok i) = _
    rw [hivs]
    simp only [hi]
    show Except.ok ([q].filter (isAggregated i)) = _
    rw [List.filter_cons_of_pos, List.filter_nil]
    unfold isAggregated
    rw [hqg, hqi, hi]
    simp
  unfold loadSpend
  rw [hps]
  simp only
  rw [if_neg (by simp), hagg]
  simp only
  congr 1
  unfold aggregatedSpend
  rw [hdim]
  have hfilter : (([q].flatMap spends).filter fun e => decide (e.1 ∈ (some ak).getD [])) =
      ak.zip av := by
    rw [List.flatMap_cons, List.flatMap_nil, List.append_nil, hq, List.filter_eq_self]
    intro e he
    exact decide_eq_true (List.of_mem_zip (a := e.1) (b := e.2) he).1
  have hfold : (ak.zip av).foldl (fun acc e => put e.1 e.2 acc) [] = ak.zip av := by
    rw [foldl_put (key := fun e : String × Num => e.1) (val := fun e => e.2) _ []]
    · simp
    · show ([] ++ (ak.zip av).map Prod.fst).Nodup
      rw [List.nil_append, hzip]
      exact hkn
  simp only
  rw [hfilter, hfold, if_neg hzne, hzip, hzip2]
  rfl

/-! ### Population and KPI -/

theorem foldl_const {v : Num} (n : List String) (g : String) (acc : List (String × Num))
    (hn : n ≠ []) (hg : g ≠ "") (ha : g ∉ acc.map Prod.fst) :
    (n.map fun _ => (g, v)).foldl
      (fun acc (x : String × Num) => if x.1 = "" then acc else put x.1 x.2 acc) acc =
      acc ++ [(g, v)] := by
  have key : ∀ m : List String, (m.map fun _ => (g, v)).foldl
      (fun acc (x : String × Num) => if x.1 = "" then acc else put x.1 x.2 acc)
      (acc ++ [(g, v)]) = acc ++ [(g, v)] := by
    intro m
    induction m with
    | nil => rfl
    | cons a m ih =>
      rw [List.map_cons, List.foldl_cons, if_neg hg]
      have : put g v (acc ++ [(g, v)]) = acc ++ [(g, v)] := by
        clear ih
        induction acc with
        | nil => simp [put]
        | cons b acc ih =>
          obtain ⟨k, w⟩ := b
          rw [List.map_cons, List.mem_cons, not_or] at ha
          simp only [List.cons_append, put]
          rw [if_neg fun e => ha.1 e.symm, ih ha.2]
      rw [this]
      exact ih
  cases n with
  | nil => exact absurd rfl hn
  | cons a m =>
    rw [List.map_cons, List.foldl_cons, if_neg hg, put_new ha]
    exact key m

theorem load_population (h : Ordinary cal mt dates d) (hne : ivs ≠ []) :
    loadPopulation (grid d.kpi.geos mt (pPoint d ivs) ++ extras d ivs) = d.population := by
  have hmt : mt ≠ [] := fun e => h.times.1 (List.sublist_nil.1 (e ▸ h.times.2))
  have hx : (extras d ivs).filterMap (fun p => p.geo) = [] := by
    rw [List.filterMap_eq_nil_iff]
    intro p hp
    exact (extras_spec hne hp).1
  have hgrid : (grid d.kpi.geos mt (pPoint d ivs)).filterMap (fun p => p.geo) =
      d.kpi.geos.flatMap fun g => mt.map fun _ =>
        (g, at' d.population.keys d.population.vals none g) := by
    unfold grid
    rw [List.filterMap_flatMap]
    congr 1
    funext g
    rw [List.filterMap_map]
    exact congrFun (List.filterMap_eq_map (f := fun _ : String =>
      (g, at' d.population.keys d.population.vals none g))) mt
  have hfold : ∀ (gs : List String) (acc : List (String × Num)) (f : String → Num),
      (acc.map Prod.fst ++ gs).Nodup → "" ∉ gs →
      (gs.flatMap fun g => mt.map fun _ => (g, f g)).foldl
        (fun acc (x : String × Num) => if x.1 = "" then acc else put x.1 x.2 acc) acc =
        acc ++ gs.map fun g => (g, f g) := by
    intro gs
    induction gs with
    | nil => intro acc f _ _; simp
    | cons g gs ih =>
      intro acc f hn he
      rw [List.mem_cons, not_or] at he
      rw [List.flatMap_cons, List.foldl_append, foldl_const mt g acc hmt (fun e => he.1 e.symm), ih]
      · simp
      · simpa using hn
      · exact he.2
      · intro hm
        rw [List.nodup_append] at hn
        exact hn.2.2 _ hm _ (by simp) rfl
  unfold loadPopulation
  rw [List.filterMap_append, hx, List.append_nil, hgrid,
    hfold _ [] (at' d.population.keys d.population.vals none) (by simpa using h.geos.2.1) h.geos.2.2]
  obtain ⟨h1, h2⟩ := h.population
  cases hp : d.population with
  | mk pk pv =>
    rw [hp] at h1 h2
    simp only at h1 h2
    simp only [List.nil_append, List.map_map]
    rw [Arr1.mk.injEq]
    refine ⟨?_, ?_⟩
    · rw [h1]
      exact List.map_id' _
    · rw [h1]
      exact map_at none h2 h.geos.2.1

theorem load_kpiType (h : Ordinary cal mt dates d) (hne : ivs ≠ []) :
    loadKpiType (grid d.kpi.geos mt (pPoint d ivs) ++ extras d ivs) = .ok d.kpiType := by
  have hall : ∀ x ∈ ((grid d.kpi.geos mt (pPoint d ivs) ++ extras d ivs).filterMap
      fun p => p.kpi).map Kpi.type, x = d.kpiType := by
    intro x hx
    obtain ⟨k, hk, rfl⟩ := List.mem_map.1 hx
    obtain ⟨p, hp, hk⟩ := List.mem_filterMap.1 hk
    rcases List.mem_append.1 hp with hp | hp
    · obtain ⟨g, -, hp⟩ := List.mem_flatMap.1 hp
      obtain ⟨t, -, rfl⟩ := List.mem_map.1 hp
      have hk' : pKpi d g t = some k := hk
      unfold pKpi at hk'
      by_cases hm : t ∈ d.kpi.times
      · rw [if_pos hm] at hk'
        rw [← Option.some.inj hk']
        unfold pKpiOf
        cases hkt : d.kpiType <;> rfl
      · rw [if_neg hm] at hk'; cases hk'
    · rw [(extras_spec hne hp).2.2.2.1] at hk; cases hk
  have hsome : ((grid d.kpi.geos mt (pPoint d ivs) ++ extras d ivs).filterMap
      fun p => p.kpi).map Kpi.type ≠ [] := by
    obtain ⟨g0, hg0⟩ := List.exists_mem_of_ne_nil _ h.geos.1
    obtain ⟨t0, ht0⟩ := List.exists_mem_of_ne_nil _ h.times.1
    refine List.ne_nil_of_mem (a := (pKpiOf d g0 t0).type) (List.mem_map.2 ⟨_, ?_, rfl⟩)
    refine List.mem_filterMap.2 ⟨pPoint d ivs g0 t0, ?_, ?_⟩
    · exact List.mem_append_left _ (List.mem_flatMap.2 ⟨g0, hg0, List.mem_map.2
        ⟨t0, h.times.2.subset ht0, rfl⟩⟩)
    · show pKpi d g0 t0 = _
      unfold pKpi
      rw [if_pos ht0]
  unfold loadKpiType
  generalize ((grid d.kpi.geos mt (pPoint d ivs) ++ extras d ivs).filterMap
      fun p => p.kpi).map Kpi.type = l at hall hsome
  cases l with
  | nil => exact absurd rfl hsome
  | cons k ks =>
    have hk := hall k (by simp)
    simp only
    rw [if_pos, hk]
    rw [List.all_eq_true]
    intro x hx
    rw [hall x (by simp [hx]), hk]
    simp

theorem geoTime_point (hi : Dated cal mt ivs) (mm : t ∈ mt) :
    geoTime cal (pPoint d ivs g t) = .ok (g, t) := by
  obtain ⟨i, h1, h2⟩ := hi t mm
  unfold geoTime
  have h3 : (pPoint d ivs g t).interval = some i := h1
  rw [h3]
  simp only [h2]
  rfl

theorem load_kpi (h : Ordinary cal mt dates d) (hi : Dated cal mt ivs) (hne : ivs ≠ []) :
    loadKpi cal d.kpiType (grid d.kpi.geos mt (pPoint d ivs) ++ extras d ivs) = .ok d.kpi := by
  have hn := h.times.2.nodup (mt_nodup h)
  unfold loadKpi
  rw [gather2_grid (ts := d.kpi.times) (v := cell2 d.kpi) h.geos.2.1 (mt_nodup h) h.geos.1
    h.times.1 h.times.2]
  · simp only
    rw [← eq_table2 h.kpi h.geos.2.1 hn]
  · intro g _ t mm
    have hk : (pPoint d ivs g t).kpi = pKpi d g t := rfl
    unfold kpiCells
    rw [hk]
    unfold pKpi
    by_cases hm : t ∈ d.kpi.times
    · rw [if_pos hm, if_pos hm]
      simp only
      rw [geoTime_point hi mm]
      unfold pKpiOf
      cases hkt : d.kpiType <;> rfl
    · rw [if_neg hm, if_neg hm]
  · intro p hp
    unfold kpiCells
    rw [(extras_spec hne hp).2.2.2.1]

theorem load_revenue (h : Ordinary cal mt dates d) (hi : Dated cal mt ivs) (hne : ivs ≠ [])
    (hkt : d.kpiType = .nonRevenue) :
    gather2 (revenueCells cal) (grid d.kpi.geos mt (pPoint d ivs) ++ extras d ivs) =
      .ok d.revenuePerKpi := by
  have hn := h.times.2.nodup (mt_nodup h)
  have hx : ∀ p ∈ extras d ivs, revenueCells cal p = .ok [] := by
    intro p hp
    unfold revenueCells
    rw [(extras_spec hne hp).2.2.2.1]
  have hk : ∀ g t, (pPoint d ivs g t).kpi = if t ∈ d.kpi.times then
      some (Kpi.nonRevenue (cell2 d.kpi g t) (pRevenue d.revenuePerKpi g t)) else none := by
    intro g t
    show pKpi d g t = _
    unfold pKpi pKpiOf
    rw [hkt]
  cases hr : d.revenuePerKpi with
  | none =>
    refine gather2_none fun p hp => ?_
    rcases List.mem_append.1 hp with hp | hp
    · obtain ⟨g, -, hp⟩ := List.mem_flatMap.1 hp
      obtain ⟨t, -, rfl⟩ := List.mem_map.1 hp
      unfold revenueCells
      rw [hk, hr]
      by_cases hm : t ∈ d.kpi.times
      · rw [if_pos hm]; rfl
      · rw [if_neg hm]
    · exact hx p hp
  | some r =>
    have hs := h.revenue r hr
    rw [gather2_grid (ts := d.kpi.times) (v := cell2 r) h.geos.2.1 (mt_nodup h) h.geos.1
      h.times.1 h.times.2 ?_ hx]
    · rw [← eq_table2 hs h.geos.2.1 hn]
    · intro g _ t mm
      unfold revenueCells
      rw [hk, hr]
      by_cases hm : t ∈ d.kpi.times
      · rw [if_pos hm, if_pos hm]
        exact withGeoTime_point hi mm fun g t => [(g, t, cell2 r _ _)]
      · rw [if_neg hm, if_neg hm]

end Read

end Verif.DataSerde.Lemmas

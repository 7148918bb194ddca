import Verif.Lemmas.DataSerde3

/-!
# C68: input data can be saved and loaded
-/

namespace Verif.DataSerde.Props

open Verif.DataSerde Verif.DataSerde.Spec Verif.DataSerde.Lemmas Verif.Calendar

variable {cal : Cal} {mt : List String} {dates : List CDate} {d : Data}

theorem filter_two {α : Type} {l₁ l₂ : List α} {p : α → Bool} (h₁ : ∀ x ∈ l₁, p x = true)
    (h₂ : ∀ x ∈ l₂, p x = false) : (l₁ ++ l₂).filter p = l₁ := by
  rw [List.filter_append, List.filter_eq_self.2 h₁, List.filter_eq_nil_iff.2, List.append_nil]
  intro x hx
  rw [h₂ x hx]
  simp

theorem filter_two' {α : Type} {l₁ l₂ : List α} {p : α → Bool} (h₁ : ∀ x ∈ l₁, p x = false)
    (h₂ : ∀ x ∈ l₂, p x = true) : (l₁ ++ l₂).filter p = l₂ := by
  rw [List.filter_append, List.filter_eq_self.2 h₂, List.filter_eq_nil_iff.2, List.nil_append]
  intro x hx
  rw [h₁ x hx]
  simp

/-! ### Fractions -/

theorem whole_some (q : ℚ) : whole (some q) = some ((truncInt q : ℤ) : ℚ) := by
  show some (if 0 ≤ q then ((⌊q⌋ : ℤ) : ℚ) else ((⌈q⌉ : ℤ) : ℚ)) = _
  unfold truncInt
  split_ifs <;> rfl

theorem shape_whole {gs ts : List String} {a : Arr3} (h : Shape3 gs ts a) :
    Shape3 gs ts (wholeArr a) where
  geos := h.geos
  times := h.times
  some_key := h.some_key
  distinct := h.distinct
  rows := by simpa [wholeArr] using h.rows
  cols := by
    intro r hr
    obtain ⟨r', hr', rfl⟩ := List.mem_map.1 hr
    simpa using h.cols r' hr'
  cells := by
    intro r hr c hc
    obtain ⟨r', hr', rfl⟩ := List.mem_map.1 hr
    obtain ⟨c', hc', rfl⟩ := List.mem_map.1 hc
    rw [List.length_map]
    exact h.cells r' hr' c' hc'

theorem at_map {α β : Type} {labels : List String} {rows : List α} {f : α → β} {x : String}
    {dflt : α} {dflt' : β} (hl : rows.length = labels.length) (hx : x ∈ labels) :
    at' labels (rows.map f) dflt' x = f (at' labels rows dflt x) := by
  induction labels generalizing rows with
  | nil => cases hx
  | cons l labels ih =>
    cases rows with
    | nil => cases hl
    | cons r rows =>
      rw [List.map_cons]
      by_cases h : l = x
      · subst h; rw [at_cons_self, at_cons_self]
      · rw [at_cons_ne _ _ _ _ h, at_cons_ne _ _ _ _ h]
        refine ih (by simpa using hl) ?_
        rcases List.mem_cons.1 hx with h' | h'
        · exact absurd h'.symm h
        · exact h'

theorem cell_whole {gs ts : List String} {a : Arr3} (h : Shape3 gs ts a) {g t k : String}
    (mg : g ∈ gs) (mt : t ∈ ts) (mk : k ∈ a.keys) :
    cell3 (wholeArr a) g t k = whole (cell3 a g t k) := by
  have hr : at' a.geos a.vals [] g ∈ a.vals :=
    at_mem (by rw [h.rows, h.geos]) (by rw [h.geos]; exact mg)
  have hc : at' a.times (at' a.geos a.vals [] g) [] t ∈ at' a.geos a.vals [] g :=
    at_mem (by rw [h.cols _ hr, h.times]) (by rw [h.times]; exact mt)
  unfold cell3
  show at' a.keys (at' a.times (at' a.geos (a.vals.map fun r => r.map fun c => c.map whole) [] g)
    [] t) none k = _
  rw [at_map (dflt := []) (by rw [h.rows, h.geos]) (by rw [h.geos]; exact mg),
    at_map (dflt := []) (by rw [h.cols _ hr, h.times]) (by rw [h.times]; exact mt),
    at_map (dflt := none) (h.cells _ hr _ hc) mk]

theorem whole_of_whole {a : Arr3} (h : Whole a) : wholeArr a = a := by
  unfold wholeArr
  have : (a.vals.map fun r => r.map fun c => c.map whole) = a.vals := by
    conv_rhs => rw [← List.map_id a.vals]
    refine List.map_congr_left fun r hr => ?_
    conv_rhs => rw [id, ← List.map_id r]
    refine List.map_congr_left fun c hc => ?_
    conv_rhs => rw [id, ← List.map_id c]
    refine List.map_congr_left fun v hv => ?_
    obtain ⟨n, rfl⟩ := h r hr c hc v hv
    simp [whole]
  rw [this]

theorem whole_of_eq {a : Arr3} (hn : Numbers a) (h : wholeArr a = a) : Whole a := by
  intro r hr c hc v hv
  have h1 : (a.vals.map fun r => r.map fun c => c.map whole) = a.vals := congrArg Arr3.vals h
  have h2 : (r.map fun c => c.map whole) = r := by
    conv_rhs at h1 => rw [← List.map_id a.vals]
    exact List.map_inj_left.1 h1 r hr
  have h3 : c.map whole = c := by
    conv_rhs at h2 => rw [← List.map_id r]
    exact List.map_inj_left.1 h2 c hc
  have h4 : whole v = v := by
    conv_rhs at h3 => rw [← List.map_id c]
    exact List.map_inj_left.1 h3 v hv
  obtain ⟨q, rfl⟩ := Option.ne_none_iff_exists'.1 (hn r hr c hc v hv)
  rw [whole_some] at h4
  exact ⟨truncInt q, h4.symm⟩

/-! ### Types of the channels in a record -/

section Filters

variable (h : Ordinary cal mt dates d) (ds : List CDate) (ivs : List (String × Interval))
include h

theorem filter_media (g t : String) :
    ((pPoint d ivs g t).media.filter fun v =>
      hasType (metadata d ds dates) "media_channel" v.channel) =
      pMedia d.media (granular d.mediaSpend) g t := by
  have hd := h.distinct
  simp only [List.nodup_append, List.mem_append] at hd
  refine filter_two (fun v hv => ?_) fun v hv => ?_
  · rw [hasType_media h]
    exact decide_eq_true (channel_pMedia hv)
  · rw [hasType_media h]
    exact decide_eq_false fun h' => hd.1.2.2 _ (.inl h') _ (channel_pMedia hv) rfl

theorem filter_organicMedia (g t : String) :
    ((pPoint d ivs g t).media.filter fun v =>
      hasType (metadata d ds dates) "organic_media_channel" v.channel) =
      pMedia d.organicMedia none g t := by
  have hd := h.distinct
  simp only [List.nodup_append, List.mem_append] at hd
  refine filter_two' (fun v hv => ?_) fun v hv => ?_
  · rw [hasType_organicMedia h]
    exact decide_eq_false fun h' => hd.1.2.2 _ (.inl (channel_pMedia hv)) _ h' rfl
  · rw [hasType_organicMedia h]
    exact decide_eq_true (channel_pMedia hv)

theorem filter_rf (g t : String) :
    ((pPoint d ivs g t).rf.filter fun v =>
      hasType (metadata d ds dates) "rf_channel" v.channel) =
      pRf d.reach d.frequency (granular d.rfSpend) g t := by
  have hd := h.distinct
  simp only [List.nodup_append, List.mem_append] at hd
  refine filter_two (fun v hv => ?_) fun v hv => ?_
  · rw [hasType_rf h]
    exact decide_eq_true (channel_pRf hv)
  · rw [hasType_rf h]
    exact decide_eq_false fun h' => hd.2.2 _ (.inl (.inr h')) _ (channel_pRf hv) rfl

theorem filter_organicRf (g t : String) :
    ((pPoint d ivs g t).rf.filter fun v =>
      hasType (metadata d ds dates) "organic_rf_channel" v.channel) =
      pRf d.organicReach d.organicFrequency none g t := by
  have hd := h.distinct
  simp only [List.nodup_append, List.mem_append] at hd
  refine filter_two' (fun v hv => ?_) fun v hv => ?_
  · rw [hasType_organicRf h]
    exact decide_eq_false fun h' => hd.2.2 _ (.inl (.inr (channel_pRf hv))) _ h' rfl
  · rw [hasType_organicRf h]
    exact decide_eq_true (channel_pRf hv)

end Filters

/-! ### Spend in a record -/

theorem mediaSpends_none {a : Option Arr3} (g t : String) :
    ((pMedia a none g t).filterMap fun v => v.spend.map fun s => (v.channel, s)) = [] := by
  cases a with
  | none => rfl
  | some a =>
    rw [List.filterMap_eq_nil_iff]
    intro v hv
    obtain ⟨k, -, rfl⟩ := List.mem_map.1 hv
    rfl

theorem rfSpends_none {a f : Option Arr3} (g t : String) :
    ((pRf a f none g t).filterMap fun v => v.spend.map fun s => (v.channel, s)) = [] := by
  cases a with
  | none => cases f <;> rfl
  | some a =>
    cases f with
    | none => rfl
    | some f =>
      rw [List.filterMap_eq_nil_iff]
      intro v hv
      obtain ⟨k, -, rfl⟩ := List.mem_map.1 hv
      rfl

theorem mediaSpends_point (h : Ordinary cal mt dates d) (ivs : List (String × Interval))
    (g t : String) : mediaSpends (pPoint d ivs g t) =
      gridSpend (names d.media) (granular d.mediaSpend) g t := by
  show ((pMedia d.media (granular d.mediaSpend) g t ++ pMedia d.organicMedia none g t).filterMap
    fun v => v.spend.map fun s => (v.channel, s)) = _
  rw [List.filterMap_append, mediaSpends_none, List.append_nil]
  cases hs : granular d.mediaSpend with
  | none => exact mediaSpends_none g t
  | some b =>
    have hm : ∃ a, d.media = some a := by
      cases hd : d.mediaSpend with
      | none => rw [hd] at hs; cases hs
      | some s => obtain ⟨a, ha, -⟩ := h.mediaSpend s hd; exact ⟨a, ha⟩
    obtain ⟨a, ha⟩ := hm
    rw [ha]
    simp only [gridSpend, pMedia, names, pSpend, Option.map_some, Option.getD_some, List.filterMap_map]
    by_cases hm : t ∈ b.times
    · simp only [if_pos hm]
      exact congrFun (List.filterMap_eq_map (f := fun k : String => (k, cell3 b g t k))) a.keys
    · simp only [if_neg hm]
      rw [List.filterMap_eq_nil_iff]
      intro k _
      rfl

theorem rfSpends_point (h : Ordinary cal mt dates d) (ivs : List (String × Interval))
    (g t : String) : rfSpends (pPoint d ivs g t) =
      gridSpend (names d.reach) (granular d.rfSpend) g t := by
  show ((pRf d.reach d.frequency (granular d.rfSpend) g t ++
    pRf d.organicReach d.organicFrequency none g t).filterMap
    fun v => v.spend.map fun s => (v.channel, s)) = _
  rw [List.filterMap_append, rfSpends_none, List.append_nil]
  cases hs : granular d.rfSpend with
  | none => exact rfSpends_none g t
  | some b =>
    have hm : ∃ a, d.reach = some a := by
      cases hd : d.rfSpend with
      | none => rw [hd] at hs; cases hs
      | some s => obtain ⟨a, ha, -⟩ := h.rfSpend s hd; exact ⟨a, ha⟩
    obtain ⟨a, ha⟩ := hm
    have hf : ∃ f, d.frequency = some f := by
      cases hf : d.frequency with
      | none => rw [h.pairs.1.2 hf] at ha; cases ha
      | some f => exact ⟨f, rfl⟩
    obtain ⟨f, hf⟩ := hf
    rw [ha, hf]
    simp only [gridSpend, pRf, names, pSpend, Option.map_some, Option.getD_some, List.filterMap_map]
    by_cases hm : t ∈ b.times
    · simp only [if_pos hm]
      exact congrFun (List.filterMap_eq_map (f := fun k : String => (k, cell3 b g t k))) a.keys
    · simp only [if_neg hm]
      rw [List.filterMap_eq_nil_iff]
      intro k _
      rfl

theorem mediaSpends_rfPoint {ivs : List (String × Interval)} {s : Option Spend} {p : Point}
    (h : p ∈ rfSpendPoint s ivs) : mediaSpends p = [] := by
  obtain ⟨a, -, rfl⟩ := mem_rfSpendPoint h
  rfl

theorem rfSpends_mediaPoint {ivs : List (String × Interval)} {s : Option Spend} {p : Point}
    (h : p ∈ mediaSpendPoint s ivs) : rfSpends p = [] := by
  obtain ⟨a, -, rfl⟩ := mem_mediaSpendPoint h
  rfl

theorem mediaSpends_agg (a : Arr1) (ivs : List (String × Interval)) :
    mediaSpends (aggMedia a ivs) = a.keys.zip a.vals := by
  unfold mediaSpends aggMedia
  simp only [List.filterMap_map]
  exact (congrFun (List.filterMap_eq_map (f := fun e : String × Num => (e.1, e.2))) _).trans
    (List.map_id' _)

theorem rfSpends_agg (a : Arr1) (ivs : List (String × Interval)) :
    rfSpends (aggRf a ivs) = a.keys.zip a.vals := by
  unfold rfSpends aggRf
  simp only [List.filterMap_map]
  exact (congrFun (List.filterMap_eq_map (f := fun e : String × Num => (e.1, e.2))) _).trans
    (List.map_id' _)

theorem get_append {β : Type} {k : String} {l₁ l₂ : List (String × β)}
    (h : k ∉ l₁.map Prod.fst) : get k (l₁ ++ l₂) = get k l₂ := by
  induction l₁ with
  | nil => rfl
  | cons p l ih =>
    obtain ⟨a, v⟩ := p
    rw [List.map_cons, List.mem_cons, not_or] at h
    rw [List.cons_append]
    simp only [get]
    rw [if_neg fun e => h.1 e.symm]
    exact ih h.2

theorem get_media_dim {a : Arr3} (ha : d.media = some a) (ds : List CDate) :
    get "media" (channelDims (metadata d ds dates)) = some a.keys := by
  rw [channelDims_eq]
  unfold metadata
  rw [ha]
  rfl

theorem get_reach_dim {a : Arr3} (ha : d.reach = some a) (ds : List CDate) :
    get "reach" (channelDims (metadata d ds dates)) = some a.keys := by
  rw [channelDims_eq]
  unfold metadata
  rw [ha]
  simp only [List.append_assoc]
  rw [get_append]
  · rfl
  · cases d.media with
    | none => simp [channelDim]
    | some a => simp [channelDim]

theorem load_mediaSpend (h : Ordinary cal mt dates d) {ds : List CDate}
    {ivs : List (String × Interval)} (hi : Dated cal mt ivs)
    (hivs : dateIntervals cal dates = .ok ivs) (hne : ivs ≠ []) :
    loadSpend cal (metadata d ds dates) "media_channel" "media" mediaSpends
      (grid d.kpi.geos mt (pPoint d ivs) ++ extras d ivs) = .ok d.mediaSpend := by
  have htype : ∀ c ∈ names d.media, hasType (metadata d ds dates) "media_channel" c = true :=
    fun c hc => by rw [hasType_media h]; exact decide_eq_true hc
  by_cases hagg : ∃ a, d.mediaSpend = some (.aggregated a)
  · obtain ⟨a, ha⟩ := hagg
    obtain ⟨m, hm, hshape⟩ := h.mediaSpend _ ha
    have hms := h.media m hm
    have hl : grid d.kpi.geos mt (pPoint d ivs) ++ extras d ivs =
        grid d.kpi.geos mt (pPoint d ivs) ++ aggMedia a ivs :: rfSpendPoint d.rfSpend ivs := by
      unfold extras
      rw [ha]
      rfl
    rw [hl, ha]
    refine load_spend_aggregated (keys := m.keys) hivs hne hshape hms.some_key hms.distinct
      (get_media_dim hm ds) ?_ ?_ ?_ (mediaSpends_agg a ivs) rfl rfl
    · intro c hc; exact htype c (by rw [hm]; exact hc)
    · intro p hp
      obtain ⟨g, -, hp⟩ := List.mem_flatMap.1 hp
      obtain ⟨t, -, rfl⟩ := List.mem_map.1 hp
      rw [mediaSpends_point h, ha]
      rfl
    · intro p hp
      exact mediaSpends_rfPoint hp
  · have hmap : d.mediaSpend = (granular d.mediaSpend).map .granular := by
      cases hs : d.mediaSpend with
      | none => rfl
      | some s =>
        cases s with
        | granular b => rfl
        | aggregated a => exact absurd ⟨a, hs⟩ hagg
    conv_rhs => rw [hmap]
    refine load_spend_granular (keys := names d.media) h hi (granular_media h) htype
      (mediaSpends_point h ivs) fun p hp => ?_
    rcases List.mem_append.1 hp with hp | hp
    · obtain ⟨a, ha, -⟩ := mem_mediaSpendPoint hp
      exact absurd ⟨a, ha⟩ hagg
    · exact mediaSpends_rfPoint hp

theorem load_rfSpend (h : Ordinary cal mt dates d) {ds : List CDate}
    {ivs : List (String × Interval)} (hi : Dated cal mt ivs)
    (hivs : dateIntervals cal dates = .ok ivs) (hne : ivs ≠ []) :
    loadSpend cal (metadata d ds dates) "rf_channel" "reach" rfSpends
      (grid d.kpi.geos mt (pPoint d ivs) ++ extras d ivs) = .ok d.rfSpend := by
  have htype : ∀ c ∈ names d.reach, hasType (metadata d ds dates) "rf_channel" c = true :=
    fun c hc => by rw [hasType_rf h]; exact decide_eq_true hc
  by_cases hagg : ∃ a, d.rfSpend = some (.aggregated a)
  · obtain ⟨a, ha⟩ := hagg
    obtain ⟨m, hm, hshape⟩ := h.rfSpend _ ha
    have hms := (h.reach m hm).1
    have hl : grid d.kpi.geos mt (pPoint d ivs) ++ extras d ivs =
        (grid d.kpi.geos mt (pPoint d ivs) ++ mediaSpendPoint d.mediaSpend ivs) ++
          aggRf a ivs :: [] := by
      unfold extras
      rw [ha, List.append_assoc]
      rfl
    rw [hl, ha]
    refine load_spend_aggregated (keys := m.keys) hivs hne hshape hms.some_key hms.distinct
      (get_reach_dim hm ds) ?_ ?_ (by simp) (rfSpends_agg a ivs) rfl rfl
    · intro c hc; exact htype c (by rw [hm]; exact hc)
    · intro p hp
      rcases List.mem_append.1 hp with hp | hp
      · obtain ⟨g, -, hp⟩ := List.mem_flatMap.1 hp
        obtain ⟨t, -, rfl⟩ := List.mem_map.1 hp
        rw [rfSpends_point h, ha]
        rfl
      · exact rfSpends_mediaPoint hp
  · have hmap : d.rfSpend = (granular d.rfSpend).map .granular := by
      cases hs : d.rfSpend with
      | none => rfl
      | some s =>
        cases s with
        | granular b => rfl
        | aggregated a => exact absurd ⟨a, hs⟩ hagg
    conv_rhs => rw [hmap]
    refine load_spend_granular (keys := names d.reach) h hi (granular_rf h) htype
      (rfSpends_point h ivs) fun p hp => ?_
    rcases List.mem_append.1 hp with hp | hp
    · exact rfSpends_mediaPoint hp
    · obtain ⟨a, ha, -⟩ := mem_rfSpendPoint hp
      exact absurd ⟨a, ha⟩ hagg

theorem load_reachLike (h : Ordinary cal mt dates d) {m : Meta} {type : String}
    {ivs : List (String × Interval)} (hi : Dated cal mt ivs) (hne : ivs ≠ []) {a f s : Option Arr3}
    (ha : ∀ b ∈ a, Shape3 d.kpi.geos mt b ∧ Numbers b) (hp : a = none ↔ f = none)
    (hf : ∀ g t, ((pPoint d ivs g t).rf.filter fun v => hasType m type v.channel) =
      pRf a f s g t) :
    gather3 (rfCells cal m type fun v => some (v.reach : ℚ))
      (grid d.kpi.geos mt (pPoint d ivs) ++ extras d ivs) = .ok (a.map wholeArr) := by
  refine load_rf h hi hne ?_ ?_ ?_ hf
  · rw [Option.map_eq_none_iff, ← hp, or_self]
  · intro b hb
    obtain ⟨a', ha', rfl⟩ := Option.map_eq_some_iff.1 hb
    refine ⟨shape_whole (ha a' ha').1, ?_⟩
    rw [ha']
    rfl
  · intro b hb a' ha' f' _ g mg t mm k mk
    rw [Option.mem_def.1 ha'] at hb
    cases hb
    have hsh := (ha a' ha').1
    rw [cell_whole hsh mg mm mk]
    obtain ⟨r, hr, c, hc, hv⟩ := cell_mem hsh mg mm mk
    obtain ⟨q, hq⟩ := Option.ne_none_iff_exists'.1 ((ha a' ha').2 r hr c hc _ hv)
    rw [hq, whole_some]
    rfl

theorem load_frequencyLike (h : Ordinary cal mt dates d) {m : Meta} {type : String}
    {ivs : List (String × Interval)} (hi : Dated cal mt ivs) (hne : ivs ≠ []) {a f s : Option Arr3}
    (hfs : ∀ b ∈ f, Shape3 d.kpi.geos mt b) (hp : a = none ↔ f = none) (hn : names a = names f)
    (hf : ∀ g t, ((pPoint d ivs g t).rf.filter fun v => hasType m type v.channel) =
      pRf a f s g t) :
    gather3 (rfCells cal m type RfVar.frequency)
      (grid d.kpi.geos mt (pPoint d ivs) ++ extras d ivs) = .ok f := by
  refine load_rf h hi hne ?_ ?_ ?_ hf
  · rw [hp, or_self]
  · intro b hb
    refine ⟨hfs b hb, ?_⟩
    rw [hn, Option.mem_def.1 hb]
    rfl
  · intro b hb a' _ f' hf' g _ t _ k _
    rw [Option.mem_def.1 hb] at hf'
    cases hf'
    rfl

theorem ones_eq {kpi r : Arr2} (h : IsOnes kpi r) : onesLike kpi = r := by
  obtain ⟨h1, h2, h3⟩ := h
  obtain ⟨rg, rt, rv⟩ := r
  simp only at h1 h2 h3
  subst h1 h2 h3
  unfold onesLike
  rw [Arr2.mk.injEq]
  refine ⟨rfl, rfl, ?_⟩
  rw [List.map_const', List.map_const']

/-- **C68.** Ordinary input data can be saved, what was saved can be loaded, and everything is read
back as it was, except for the fractions of reach and organic reach. -/
theorem save_then_load (h : Ordinary cal mt dates d) :
    ∃ p, save cal d = .ok p ∧ load cal p = .ok (kept d) := by
  obtain ⟨ivs, ds, hivs, hne, hi, hsave⟩ := save_ok h
  refine ⟨_, hsave, ?_⟩
  rw [List.append_assoc]
  show load cal ⟨grid d.kpi.geos mt (pPoint d ivs) ++ extras d ivs, metadata d ds dates⟩ = _
  have e1 := load_kpiType h hne
  have e2 := load_kpi h hi hne
  have e3 : gather3 (entryCells cal Point.controls)
      (grid d.kpi.geos mt (pPoint d ivs) ++ extras d ivs) = .ok d.controls :=
    load_entries h hi h.controls (fun _ _ => rfl) fun p hp => (extras_spec hne hp).2.1
  have e4 : gather3 (entryCells cal Point.nonMedia)
      (grid d.kpi.geos mt (pPoint d ivs) ++ extras d ivs) = .ok d.nonMedia :=
    load_entries h hi h.nonMedia (fun _ _ => rfl) fun p hp => (extras_spec hne hp).2.2.1
  have e5 := load_media h hi hne h.media (filter_media h ds ivs)
  have e6 := load_media h hi hne h.organicMedia (filter_organicMedia h ds ivs)
  have e7 := load_mediaSpend h (ds := ds) hi hivs hne
  have e8 := load_rfSpend h (ds := ds) hi hivs hne
  have e9 := load_reachLike h hi hne h.reach h.pairs.1 (filter_rf h ds ivs)
  have e10 := load_frequencyLike h hi hne h.frequency h.pairs.1 h.pairs.2 (filter_rf h ds ivs)
  have e11 := load_reachLike h hi hne h.organicReach h.organicPairs.1 (filter_organicRf h ds ivs)
  have e12 := load_frequencyLike h hi hne h.organicFrequency h.organicPairs.1 h.organicPairs.2
    (filter_organicRf h ds ivs)
  have e13 := load_population h hne
  have e14 : loadCurrency (metadata d ds dates) = d.currency := by
    unfold loadCurrency metadata
    cases hc : d.currency with
    | none => rfl
    | some x =>
      simp only [Option.getD_some]
      rw [if_neg]
      rintro rfl
      exact h.currency hc
  unfold load
  cases hkt : d.kpiType with
  | revenue =>
    rw [hkt] at e1 e2
    simp only [e1, e2, e3, e4, e5, e6, e7, e8, e9, e10, e11, e12, e13, e14, loadRevenue, bind,
      Except.bind, pure, Except.pure, create]
    obtain ⟨r, hr, ho⟩ := h.ones hkt
    unfold kept
    rw [ones_eq ho]
    congr 1
    rw [Data.mk.injEq]
    exact ⟨rfl, hkt.symm, rfl, rfl, hr.symm, rfl, rfl, rfl, rfl, rfl, rfl, rfl, rfl, rfl, rfl⟩
  | nonRevenue =>
    have e15 := load_revenue h hi hne hkt
    rw [hkt] at e1 e2
    simp only [e1, e2, e3, e4, e5, e6, e7, e8, e9, e10, e11, e12, e13, e14, e15, loadRevenue, bind,
      Except.bind, pure, Except.pure, create]
    unfold kept
    congr 1
    rw [Data.mk.injEq]
    exact ⟨rfl, hkt.symm, rfl, rfl, rfl, rfl, rfl, rfl, rfl, rfl, rfl, rfl, rfl, rfl, rfl⟩

/-- **C68.** The data come back unchanged exactly when reach and organic reach, if there are any, are
whole numbers. -/
theorem unchanged_iff (h : Ordinary cal mt dates d) :
    (∃ p, save cal d = .ok p ∧ load cal p = .ok d) ↔
      (∀ a ∈ d.reach, Whole a) ∧ ∀ a ∈ d.organicReach, Whole a := by
  obtain ⟨p, h1, h2⟩ := save_then_load h
  have key : kept d = d ↔ (∀ a ∈ d.reach, Whole a) ∧ ∀ a ∈ d.organicReach, Whole a := by
    constructor
    · intro e
      have er : d.reach.map wholeArr = d.reach := congrArg Data.reach e
      have eo : d.organicReach.map wholeArr = d.organicReach := congrArg Data.organicReach e
      constructor
      · intro a ha
        rw [Option.mem_def.1 ha] at er
        exact whole_of_eq (h.reach a ha).2 (Option.some.inj er)
      · intro a ha
        rw [Option.mem_def.1 ha] at eo
        exact whole_of_eq (h.organicReach a ha).2 (Option.some.inj eo)
    · rintro ⟨hr, ho⟩
      have er : d.reach.map wholeArr = d.reach := by
        cases ha : d.reach with
        | none => rfl
        | some a => rw [Option.map_some, whole_of_whole (hr a ha)]
      have eo : d.organicReach.map wholeArr = d.organicReach := by
        cases ha : d.organicReach with
        | none => rfl
        | some a => rw [Option.map_some, whole_of_whole (ho a ha)]
      unfold kept
      rw [er, eo]
  rw [← key]
  constructor
  · rintro ⟨p', h1', h2'⟩
    rw [h1] at h1'
    cases h1'
    rw [h2] at h2'
    exact Except.ok.inj h2'
  · intro e
    exact ⟨p, h1, by rw [h2, e]⟩

theorem mapE_length {α β : Type} {f : α → Except Err β} {l : List α} {bs : List β}
    (h : mapE f l = .ok bs) : bs.length = l.length := by
  induction l generalizing bs with
  | nil => cases h; rfl
  | cons a l ih =>
    simp only [mapE] at h
    split at h
    · cases h
    · split at h
      · cases h
      · rename_i hm
        cases h
        rw [List.length_cons, List.length_cons, ih hm]

/-- **C68.** Data with fewer than two media times cannot be saved. -/
theorem one_period_not_saved (cal : Cal) (d : Data) (ts : List String) (h : mediaTime d = .ok ts)
    (hl : ts.length < 2) : ∃ e, save cal d = .error e := by
  unfold save
  simp only [h, bind, Except.bind]
  cases hp : parseAll cal ts with
  | error e => exact ⟨e, rfl⟩
  | ok ds =>
    have hlen := mapE_length hp
    have : dateIntervals cal ds = .error (.times .tooFewDates) := by
      unfold dateIntervals TimeCoordinates.create
      rw [if_pos (by omega)]
    simp only [this]
    exact ⟨_, rfl⟩

theorem lt_irrefl' (a : CDate) : a.lt a = false := by simp [CDate.lt]

theorem lt_trans' {a b c : CDate} (h1 : a.lt b = true) (h2 : b.lt c = true) : a.lt c = true := by
  simp only [CDate.lt, Bool.or_eq_true, Bool.and_eq_true, decide_eq_true_eq] at *
  omega

theorem not_lt_trans' {a b c : CDate} (h1 : b.lt a = true) (h2 : c.lt a = false) : c.lt b = false := by
  by_contra h
  rw [Bool.not_eq_false] at h
  rw [lt_trans' h h1] at h2
  cases h2

theorem first_spec (l : List Interval) (i : Interval) :
    let f := l.foldl (fun a b => if b.start.lt a.start then b else a) i
    f ∈ i :: l ∧ ∀ b ∈ i :: l, b.start.lt f.start = false := by
  induction l generalizing i with
  | nil => simp [lt_irrefl']
  | cons x xs ih =>
    simp only [List.foldl_cons]
    obtain ⟨h1, h2⟩ := ih (if x.start.lt i.start then x else i)
    by_cases hx : x.start.lt i.start = true
    · simp only [hx, if_true] at h1 h2 ⊢
      refine ⟨List.mem_cons_of_mem _ h1, ?_⟩
      intro b hb
      rcases List.mem_cons.1 hb with rfl | hb
      · have hxf := h2 x List.mem_cons_self
        by_contra hc
        rw [Bool.not_eq_false] at hc
        rw [lt_trans' hx hc] at hxf
        cases hxf
      · exact h2 b hb
    · simp only [hx, Bool.false_eq_true, if_false] at h1 h2 ⊢
      refine ⟨?_, ?_⟩
      · rcases List.mem_cons.1 h1 with h1 | h1
        · rw [h1]; exact List.mem_cons_self
        · exact List.mem_cons_of_mem _ (List.mem_cons_of_mem _ h1)
      · intro b hb
        rcases List.mem_cons.1 hb with rfl | hb
        · exact h2 b List.mem_cons_self
        · rcases List.mem_cons.1 hb with rfl | hb
          · have hif := h2 i List.mem_cons_self
            by_contra hc
            rw [Bool.not_eq_false] at hc
            rw [Bool.not_eq_true] at hx
            simp only [CDate.lt, Bool.or_eq_true, Bool.and_eq_true, decide_eq_true_eq,
              Bool.or_eq_false_iff, Bool.and_eq_false_iff, decide_eq_false_iff_not] at hc hx hif
            omega
          · exact h2 b (List.mem_cons_of_mem _ hb)

theorem last_spec (l : List Interval) (i : Interval) :
    let f := l.foldl (fun a b => if a.stop < b.stop then b else a) i
    f ∈ i :: l ∧ ∀ b ∈ i :: l, b.stop ≤ f.stop := by
  induction l generalizing i with
  | nil => simp
  | cons x xs ih =>
    simp only [List.foldl_cons]
    obtain ⟨h1, h2⟩ := ih (if i.stop < x.stop then x else i)
    by_cases hx : i.stop < x.stop
    · simp only [hx, if_true] at h1 h2 ⊢
      refine ⟨List.mem_cons_of_mem _ h1, ?_⟩
      intro b hb
      rcases List.mem_cons.1 hb with rfl | hb
      · have := h2 x List.mem_cons_self
        omega
      · exact h2 b hb
    · simp only [hx, if_false] at h1 h2 ⊢
      refine ⟨?_, ?_⟩
      · rcases List.mem_cons.1 h1 with h1 | h1
        · rw [h1]; exact List.mem_cons_self
        · exact List.mem_cons_of_mem _ (List.mem_cons_of_mem _ h1)
      · intro b hb
        rcases List.mem_cons.1 hb with rfl | hb
        · exact h2 b List.mem_cons_self
        · rcases List.mem_cons.1 hb with rfl | hb
          · have := h2 i List.mem_cons_self
            omega
          · exact h2 b (List.mem_cons_of_mem _ hb)

theorem mapE_forall {α β : Type} {f : α → Except Err β} {P : β → Prop} (hf : ∀ a b, f a = .ok b → P b)
    {l : List α} {bs : List β} (h : mapE f l = .ok bs) : ∀ b ∈ bs, P b := by
  induction l generalizing bs with
  | nil => simp only [mapE, Except.ok.injEq] at h; subst h; simp
  | cons a l ih =>
    simp only [mapE] at h
    cases ha : f a with
    | error e => rw [ha] at h; simp at h
    | ok b =>
      rw [ha] at h
      cases hl : mapE f l with
      | error e => rw [hl] at h; simp at h
      | ok bs' =>
        rw [hl] at h
        simp only [Except.ok.injEq] at h
        subst h
        intro c hc
        rcases List.mem_cons.1 hc with rfl | hc
        · exact hf a _ ha
        · exact ih hl c hc

theorem point_geo {d : Data} {ivs : List (String × Interval)} {g t : String} {q : Point}
    (h : point d ivs g t = .ok q) : q.geo ≠ none := by
  unfold point at h
  simp only [bind, Except.bind, pure, Except.pure] at h
  repeat' split at h
  all_goals first
    | cases h; done
    | (cases h; exact Option.some_ne_none _)

/-- **C68 (the record of total spend).** A record without a geo, which holds the spend of the whole time,
covers exactly the media times: its interval begins with the first period and ends with the last one. -/
theorem total_spend_interval (cal : Cal) (d : Data) (p : Proto) (h : save cal d = .ok p) :
    ∃ ivs, dateIntervals cal p.info.mediaTimes = .ok ivs ∧
      ∀ q ∈ p.points, q.geo = none → ivs ≠ [] → ∃ i, q.interval = some i ∧
        (∃ e ∈ ivs, e.2.start = i.start) ∧ (∃ e ∈ ivs, e.2.stop = i.stop) ∧
        ∀ e ∈ ivs, e.2.start.lt i.start = false ∧ e.2.stop ≤ i.stop := by
  unfold save at h
  simp only [bind, Except.bind] at h
  cases h1 : mediaTime d with
  | error e => rw [h1] at h; simp at h
  | ok mt =>
    rw [h1] at h
    simp only at h
    cases h2 : parseAll cal mt with
    | error e => rw [h2] at h; simp at h
    | ok mds =>
      rw [h2] at h
      simp only at h
      cases h3 : dateIntervals cal mds with
      | error e => rw [h3] at h; simp at h
      | ok ivs =>
        rw [h3] at h
        simp only at h
        cases h4 : mapE (fun p => point d ivs p.1 p.2)
            (d.kpi.geos.flatMap fun g => mt.map fun t => (g, t)) with
        | error e => rw [h4] at h; simp at h
        | ok pts =>
          rw [h4] at h
          simp only at h
          cases h5 : parseAll cal d.kpi.times with
          | error e => rw [h5] at h; simp at h
          | ok ds =>
            rw [h5] at h
            simp only [pure, Except.pure, Except.ok.injEq] at h
            subst h
            refine ⟨ivs, h3, ?_⟩
            intro q hq hgeo hne
            have hspan : q.interval = span (ivs.map Prod.snd) := by
              simp only [List.mem_append] at hq
              rcases hq with (hq | hq) | hq
              · exact absurd hgeo (mapE_forall (fun a b => point_geo) h4 q hq)
              · unfold mediaSpendPoint at hq
                split at hq
                · simp only [List.mem_singleton] at hq; subst hq; rfl
                · simp at hq
              · unfold rfSpendPoint at hq
                split at hq
                · simp only [List.mem_singleton] at hq; subst hq; rfl
                · simp at hq
            cases ivs with
            | nil => exact absurd rfl hne
            | cons e es =>
              rw [hspan]
              refine ⟨_, rfl, ?_⟩
              obtain ⟨a1, a2⟩ := first_spec (es.map Prod.snd) e.2
              obtain ⟨b1, b2⟩ := last_spec (es.map Prod.snd) e.2
              rw [← List.map_cons] at a1 b1
              obtain ⟨x, hx, hx'⟩ := List.mem_map.1 a1
              obtain ⟨y, hy, hy'⟩ := List.mem_map.1 b1
              refine ⟨⟨x, hx, by rw [hx']⟩, ⟨y, hy, by rw [hy']⟩, ?_⟩
              intro z hz
              have hz' : z.2 ∈ e.2 :: es.map Prod.snd := by
                rw [← List.map_cons]; exact List.mem_map_of_mem hz
              exact ⟨a2 _ hz', b2 _ hz'⟩

/-! ## Concrete cases -/

/-- Dates of three weeks; the first also in a short form, which `strptime` accepts. -/
def cal3 : Cal where
  parse s :=
    if s = "2024-01-01" then some ⟨2024, 1, 1⟩
    else if s = "2024-01-08" then some ⟨2024, 1, 8⟩
    else if s = "2024-01-15" then some ⟨2024, 1, 15⟩
    else if s = "2024-1-1" then some ⟨2024, 1, 1⟩
    else if s = "2024-1-8" then some ⟨2024, 1, 8⟩
    else none
  fmt d :=
    if d = ⟨2024, 1, 1⟩ then "2024-01-01"
    else if d = ⟨2024, 1, 8⟩ then "2024-01-08"
    else if d = ⟨2024, 1, 15⟩ then "2024-01-15"
    else ""

/-- Two geos, three media times, of which the last two are times; media with spend by geo and time,
reach and frequency with spend by channel, organic media, controls, revenue per KPI. -/
def sample : Data where
  kpi := ⟨["a", "b"], ["2024-01-08", "2024-01-15"], [[some 1, some 2], [some 3, some 4]]⟩
  kpiType := .nonRevenue
  population := ⟨["a", "b"], [some 10, some 20]⟩
  controls := some ⟨["a", "b"], ["2024-01-08", "2024-01-15"], ["x"],
    [[[some 5], [some 6]], [[none], [some 8]]]⟩
  revenuePerKpi := some ⟨["a", "b"], ["2024-01-08", "2024-01-15"],
    [[some (1/2), some 2], [some 3, some 4]]⟩
  media := some ⟨["a", "b"], ["2024-01-01", "2024-01-08", "2024-01-15"], ["tv", "radio"],
    [[[some 1, some 2], [some 3, some 4], [some 5, some 6]],
     [[some 7, some 8], [some 9, some 10], [some 11, some 12]]]⟩
  mediaSpend := some (.granular ⟨["a", "b"], ["2024-01-08", "2024-01-15"], ["tv", "radio"],
    [[[some 1, some 2], [some 3, some 4]], [[some 5, some 6], [some 7, some 8]]]⟩)
  reach := some ⟨["a", "b"], ["2024-01-01", "2024-01-08", "2024-01-15"], ["video"],
    [[[some (3/2)], [some 2], [some 3]], [[some 4], [some 5], [some 6]]]⟩
  frequency := some ⟨["a", "b"], ["2024-01-01", "2024-01-08", "2024-01-15"], ["video"],
    [[[some (1/2)], [some 1], [some 1]], [[some 1], [some 1], [some (7/3)]]]⟩
  rfSpend := some (.aggregated ⟨["video"], [some 100]⟩)
  organicMedia := some ⟨["a", "b"], ["2024-01-01", "2024-01-08", "2024-01-15"], ["blog"],
    [[[some 1], [some 2], [some 3]], [[some 4], [some 5], [some 6]]]⟩
  currency := some "USD"

theorem sample_ordinary : Ordinary cal3 ["2024-01-01", "2024-01-08", "2024-01-15"]
    [⟨2024, 1, 1⟩, ⟨2024, 1, 8⟩, ⟨2024, 1, 15⟩] sample := by
  have sh : ∀ (gs ts : List String) (a : Arr3), a.geos = gs → a.times = ts → a.keys ≠ [] →
      a.keys.Nodup → a.vals.length = gs.length → (∀ r ∈ a.vals, r.length = ts.length) →
      (∀ r ∈ a.vals, ∀ c ∈ r, c.length = a.keys.length) → Shape3 gs ts a :=
    fun _ _ _ h1 h2 h3 h4 h5 h6 h7 => ⟨h1, h2, h3, h4, h5, h6, h7⟩
  refine
    { geos := by decide
      parsed := by decide
      written := by decide
      axis := ⟨by decide, by decide, by unfold TimeCoordinates.Spec.Increasing; decide +kernel, .inl ⟨7, ?_⟩⟩
      times := by decide
      kpi := ⟨rfl, rfl, rfl, by decide⟩
      population := by decide
      controls := ?_
      revenue := ?_
      media := ?_
      reach := ?_
      frequency := ?_
      organicMedia := ?_
      organicReach := fun a h => by cases h
      organicFrequency := fun a h => by cases h
      nonMedia := fun a h => by cases h
      paid := by decide
      mediaSpend := ?_
      rfSpend := ?_
      pairs := by decide
      organicPairs := by decide
      distinct := by decide
      ones := fun h => by cases h
      currency := by decide }
  · rintro a b ⟨i, h1, h2⟩
    match i with
    | 0 => cases h1; cases h2; decide +kernel
    | 1 => cases h1; cases h2; decide +kernel
    | n + 2 => simp at h2
  · rintro a h; cases h
    exact sh _ _ _ rfl rfl (by decide) (by decide) rfl (by decide) (by decide)
  · rintro a h; cases h
    exact ⟨rfl, rfl, rfl, by decide⟩
  · rintro a h; cases h
    exact sh _ _ _ rfl rfl (by decide) (by decide) rfl (by decide) (by decide)
  · rintro a h; cases h
    exact ⟨sh _ _ _ rfl rfl (by decide) (by decide) rfl (by decide) (by decide),
      by unfold Numbers; decide +kernel⟩
  · rintro a h; cases h
    exact sh _ _ _ rfl rfl (by decide) (by decide) rfl (by decide) (by decide)
  · rintro a h; cases h
    exact sh _ _ _ rfl rfl (by decide) (by decide) rfl (by decide) (by decide)
  · rintro a h; cases h
    exact ⟨_, rfl, sh _ _ _ rfl rfl (by decide) (by decide) rfl (by decide) (by decide), rfl⟩
  · rintro a h; cases h
    exact ⟨_, rfl, rfl, rfl⟩

example : ∃ p, save cal3 sample = .ok p ∧ load cal3 p = .ok (kept sample) :=
  save_then_load sample_ordinary

/-- **C68, violated.** Fractions of reach are lost: 3/2 becomes 1. -/
theorem reach_fraction_lost : ∃ p d', save cal3 sample = .ok p ∧ load cal3 p = .ok d' ∧
    (sample.reach.map fun a => a.vals[0]?) = some (some [[some (3/2)], [some 2], [some 3]]) ∧
    (d'.reach.map fun a => a.vals[0]?) = some (some [[some 1], [some 2], [some 3]]) := by
  obtain ⟨p, h1, h2⟩ := save_then_load sample_ordinary
  exact ⟨p, kept sample, h1, h2, by decide +kernel, by decide +kernel⟩

/-- Save and load. -/
def saveLoad (cal : Cal) (d : Data) : Except Err Data :=
  match save cal d with
  | .error e => .error e
  | .ok p => load cal p

/-- One geo and one media channel, with the given labels. -/
def tiny (g : String) (mt ts cs : List String) : Data where
  kpi := ⟨[g], ts, [ts.map fun _ => some 1]⟩
  kpiType := .nonRevenue
  population := ⟨[g], [some 10]⟩
  controls := some ⟨[g], cs, ["x"], [cs.map fun _ => [some 5]]⟩
  media := some ⟨[g], mt, ["tv"], [mt.map fun _ => [some 1]]⟩
  mediaSpend := some (.aggregated ⟨["tv"], [some 100]⟩)

example : saveLoad cal3 (tiny "a" ["2024-01-01", "2024-01-08"] ["2024-01-08"] ["2024-01-08"]) =
    .ok (tiny "a" ["2024-01-01", "2024-01-08"] ["2024-01-08"] ["2024-01-08"]) := by decide +kernel

/-- **C68, violated.** Dates that are valid but not written with two digits are saved, but cannot be
loaded. -/
theorem short_dates_not_loaded :
    (save cal3 (tiny "a" ["2024-1-1", "2024-1-8"] ["2024-1-8"] ["2024-1-8"])).isOk = true ∧
      saveLoad cal3 (tiny "a" ["2024-1-1", "2024-1-8"] ["2024-1-8"] ["2024-1-8"]) =
        .error .notADate := by decide +kernel

/-- **C68, violated.** Controls whose dates are not media times are lost without an error. -/
theorem other_dates_lost :
    saveLoad cal3 (tiny "a" ["2024-01-01", "2024-01-08"] ["2024-01-08"] ["2024-01-15"]) =
      .ok { tiny "a" ["2024-01-01", "2024-01-08"] ["2024-01-08"] ["2024-01-15"] with
        controls := none } := by decide +kernel

/-- **C68, violated.** The media and the population of a geo without a name are lost without an
error. -/
theorem unnamed_geo_lost :
    saveLoad cal3 (tiny "" ["2024-01-01", "2024-01-08"] ["2024-01-08"] ["2024-01-08"]) =
      .ok { tiny "" ["2024-01-01", "2024-01-08"] ["2024-01-08"] ["2024-01-08"] with
        population := ⟨[], []⟩, media := none } := by decide +kernel

/-- Two geos, in another order in the media than in the KPI. -/
def crossed : Data where
  kpi := ⟨["a", "b"], ["2024-01-01", "2024-01-08"], [[some 1, some 2], [some 3, some 4]]⟩
  kpiType := .nonRevenue
  population := ⟨["a", "b"], [some 10, some 20]⟩
  media := some ⟨["b", "a"], ["2024-01-01", "2024-01-08"], ["tv"],
    [[[some 7], [some 8]], [[some 5], [some 6]]]⟩
  mediaSpend := some (.aggregated ⟨["tv"], [some 100]⟩)

/-- **C68, violated.** If the geos of two arrays are in different orders, which is accepted and which
the model combines by position, then the rows are in another order after loading. -/
theorem order_of_geos_changed :
    saveLoad cal3 crossed = .ok { crossed with
      media := some ⟨["a", "b"], ["2024-01-01", "2024-01-08"], ["tv"],
        [[[some 5], [some 6]], [[some 7], [some 8]]]⟩ } := by decide +kernel

/-- **C68, violated.** An empty currency code is read back as none. -/
theorem empty_currency_lost :
    saveLoad cal3 { tiny "a" ["2024-01-01", "2024-01-08"] ["2024-01-08"] ["2024-01-08"] with
      currency := some "" } =
      .ok (tiny "a" ["2024-01-01", "2024-01-08"] ["2024-01-08"] ["2024-01-08"]) := by decide +kernel

end Verif.DataSerde.Props
